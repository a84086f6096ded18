import Verif.Proofs.Resave
import Verif.Props.Termination
import Verif.Props.RoundTrip41

/-!
# Properties: the shape of loaded specs, and saving them again

C17, C18.
-/

namespace MshIO

/-! ## C17 -/

/-- **C17** Whatever the bytes: if `load_msh` returns, the spec has a known version, the block counters are the numbers of
blocks, node blocks have as many tags as nodes and the announced number of coordinates, element blocks have a known type
and the announced number of entries, data sections have the announced entries, curves and patches the announced numbers. -/
theorem C17_shape (cfg : Cfg) (bytes : Bytes) (s : MshSpec) (h : loadMsh cfg bytes = .ok s) : s.Loaded :=
  (loadMsh_inv h).1.loaded

/-- **C17** No vector of a loaded spec exceeds what the platform allows, and there are fewer than `2^31` physical groups. -/
theorem C17_fits (cfg : Cfg) (bytes : Bytes) (s : MshSpec) (h : loadMsh cfg bytes = .ok s) : s.Fits cfg :=
  (loadMsh_inv h).1.fits

/-- **C17** A spec loaded in version 2.2 has plain node blocks: one tag and exactly three coordinates per node. -/
theorem C17_nodes22 (cfg : Cfg) (bytes : Bytes) (s : MshSpec) (h : loadMsh cfg bytes = .ok s)
    (hv : s.meshFormat.version = b! "2.2") (b : NodeBlock) (hb : b ∈ s.nodes.entityBlocks) :
    b.parametric = 0 ∧ b.tags.length = b.numNodesInBlock.toNat ∧ b.data.length = 3 * b.tags.length := by
  obtain ⟨h1, h2⟩ := loadMsh_inv h
  have h0 := h2 hv b hb
  have ok := (h1.nodes.block b hb).ok h0
  refine ⟨h0, ok.tags, ?_⟩
  rw [ok.data, ok.tags, NodeBlock.coords, if_neg (by rw [h0]; decide), Nat.mul_comm]

/-- **C17** Without wrap-around, negative entity dimensions and negative field counts, a loaded spec is consistent in the
sense of the round-trip theorems. -/
theorem C17_ok (cfg : Cfg) (bytes : Bytes) (s : MshSpec) (h : loadMsh cfg bytes = .ok s) (hw : s.NoWrap)
    (hdim : ∀ b ∈ s.nodes.entityBlocks, b.parametric = 1 → 0 ≤ b.entityDim.toInt)
    (hdata : ∀ d ∈ s.nodeData ++ s.elementData ++ s.elementNodeData, ∀ t ∈ d.header.intTags, 0 ≤ t.toInt)
    (hper : ∀ d ∈ s.elementNodeData, ∀ e ∈ d.entries, 0 ≤ e.numNodesPerElement.toInt) : s.Ok := by
  have l := C17_shape cfg bytes s h
  have hdat : ∀ i, ∀ d : Data, d.Loaded i → (∀ t ∈ d.header.intTags, 0 ≤ t.toInt) →
      (i = true → ∀ e ∈ d.entries, 0 ≤ e.numNodesPerElement.toInt) → d.Ok i := by
    rintro i d ⟨t0, fields, num, more, h1, h2, h3⟩ hn hp
    have hfield : 0 ≤ fields.toInt := hn fields (by rw [h1]; simp)
    refine ⟨t0, fields, num, more, h1, h2, hfield, fun e he => ?_⟩
    have := h3 e he
    cases i with
    | false => exact this
    | true =>
      have hp := hp rfl e he
      refine ⟨hp, ?_⟩
      simp only [if_true] at this
      rw [this, Int.emod_eq_of_lt (Int.mul_nonneg hfield hp)]
      have b1 := fields.toInt_lt
      have b2 := e.numNodesPerElement.toInt_lt
      calc fields.toInt * e.numNodesPerElement.toInt ≤ 2 ^ 31 * 2 ^ 31 := Int.mul_le_mul (by omega) (by omega) hp (by norm_num)
        _ < 2 ^ 64 := by norm_num
  refine ⟨l.nodeBlocks, fun b hb => ⟨fun hp => ?_, (l.node b hb).tags, ?_⟩, l.elementBlocks, fun b hb => ?_,
    fun d hd => hdat _ d (l.nodeData d hd) (hdata d (by simp [hd])) (by simp),
    fun d hd => hdat _ d (l.elementData d hd) (hdata d (by simp [hd])) (by simp),
    fun d hd => hdat _ d (l.elementNodeData d hd) (hdata d (by simp [hd])) fun _ => hper d hd,
    fun c hc => ?_, fun c hc => ?_⟩
  · have := hdim b hb hp
    have := (l.node b hb).dim hp
    omega
  · have h1 := (l.node b hb).data
    rw [Nat.mod_eq_of_lt (hw.node b hb)] at h1
    rw [h1, NodeBlock.perNode, NodeBlock.coords]
    split
    · rename_i hp
      have h2 := hdim b hb hp
      have h3 := (l.node b hb).dim hp
      congr 1
      rw [Int.emod_eq_of_lt (by omega) (by omega)]
      omega
    · rfl
  · obtain ⟨n, h1, h2⟩ := l.element b hb
    exact ⟨n, h1, by rw [h2, Nat.mod_eq_of_lt (hw.element b hb n h1)]⟩
  · have := l.curve c hc
    unfold Curve.Loaded at this
    rwa [Nat.mod_eq_of_lt (hw.curve c hc)] at this
  · have := l.patch c hc
    unfold Patch.Loaded at this
    rwa [Nat.mod_eq_of_lt (hw.patch c hc)] at this

/-- A binary file announcing `6148914691236517206` lines of two nodes in a vector of two numbers. -/
def wrapFile : Bytes := b! "$MeshFormat\n4.1 1 8\n" ++ [1, 0, 0, 0] ++ b! "\n$EndMeshFormat\n$Elements\n" ++
  (encU64 1 ++ encU64 1 ++ encU64 1 ++ encU64 1) ++ (encI32 1 ++ encI32 1 ++ encI32 1 ++ encU64 6148914691236517206) ++
  (encU64 7 ++ encU64 7) ++ b! "\n$EndElements\n"

/-- What it loads to. -/
def wrapSpec (t : Int32) : MshSpec where
  meshFormat := ⟨b! "4.1", t, 8⟩
  elements := ⟨1, 1, 1, 1, [⟨1, 1, 1, 6148914691236517206, [7, 7]⟩]⟩

/-- **C17** "Modulo `2^64`" is needed: a file may announce more elements than it has. -/
theorem C17_wraps : loadMsh demoCfg wrapFile = .ok (wrapSpec 1) ∧ ¬ (wrapSpec 1).NoWrap := by
  refine ⟨by decide +kernel, fun h => ?_⟩
  have := h.element _ (List.mem_singleton_self _) 2 rfl
  revert this
  decide

/-! ## C18 -/

/-- **C18** What was loaded can be saved, by any build and with any precision, if the counts in it do not wrap around. -/
theorem C18_saves (cfg cfg' : Cfg) (bytes : Bytes) (s : MshSpec) (h : loadMsh cfg bytes = .ok s) (hw : s.NoWrap) :
    (saveMsh cfg' s).2 = .ok () := by
  obtain ⟨h1, h2⟩ := loadMsh_inv h
  exact saveMsh_goes cfg' s h1.version (nodes_goes cfg cfg' _ _ h1.nodes h1.version h2 fun _ _ => hw.node)
    (elements_goes cfg _ _ h1.elements h1.version fun _ => hw.element)
    (fun _ => curves_goes cfg cfg' _ _ h1.curves fun _ => hw.curve)
    fun _ => patches_goes cfg cfg' _ _ h1.patches fun _ => hw.patch

/-- **C18** A spec loaded in version 4.1 with a binary file type can be saved without any condition. -/
theorem C18_binary41 (cfg cfg' : Cfg) (bytes : Bytes) (s : MshSpec) (h : loadMsh cfg bytes = .ok s)
    (hv : s.meshFormat.version = b! "4.1") (ht : s.meshFormat.fileType ≠ 0) : (saveMsh cfg' s).2 = .ok () := by
  obtain ⟨h1, h2⟩ := loadMsh_inv h
  exact saveMsh_goes cfg' s h1.version (nodes_goes cfg cfg' _ _ h1.nodes h1.version h2 fun _ h => absurd h ht)
    (elements_goes cfg _ _ h1.elements h1.version fun h => absurd ⟨hv, ht⟩ h)
    (fun _ => curves_goes cfg cfg' _ _ h1.curves fun h => absurd h ht)
    fun _ => patches_goes cfg cfg' _ _ h1.patches fun h => absurd h ht

/-- The same file with a second `$MeshFormat` that turns the spec into an ASCII one. -/
def wrapFile2 : Bytes := wrapFile ++ b! "$MeshFormat\n4.1 0 8\n$EndMeshFormat\n"

/-- **C18** Some condition is needed: a file that loads, but whose spec is saved with an out-of-bounds read. -/
theorem C18_condition : ∃ bytes s, loadMsh demoCfg bytes = .ok s ∧ (saveMsh demoCfg s).2 = .ub :=
  ⟨wrapFile2, wrapSpec 0, by decide +kernel, by decide +kernel⟩

/-- **C18** Loading a binary 4.1 file, saving and loading again changes nothing but real tags (through decimal text), data
entry tags (through 32 bits) and what a 4.1 file cannot express. -/
theorem C18_again_binary41 (cfg : Cfg) (bytes : Bytes) (s : MshSpec) (h : loadMsh cfg bytes = .ok s)
    (hfmt : s.meshFormat = ⟨b! "4.1", 1, 8⟩) (hs : s.Ok) (hreal : ∀ x ∈ s.realTags, Printable cfg.fmt x)
    (hx : cfg.nanospline = true → Word s.nanosplineVersion) :
    ∃ file, saveMsh cfg s = (file, .ok ()) ∧
      loadMsh cfg file = .ok (s.convert cfg.nanospline wrap32 (reread cfg.fmt) id) :=
  C01_binary41 cfg s hfmt hs (C17_fits cfg bytes s h) hreal hx

/-- **C18** The same for an ASCII 4.1 file; every double passes through decimal text. -/
theorem C18_again_ascii41 (cfg : Cfg) (bytes : Bytes) (s : MshSpec) (h : loadMsh cfg bytes = .ok s)
    (hfmt : s.meshFormat = ⟨b! "4.1", 0, 8⟩) (hs : s.Ok) (hd : ∀ x ∈ s.doubles, Printable cfg.fmt x)
    (hpar : cfg.asserts = true → ∀ b ∈ s.nodes.entityBlocks, 0 ≤ b.parametric.toInt ∧ b.parametric.toInt ≤ 3)
    (hx : cfg.nanospline = true → Word s.nanosplineVersion) :
    ∃ file, saveMsh cfg s = (file, .ok ()) ∧
      loadMsh cfg file = .ok (s.convert cfg.nanospline id (reread cfg.fmt) (reread cfg.fmt)) :=
  C02_ascii41 cfg s hfmt hs (C17_fits cfg bytes s h) hd hpar hx

/-! ## A concrete file -/

/-- A hand-written file with a parametric node on a curve, a line and two values. -/
def handFile : Bytes := b! "$MeshFormat\n4.1 0 8\n$EndMeshFormat\n$Nodes\n1 2 1 2\n1 5 1 2\n1\n2\n0 0 0 0\n1 0 0 1\n$EndNodes\n$Elements\n1 1 1 1\n1 5 1 1\n1 1 2\n$EndElements\n$NodeData\n1 \"t\"\n1 0\n3 0 1 2\n1 1\n2 1\n$EndNodeData\n"

/-- What it loads to. -/
def handSpec : MshSpec where
  meshFormat := ⟨b! "4.1", 0, 8⟩
  nodes := ⟨1, 2, 1, 2, [⟨1, 5, 1, 2, [1, 2], [⟨0⟩, ⟨0⟩, ⟨0⟩, ⟨0⟩, ⟨0x3FF0000000000000⟩, ⟨0⟩, ⟨0⟩, ⟨0x3FF0000000000000⟩]⟩]⟩
  elements := ⟨1, 1, 1, 1, [⟨1, 5, 1, 1, [1, 1, 2]⟩]⟩
  nodeData := [⟨⟨[b! "t"], [⟨0⟩], [0, 1, 2]⟩, [⟨1, 0, [⟨0x3FF0000000000000⟩]⟩, ⟨2, 0, [⟨0x3FF0000000000000⟩]⟩]⟩]

theorem handFile_loads : loadMsh demoCfg handFile = .ok handSpec := by decide +kernel

theorem handSpec_noWrap : handSpec.NoWrap where
  node := by
    intro b hb
    rw [List.mem_singleton.mp hb]
    decide
  element := by
    intro b hb n hn
    rw [List.mem_singleton.mp hb] at hn ⊢
    cases hn
    decide
  curve := by simp [handSpec]
  patch := by simp [handSpec]

/-- Concrete cases of C17 and C18. -/
example : handSpec.Loaded ∧ handSpec.Fits demoCfg ∧ (saveMsh demoCfg handSpec).2 = .ok () :=
  ⟨C17_shape _ _ _ handFile_loads, C17_fits _ _ _ handFile_loads, C18_saves _ _ _ _ handFile_loads handSpec_noWrap⟩
example : (saveMsh demoCfg (wrapSpec 1)).2 = .ok () := C18_binary41 demoCfg demoCfg _ _ C17_wraps.1 rfl (by decide)
theorem handSpec_ok : handSpec.Ok := by
  refine C17_ok _ _ _ handFile_loads handSpec_noWrap ?_ ?_ ?_
  · intro b hb _
    rw [List.mem_singleton.mp hb]
    decide
  · intro d hd t ht
    rw [List.mem_singleton.mp (show d ∈ [_] from hd)] at ht
    revert t
    decide
  · intro d hd
    cases hd
theorem handSpec_printable : ∀ x ∈ handSpec.doubles, Printable (.general 6) x := by
  unfold Printable
  decide +kernel
example : ∃ file, saveMsh demoCfg handSpec = (file, .ok ()) ∧ loadMsh demoCfg file =
    .ok (handSpec.convert false id (reread (.general 6)) (reread (.general 6))) :=
  C18_again_ascii41 demoCfg _ _ handFile_loads rfl handSpec_ok handSpec_printable (by simp [demoCfg]) (by simp [demoCfg])

end MshIO
