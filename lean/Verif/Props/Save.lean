import Verif.Proofs.Outcome
import Verif.Spec.Layout
import Verif.Spec.Valid
import Verif.Model.Load
import Verif.Props.Validate
import Verif.Props.RoundTrip41
import Verif.Props.RoundTrip22

/-!
# Properties: what `save_msh` does, element tables, opening files

C32, C33 (saving), C35, C38, C42, C43, C44.
-/

namespace MshIO

/-! ## C32 -/

/-- **C32** The tables of the library are the README's: for every 32-bit type, the number of nodes and the dimension,
or `UnsupportedFeature`. -/
theorem C32_tables (t : Int32) :
    match readmeElement t.toInt with
    | some (d, n) => nodesPerElement t = .ok (UInt64.ofNat n) ∧ getElementDim t = .ok (Int32.ofNat d)
    | none => nodesPerElement t = .throw .unsupportedFeature ∧ getElementDim t = .throw .unsupportedFeature := by
  cases h : readmeElement t.toInt with
  | some p =>
    exact ⟨(nodesPerElement_of_mshNodes (by simp [mshNodes, h])).1, (getElementDim_of_mshDim (by simp [mshDim, h])).1⟩
  | none =>
    have ha := assertElementIsSupported_none (t := t) (by simp [mshNodes, h])
    exact ⟨by unfold nodesPerElement; rw [ha]; rfl, by unfold getElementDim; rw [ha]; rfl⟩

/-- **C32** The README's table is what the MSH format defines: shape, order, completeness give the numbers. -/
theorem C32_readme (t : Int) :
    readmeElement t = (gmshElement t).map fun (f, p, complete) => (f.dim, if complete then f.nodes p else f.edgeNodes p) := by
  by_cases h : 1 ≤ t ∧ t ≤ 31
  · obtain ⟨k, rfl⟩ : ∃ k : Fin 31, t = (k : Nat) + 1 := ⟨⟨(t - 1).toNat, by omega⟩, by simp; omega⟩
    revert k
    decide
  · have h1 : readmeElement t = none := by
      unfold readmeElement
      split <;> first | rfl | (exfalso; omega)
    have h2 : gmshElement t = none := by
      unfold gmshElement
      split <;> first | rfl | (exfalso; omega)
    rw [h1, h2]
    rfl

/-- **C32** The supported types are 1 to 31. -/
theorem C32_supported (t : Int32) : (∃ n, nodesPerElement t = .ok n) ↔ 1 ≤ t.toInt ∧ t.toInt ≤ 31 := by
  constructor
  · rintro ⟨n, h⟩
    cases hm : mshNodes t with
    | none => rw [mshNodes_none hm] at h; cases h
    | some m => exact mshNodes_range hm
  · intro h
    obtain ⟨n, _, hn, _⟩ := mshNodes_of_range h.1 h.2
    exact ⟨_, (nodesPerElement_of_mshNodes hn).1⟩

/-- Concrete cases: the 27-node hexahedron, and a type the format has but the library does not. -/
example : nodesPerElement 12 = .ok 27 ∧ getElementDim 12 = .ok 3 ∧ nodesPerElement 92 = .throw .unsupportedFeature := by decide

/-! ## C38 -/

/-- **C38** How `save_msh` ends on a spec whose vectors agree with its counters, whatever its version, file type,
element types and data sections: `UnsupportedFeature` when an unknown version has a mesh or an unknown element type
has to be looked up; else `InvalidFormat` when an unknown version has binary data; else success. -/
theorem C38_outcome (cfg : Cfg) (s : MshSpec) (h : s.Shaped cfg.nanospline) (hm : s.InMemory) :
    (s.Unsupported → (saveMsh cfg s).2 = .throw .unsupportedFeature) ∧
    (¬ s.Unsupported → s.InvalidData → (saveMsh cfg s).2 = .throw .invalidFormat) ∧
    (¬ s.Unsupported → ¬ s.InvalidData → (saveMsh cfg s).2 = .ok ()) :=
  saveMsh_outcome cfg s h hm

/-- **C38** In particular it succeeds or throws one of the two; it is never undefined, never aborts, never loops. -/
theorem C38_safe (cfg : Cfg) (s : MshSpec) (h : s.Shaped cfg.nanospline) (hm : s.InMemory) :
    (saveMsh cfg s).2 = .ok () ∨ (saveMsh cfg s).2 = .throw .unsupportedFeature ∨
      (saveMsh cfg s).2 = .throw .invalidFormat := by
  classical
  obtain ⟨h1, h2, h3⟩ := C38_outcome cfg s h hm
  by_cases hu : s.Unsupported
  · exact Or.inr (Or.inl (h1 hu))
  · by_cases hi : s.InvalidData
    · exact Or.inr (Or.inr (h2 hu hi))
    · exact Or.inl (h3 hu hi)

/-- **C38** A known version with known element types is always saved. -/
theorem C38_saves (cfg : Cfg) (s : MshSpec) (h : s.Shaped cfg.nanospline) (hm : s.InMemory) (hv : s.KnownVersion)
    (ht : ∀ b ∈ s.elements.entityBlocks, mshNodes b.elementType ≠ none) : (saveMsh cfg s).2 = .ok () := by
  refine (C38_outcome cfg s h hm).2.2 ?_ ?_
  · rintro (⟨hn, _⟩ | ⟨_, _, _, b, hb, hn⟩)
    · exact hn hv
    · exact ht b hb hn
  · exact fun h => h.1 hv

/-! ## C33, saving -/

/-- **C33** Saving elements of an unknown type throws `UnsupportedFeature` in v2.2 and in v4.1 ASCII. -/
theorem C33_save_rejects (cfg : Cfg) (s : MshSpec) (h : s.Shaped cfg.nanospline) (hm : s.InMemory) (hv : s.KnownVersion)
    (hf : ¬ (s.meshFormat.version = b! "4.1" ∧ s.meshFormat.fileType ≠ 0)) (hn : s.elements.numElements ≠ 0)
    {b : ElementBlock} (hb : b ∈ s.elements.entityBlocks) (ht : ¬ (1 ≤ b.elementType.toInt ∧ b.elementType.toInt ≤ 31)) :
    (saveMsh cfg s).2 = .throw .unsupportedFeature := by
  refine (C38_outcome cfg s h hm).1 (Or.inr ⟨hv, hn, hf, b, hb, ?_⟩)
  cases hb : mshNodes b.elementType with
  | none => rfl
  | some n => exact absurd (mshNodes_range hb) ht

/-- **C33** Saving in v4.1 binary does not look at element types. -/
theorem C33_save_binary41 (cfg : Cfg) (s : MshSpec) (h : s.Shaped cfg.nanospline) (hm : s.InMemory)
    (hv : s.meshFormat.version = b! "4.1") (hf : s.meshFormat.fileType ≠ 0) : (saveMsh cfg s).2 = .ok () := by
  refine (C38_outcome cfg s h hm).2.2 ?_ ?_
  · rintro (⟨hn, _⟩ | ⟨_, _, hn, _⟩)
    · exact hn (Or.inl hv)
    · exact hn ⟨hv, hf⟩
  · exact fun h => h.1 (Or.inl hv)

/-! ## C35 -/

/-- Two triangles, nodes and all, except that their element type is that of a 4-node quadrangle. -/
def mistyped : MshSpec where
  meshFormat := ⟨b! "2.2", 1, 8⟩
  nodes := { numEntityBlocks := 1, numNodes := 3, minNodeTag := 1, maxNodeTag := 3, entityBlocks :=
    [{ entityDim := 2, entityTag := 1, numNodesInBlock := 3, tags := [1, 2, 3], data := List.replicate 9 Double.zero }] }
  elements := { numEntityBlocks := 1, numElements := 2, minElementTag := 1, maxElementTag := 2, entityBlocks :=
    [{ entityDim := 2, entityTag := 1, elementType := 3, numElementsInBlock := 2, data := [1, 1, 2, 3, 2, 3, 2, 1] }] }

/-- **C35** As a safety claim the property is false: `validate_spec` accepts a spec on which `save_msh` reads out of bounds. -/
theorem C35_false (cfg : Cfg) : validateSpec mistyped = .ok () ∧ (saveMsh cfg mistyped).2 = .ub := by
  refine ⟨by decide +kernel, ?_⟩
  rfl

theorem MshSpec.InMemory.real {s : MshSpec} (h : s.InMemory) : s.Real := by
  have key : ∀ n ∈ s.sizes, n < 2 ^ 64 := fun n hn => lt_trans (h n hn) (by norm_num)
  have hb : ∀ b ∈ s.nodes.entityBlocks, ∀ n ∈ [b.tags.length, b.data.length], n < 2 ^ 64 := fun b hb n hn =>
    key n (mem_sizes.mpr (Or.inr (Or.inr (Or.inr (Or.inl (List.mem_flatMap.mpr ⟨b, hb, hn⟩))))))
  exact ⟨key _ (mem_sizes.mpr (Or.inl (by simp))), fun b h => hb b h _ (by simp), fun b h => hb b h _ (by simp),
    key _ (mem_sizes.mpr (Or.inl (by simp))),
    fun b hb => key _ (mem_sizes.mpr (Or.inr (Or.inr (Or.inr (Or.inr (Or.inl (List.mem_map.mpr ⟨b, hb, rfl⟩)))))))⟩

/-- **C35** What `validate_spec` leaves to the caller: a spec it accepts is saved safely if moreover element blocks of a
known type have `n + 1` entries per element, node blocks are parametric or not (0 or 1) with an entity dimension from 0 to 3,
and, in builds with the extension, curves and patches hold what they announce. -/
theorem C35_saves (cfg : Cfg) (s : MshSpec) (hm : s.InMemory) (hv : validateSpec s = .ok ())
    (he : ∀ b ∈ s.elements.entityBlocks, b.Shaped)
    (hp : ∀ b ∈ s.nodes.entityBlocks, (b.parametric = 0 ∨ b.parametric = 1) ∧ 0 ≤ b.entityDim.toInt ∧ b.entityDim.toInt ≤ 3)
    (hc : cfg.nanospline = true → (∀ c ∈ s.curves, c.Ok) ∧ ∀ p ∈ s.patches, p.Ok) :
    (saveMsh cfg s).2 = .ok () ∨ (saveMsh cfg s).2 = .throw .unsupportedFeature ∨
      (saveMsh cfg s).2 = .throw .invalidFormat := by
  obtain ⟨⟨h1, h2, _, _⟩, hn, _⟩ := (C34_accepts_iff s hm.real).mp hv
  refine C38_safe cfg s ⟨h1.symm, fun b hb => ?_, h2.symm, he, fun e => (hc e).1, fun e => (hc e).2⟩ hm
  have hv := hn b hb
  obtain ⟨hp1, hp2, hp3⟩ := hp b hb
  have hl : ∀ n ∈ [b.tags.length, b.data.length], n < 2 ^ 60 := fun n hn =>
    hm n (mem_sizes.mpr (Or.inr (Or.inr (Or.inr (Or.inl (List.mem_flatMap.mpr ⟨b, hb, hn⟩))))))
  have hl1 := hl b.tags.length (by simp)
  have hl2 := hl b.data.length (by simp)
  have hw : b.wanted = (b.coords : Int) ∧ b.coords ≤ 6 := by
    unfold NodeBlock.wanted NodeBlock.coords
    rcases hp1 with e | e <;> rw [e]
    · have : ¬ ((0 : Int32) = 1) := by decide
      exact ⟨rfl, by simp [this]⟩
    · have : (1 : Int32).toInt = 1 := by decide
      simp only [this, Int.zero_lt_one, if_true]
      omega
  have ht : b.tags.length = b.numNodesInBlock.toNat := hv.1.1
  refine ⟨fun _ => ⟨hp2, by omega⟩, ht, ?_⟩
  have hmul : b.numNodesInBlock.toNat * b.coords ≤ 2 ^ 60 * 6 := Nat.mul_le_mul (by omega) hw.2
  have := C34_node_data _ _ b hp2 (by omega) (by rw [hw.1]; exact_mod_cast (by omega : b.numNodesInBlock.toNat * b.coords < 2 ^ 64)) hv
  rw [hw.1] at this
  exact_mod_cast this

/-- A concrete spec that meets the hypotheses: one triangle. -/
def oneTriangle (version : Bytes) (fileType : Int32) : MshSpec where
  meshFormat := ⟨version, fileType, 8⟩
  nodes := { numEntityBlocks := 1, numNodes := 3, minNodeTag := 1, maxNodeTag := 3, entityBlocks :=
    [{ entityDim := 2, entityTag := 1, parametric := 1, numNodesInBlock := 3, tags := [1, 2, 3], data := List.replicate 15 Double.zero }] }
  elements := { numEntityBlocks := 1, numElements := 1, minElementTag := 1, maxElementTag := 1, entityBlocks :=
    [{ entityDim := 2, entityTag := 1, elementType := 2, numElementsInBlock := 1, data := [1, 1, 2, 3] }] }

example (cfg : Cfg) (v : Bytes) (t : Int32) : (saveMsh cfg (oneTriangle v t)).2 = .ok () ∨
    (saveMsh cfg (oneTriangle v t)).2 = .throw .unsupportedFeature ∨ (saveMsh cfg (oneTriangle v t)).2 = .throw .invalidFormat := by
  refine C35_saves cfg _ ?_ ?_ ?_ ?_ ?_
  · show ∀ n ∈ (oneTriangle [] 0).sizes, n < 2 ^ 60
    decide
  · show validateSpec (oneTriangle [] 0) = _
    decide +kernel
  · intro b hb n hn
    simp only [oneTriangle, List.mem_singleton] at hb
    subst hb
    have : (mshNodes 2) = some 3 := by decide
    rw [this] at hn
    cases hn
    rfl
  · intro b hb
    simp only [oneTriangle, List.mem_singleton] at hb
    subst hb
    decide
  · exact fun _ => ⟨by simp [oneTriangle], by simp [oneTriangle]⟩

/-! ## C42 -/

/-- A writer whose successful output is a run of sections. -/
private def Bracketed (w : Wr Unit) (names : List Bytes) : Prop := Goes w → Sections names w.1

private theorem Sections.append {a b : List Bytes} {x y : Bytes} (hx : Sections a x) (hy : Sections b y) :
    Sections (a ++ b) (x ++ y) := by
  induction hx with
  | nil => exact hy
  | cons body _ ih => rw [List.cons_append, List.append_assoc]; exact Sections.cons body ih

private theorem goes_inv {a : Wr Unit} {f : Unit → Wr Unit} (h : Goes (a >>= f)) :
    Goes a ∧ Goes (f ()) ∧ (a >>= f).1 = a.1 ++ (f ()).1 := by
  rcases a with ⟨x, o⟩
  cases o with
  | ok u => exact ⟨rfl, h, rfl⟩
  | throw e => cases h
  | abort => cases h
  | ub => cases h
  | hang => cases h

private theorem Bracketed.bind {a : Wr Unit} {f : Unit → Wr Unit} {x y : List Bytes} (ha : Bracketed a x)
    (hb : Bracketed (f ()) y) : Bracketed (a >>= f) (x ++ y) := by
  intro h
  obtain ⟨h1, h2, h3⟩ := goes_inv h
  rw [h3]
  exact (ha h1).append (hb h2)

private theorem Bracketed.nil : Bracketed (pure ()) [] := fun _ => Sections.nil

private theorem Bracketed.when {c : Bool} {w : Wr Unit} {name : Bytes} (h : Bracketed w [name]) :
    Bracketed (whenW c w) (nameIf c name) := by
  cases c with
  | true => exact h
  | false => exact Bracketed.nil

private theorem Bracketed.section (name : Bytes) {m : Wr Unit} :
    Bracketed (emit (b! "$" ++ name ++ endl) >>= fun _ => m >>= fun _ => emit (b! "$End" ++ name ++ endl)) [name] := by
  intro h
  obtain ⟨_, h2, h3⟩ := goes_inv h
  obtain ⟨_, _, h5⟩ := goes_inv h2
  rw [h3, h5]
  have := Sections.cons (name := name) m.1 Sections.nil
  simpa [bracketed, emit, endl] using this

private theorem Bracketed.bad {a : Wr Unit} {names : List Bytes} (h : ¬ Goes a) : Bracketed a names := fun h' => (h h').elim

private theorem Bracketed.congr {a b : Wr Unit} {names : List Bytes} (h : Bracketed a names) (e : a = b) : Bracketed b names := e ▸ h

private theorem bracketed_entities (cfg : Cfg) (f : MeshFormat) (e : Entities) :
    Bracketed (saveEntities cfg f e) (nameIf (f.version ≠ b! "2.2") (b! "Entities")) := by
  unfold saveEntities
  split
  · rename_i h
    simp only [h, ne_eq, not_true_eq_false, decide_false]
    exact Bracketed.nil
  · rename_i h
    simp only [h, ne_eq, not_false_eq_true, decide_true]
    split
    · split
      · exact Bracketed.section (b! "Entities")
      · exact Bracketed.section (b! "Entities")
    · exact Bracketed.section (b! "Entities") (m := Wr.lift (.throw .unsupportedFeature))

private theorem bracketed_nodes (cfg : Cfg) (f : MeshFormat) (n : Nodes) : Bracketed (saveNodes cfg f n) [b! "Nodes"] := by
  unfold saveNodes
  dsimp only
  repeat' split
  all_goals exact Bracketed.section (b! "Nodes")

private theorem bracketed_elements (f : MeshFormat) (n : Elements) : Bracketed (saveElements f n) [b! "Elements"] := by
  unfold saveElements
  dsimp only
  repeat' split
  all_goals exact Bracketed.section (b! "Elements")

private theorem bracketed_data (cfg : Cfg) (f : MeshFormat) (name : Bytes) (i : Bool) (ds : List Data) :
    Bracketed (saveDataSections cfg f name i ds) (List.replicate ds.length name) := by
  unfold saveDataSections
  induction ds with
  | nil => exact Bracketed.nil
  | cons d ds ih => exact (Bracketed.section name).bind (y := List.replicate ds.length name) ih

private theorem bracketed_dataWhen (cfg : Cfg) (f : MeshFormat) (name : Bytes) (i : Bool) (ds : List Data) :
    Bracketed (whenW (decide (ds.length > 0)) (saveDataSections cfg f name i ds)) (List.replicate ds.length name) := by
  cases ds with
  | nil => exact Bracketed.nil
  | cons d ds => exact bracketed_data cfg f name i (d :: ds)

private theorem bind4 (a b c d : Wr Unit) :
    (a >>= fun _ => b >>= fun _ => c >>= fun _ => d) = (a >>= fun _ => (b >>= fun _ => c) >>= fun _ => d) := by
  simp only [Wr.bind_assoc]

private theorem bracketed_format (f : MeshFormat) : Bracketed (saveMeshFormat f) [b! "MeshFormat"] := by
  unfold saveMeshFormat
  rw [bind4]
  exact Bracketed.section (b! "MeshFormat")

private theorem bracketed_groups (v : List PhysicalGroup) : Bracketed (savePhysicalGroups v) [b! "PhysicalNames"] := by
  unfold savePhysicalGroups
  rw [bind4]
  exact Bracketed.section (b! "PhysicalNames")

private theorem bracketed_nano (v : Bytes) : Bracketed (saveNanosplineFormat v) [b! "NanoSplineFormat"] := by
  unfold saveNanosplineFormat
  exact Bracketed.section (b! "NanoSplineFormat")

private theorem bracketed_curves (cfg : Cfg) (f : MeshFormat) (cs : List Curve) : Bracketed (saveCurves cfg f cs) [b! "Curves"] := by
  unfold saveCurves
  dsimp only
  split
  · rw [bind4]
    exact Bracketed.section (b! "Curves")
  · rw [bind4]
    exact Bracketed.section (b! "Curves")

private theorem bracketed_patches (cfg : Cfg) (f : MeshFormat) (cs : List Patch) : Bracketed (savePatches cfg f cs) [b! "Patches"] := by
  unfold savePatches
  dsimp only
  split
  · rw [bind4]
    exact Bracketed.section (b! "Patches")
  · rw [bind4]
    exact Bracketed.section (b! "Patches")

private theorem decide_pos_len {α : Type} [DecidableEq α] (v : List α) : decide (v.length > 0) = decide (v ≠ []) := by
  cases v <;> simp

/-- **C42** Whenever `save_msh` succeeds, on any spec whatsoever, its output is a concatenation of sections `$X` ... `$EndX`
with exactly these names in this order. -/
theorem C42_sections (cfg : Cfg) (s : MshSpec) (h : (saveMsh cfg s).2 = .ok ()) :
    Sections (s.sectionNames cfg.nanospline) (saveMsh cfg s).1 := by
  revert h
  show Bracketed (saveMsh cfg s) _
  have e1 : nameIf (s.physicalGroups ≠ []) (b! "PhysicalNames") = nameIf (decide (s.physicalGroups.length > 0)) (b! "PhysicalNames") := by
    rw [decide_pos_len]
  have e2 : Bracketed (whenW (!s.entities.empty) (saveEntities cfg s.meshFormat s.entities))
      (nameIf (s.meshFormat.version ≠ b! "2.2" ∧ (s.entities.points ≠ [] ∨ s.entities.curves ≠ [] ∨ s.entities.surfaces ≠ [] ∨
        s.entities.volumes ≠ [])) (b! "Entities")) := by
    have hb := bracketed_entities cfg s.meshFormat s.entities
    cases he : s.entities.empty with
    | true =>
      obtain ⟨h1, h2, h3, h4⟩ := s.entities.empty_iff.mp he
      rw [h1, h2, h3, h4]
      simp only [ne_eq, not_true_eq_false, or_self, and_false, decide_false]
      exact Bracketed.nil
    | false =>
      have : (s.entities.points ≠ [] ∨ s.entities.curves ≠ [] ∨ s.entities.surfaces ≠ [] ∨ s.entities.volumes ≠ []) := by
        by_contra hc
        simp only [ne_eq, not_or, not_not] at hc
        rw [s.entities.empty_iff.mpr hc] at he
        cases he
      simp only [this, and_true]
      exact hb
  have e3 : nameIf (s.nodes.numNodes ≠ 0) (b! "Nodes") = nameIf (decide (s.nodes.numNodes > 0)) (b! "Nodes") := by
    rw [decide_eq_decide.mpr (UInt64.pos_iff_ne_zero (a := s.nodes.numNodes))]
  have e4 : nameIf (s.elements.numElements ≠ 0) (b! "Elements") = nameIf (decide (s.elements.numElements > 0)) (b! "Elements") := by
    rw [decide_eq_decide.mpr (UInt64.pos_iff_ne_zero (a := s.elements.numElements))]
  have e5 : Bracketed (whenW cfg.nanospline (saveNanosplineFormat s.nanosplineVersion >>= fun _ =>
      whenW (decide (s.curves.length > 0)) (saveCurves cfg s.meshFormat s.curves) >>= fun _ =>
      whenW (decide (s.patches.length > 0)) (savePatches cfg s.meshFormat s.patches)))
      (nameIf cfg.nanospline (b! "NanoSplineFormat") ++ (nameIf (cfg.nanospline ∧ s.curves ≠ []) (b! "Curves") ++
        nameIf (cfg.nanospline ∧ s.patches ≠ []) (b! "Patches"))) := by
    cases cfg.nanospline with
    | false => simp [nameIf]; exact Bracketed.nil
    | true =>
      simp only [true_and]
      rw [← decide_pos_len, ← decide_pos_len]
      exact (bracketed_nano _).bind ((bracketed_curves cfg _ _).when.bind (bracketed_patches cfg _ _).when)
  have key := (bracketed_format s.meshFormat).bind (f := fun _ => _) (((bracketed_groups s.physicalGroups).when (c := decide (s.physicalGroups.length > 0))).bind (f := fun _ => _)
    (e2.bind (f := fun _ => _) (((bracketed_nodes cfg s.meshFormat s.nodes).when (c := decide (s.nodes.numNodes > 0))).bind (f := fun _ => _)
    (((bracketed_elements s.meshFormat s.elements).when (c := decide (s.elements.numElements > 0))).bind (f := fun _ => _)
    ((bracketed_dataWhen cfg s.meshFormat (b! "NodeData") false s.nodeData).bind (f := fun _ => _)
    ((bracketed_dataWhen cfg s.meshFormat (b! "ElementData") false s.elementData).bind (f := fun _ => _)
    ((bracketed_dataWhen cfg s.meshFormat (b! "ElementNodeData") true s.elementNodeData).bind (f := fun _ => _) e5)))))))
  unfold MshSpec.sectionNames
  rw [e1, e3, e4]
  simp only [List.append_assoc]
  exact key

/-- A concrete case: the section names of a triangle saved as v4.1. -/
example : (oneTriangle (b! "4.1") 0).sectionNames true =
    [b! "MeshFormat", b! "Nodes", b! "Elements", b! "NanoSplineFormat"] := by decide

/-! ## C43 -/

/-- **C43** The file-name overloads throw `std::runtime_error` when the file cannot be opened (and then write nothing), and
otherwise do what the stream overloads do on the content of the file. -/
theorem C43_open (cfg : Cfg) (s : MshSpec) (file : Bytes) :
    loadFile cfg none = .throw .runtimeError ∧ loadFile cfg (some file) = loadMsh cfg file ∧
    saveFile cfg false s = ([], .throw .runtimeError) ∧ saveFile cfg true s = saveMsh cfg s :=
  ⟨rfl, rfl, rfl, rfl⟩

/-- **C43** Saving a shape-consistent spec to a file that was opened never reports an opening failure. -/
theorem C43_opened (cfg : Cfg) (s : MshSpec) (h : s.Shaped cfg.nanospline) (hm : s.InMemory) :
    (saveFile cfg true s).2 ≠ .throw .runtimeError := by
  show (saveMsh cfg s).2 ≠ _
  rcases C38_safe cfg s h hm with e | e | e <;> rw [e] <;> simp

/-! ## C44 -/

private theorem default_ok (f : MeshFormat) : ({ meshFormat := f } : MshSpec).Ok :=
  ⟨rfl, by simp, rfl, by simp, by simp, by simp, by simp, by simp, by simp⟩

private theorem default_fits (cfg : Cfg) (f : MeshFormat) : ({ meshFormat := f } : MshSpec).Fits cfg :=
  ⟨fun n hn => by simp [MshSpec.sizes] at hn; omega, by simp⟩

private theorem default_plain (ext : Bool) (f : MeshFormat) : ({ meshFormat := f } : MshSpec).Plain ext :=
  ⟨fun _ => rfl, fun _ => rfl, by simp, fun _ => ⟨rfl, rfl, rfl⟩⟩

private theorem default_word : Word ({} : MshSpec).nanosplineVersion := ⟨by decide, by decide⟩

private theorem default_convert22 (ext : Bool) (t w : UInt64 → UInt64) (f g : Double → Double) (m : MeshFormat) :
    ({ meshFormat := m } : MshSpec).convert22 ext t w f g = { meshFormat := m } := by
  cases ext <;> rfl

/-- **C44** A default-constructed spec, with either version and either file type, is saved and loads back to itself, for all
build settings and precisions (as long as a vector can hold two entries: the v2.2 loader allocates that many). -/
theorem C44_default (cfg : Cfg) (h2 : 2 ≤ cfg.maxCount) {v : Bytes} {t : Int32} (hv : v = b! "4.1" ∨ v = b! "2.2") (ht : t = 0 ∨ t = 1) :
    ∃ file, saveMsh cfg { meshFormat := ⟨v, t, 8⟩ } = (file, .ok ()) ∧
      loadMsh cfg file = .ok { meshFormat := ⟨v, t, 8⟩ } := by
  have hw : cfg.nanospline = true → Word ({ meshFormat := ⟨v, t, 8⟩ } : MshSpec).nanosplineVersion := fun _ => default_word
  have hfit : Fits22 cfg [] [] := ⟨h2, by simp, by simp, by simp⟩
  rcases hv with rfl | rfl <;> rcases ht with rfl | rfl
  · exact C02_ascii41_exact cfg _ rfl (default_ok _) (default_fits cfg _) (default_plain _ _) (by simp [MshSpec.doubles, MshSpec.realTags]) (by simp) hw
  · exact C01_binary41_exact cfg _ rfl (default_ok _) (default_fits cfg _) (default_plain _ _) (by simp [MshSpec.dataTags]) (by simp [MshSpec.realTags]) hw
  · obtain ⟨file, h1, h2⟩ := C04_ascii22 cfg { meshFormat := ⟨b! "2.2", 0, 8⟩ } rfl (default_ok _) ⟨rfl, rfl⟩ (default_fits cfg _) (by simp)
      (by simp [MshSpec.doubles22, MshSpec.realTags, Nodes.list]) (by intro e he; simp [Elements.list] at he) hfit hw
    exact ⟨file, h1, by rw [h2, default_convert22]⟩
  · obtain ⟨file, h1, h2⟩ := C03_binary22 cfg { meshFormat := ⟨b! "2.2", 1, 8⟩ } rfl (default_ok _) ⟨rfl, rfl⟩ (default_fits cfg _) (by simp) (by simp) (by simp)
      (by simp [MshSpec.dataTags]) (by simp [MshSpec.realTags]) (by intro e he; simp [Elements.list] at he) hfit hw
    exact ⟨file, h1, by rw [h2, default_convert22]⟩

end MshIO
