import Verif.Proofs.Again
import Verif.Props.Demo22
import Verif.Props.Stable22

/-!
# C54: saving a loaded file again

A file written from a consistent spec is loaded, and what was loaded is saved with the same settings: the second file is the first, byte for
byte.  For binary version 2.2 files this holds exactly when the first spec had no two neighbouring element blocks of the same entity and type.
-/

namespace MshIO

/-- The text printed for `x` can be read, and the number read prints as the same text. -/
def StableText (P : Fmt) (x : Double) : Prop := Printable P x ∧ fmtDouble P (reread P x) = fmtDouble P x

/-- **C54** Which doubles have stable text: with default streams, every finite double that is zero or of normal magnitude. -/
theorem C54_stable_default (x : Double) (hf : x.isFinite = true) (hn : x.val = 0 ∨ 1 / 2 ^ 1022 ≤ |x.val|) : StableText (.general 6) x :=
  ⟨C05_default_always_readable x hf, C06_second_generation 6 (by norm_num) x (C05_default_always_readable x hf) hn⟩

/-- **C54** With a format that loses nothing (precision 17 and above, C07), every finite double. -/
theorem C54_stable_lossless (P : Fmt) (hP : P.Lossless) (x : Double) (hf : x.isFinite = true) : StableText P x :=
  ⟨(hP x hf).1, by rw [(hP x hf).2]⟩

/-- **C54** (4.1, text) -/
theorem C54_ascii41 (cfg : Cfg) (s : MshSpec) (hfmt : s.meshFormat = ⟨b! "4.1", 0, 8⟩) (hs : s.Ok) (hf : s.Fits cfg)
    (hd : ∀ x ∈ s.doubles, StableText cfg.fmt x)
    (hpar : cfg.asserts = true → ∀ b ∈ s.nodes.entityBlocks, 0 ≤ b.parametric.toInt ∧ b.parametric.toInt ≤ 3)
    (hw : cfg.nanospline = true → Word s.nanosplineVersion) :
    ∃ file s', saveMsh cfg s = (file, .ok ()) ∧ loadMsh cfg file = .ok s' ∧ saveMsh cfg s' = (file, .ok ()) := by
  obtain ⟨file, h1, h2⟩ := C02_ascii41 cfg s hfmt hs hf (fun x hx => (hd x hx).1) hpar hw
  exact ⟨file, _, h1, h2, (resave_text41 hfmt fun x hx => (hd x hx).2).trans h1⟩

/-- **C54** (4.1, binary) Only the real tags of data sections, which are text even here, need stable text; tags of data entries may have any size. -/
theorem C54_binary41 (cfg : Cfg) (s : MshSpec) (hfmt : s.meshFormat = ⟨b! "4.1", 1, 8⟩) (hs : s.Ok) (hf : s.Fits cfg)
    (hreal : ∀ x ∈ s.realTags, StableText cfg.fmt x) (hw : cfg.nanospline = true → Word s.nanosplineVersion) :
    ∃ file s', saveMsh cfg s = (file, .ok ()) ∧ loadMsh cfg file = .ok s' ∧ saveMsh cfg s' = (file, .ok ()) := by
  obtain ⟨file, h1, h2⟩ := C01_binary41 cfg s hfmt hs hf (fun x hx => (hreal x hx).1) hw
  exact ⟨file, _, h1, h2, (resave_binary41 hfmt fun x hx => (hreal x hx).2).trans h1⟩

/-- **C54** (2.2, text) The loaded spec has other blocks than the saved one, but the file is the same. -/
theorem C54_ascii22 (cfg : Cfg) (s : MshSpec) {d : Int32} (hfmt : s.meshFormat = ⟨b! "2.2", 0, d⟩) (hs : s.Ok) (hc : s.Counted)
    (hf : s.Fits cfg) (hetag : ∀ b ∈ s.elements.entityBlocks, ∀ t ∈ b.data, t.toNat < 2 ^ 31)
    (hd : ∀ x ∈ s.doubles22, StableText cfg.fmt x)
    (hr : NodesInRange s.nodes.list s.elements.list) (hfit : Fits22 cfg s.nodes.list s.elements.list)
    (hw : cfg.nanospline = true → Word s.nanosplineVersion) :
    ∃ file s', saveMsh cfg s = (file, .ok ()) ∧ loadMsh cfg file = .ok s' ∧ saveMsh cfg s' = (file, .ok ()) := by
  obtain ⟨file, h1, h2⟩ := C04_ascii22 cfg s hfmt hs hc hf hetag (fun x hx => (hd x hx).1) hr hfit hw
  exact ⟨file, _, h1, h2, (resave_text22 hfmt hs hf hc (hfit.convert (reread cfg.fmt)) fun x hx => (hd x hx).2).trans h1⟩

/-- **C54** (2.2, binary) The second file is the first exactly if neighbouring element blocks differ in entity or type.  Tags of any size are
allowed (they are stored with 32 bits); `hr` and `hfit` speak of the stored tags. -/
theorem C54_binary22 (cfg : Cfg) (s : MshSpec) {d : Int32} (hfmt : s.meshFormat = ⟨b! "2.2", 1, d⟩) (hs : s.Ok) (hc : s.Counted)
    (hf : s.Fits cfg) (hblk : ∀ b ∈ s.elements.entityBlocks, 0 < b.numElementsInBlock.toNat)
    (hcount : s.elements.numElements.toNat < 2 ^ 31)
    (hreal : ∀ x ∈ s.realTags, StableText cfg.fmt x)
    (hr : NodesInRange (s.nodes22 wrap32 id) (s.elems22 wrap32)) (hfit : Fits22 cfg (s.nodes22 wrap32 id) (s.elems22 wrap32))
    (hw : cfg.nanospline = true → Word s.nanosplineVersion) :
    ∃ file s', saveMsh cfg s = (file, .ok ()) ∧ loadMsh cfg file = .ok s' ∧
      (saveMsh cfg s' = (file, .ok ()) ↔ (s.elements.entityBlocks.map fun b => (b.entityTag, b.elementType)).IsChain (· ≠ ·)) := by
  have hblk' : ∀ b ∈ s.elements.entityBlocks, 0 < b.numElementsInBlock.toNat ∧ b.numElementsInBlock.toNat < 2 ^ 31 := by
    intro b hb
    refine ⟨hblk b hb, lt_of_le_of_lt ?_ hcount⟩
    rw [hc.elements]
    exact le_sum_of_mem (List.mem_map.mpr ⟨b, hb, rfl⟩)
  obtain ⟨file, lo, hi, h1, h2⟩ := C03_binary22_any cfg s hfmt hs hc hf hblk' (fun x hx => (hreal x hx).1) hr hfit hw
  refine ⟨file, _, h1, h2, ?_⟩
  rw [← resave_binary22 (w := wrap32) (f := reread cfg.fmt) hfmt hs hf hc hblk hcount intOfSize_wrap32 hfit fun x hx => (hreal x hx).2, h1]
  refine Eq.congr ?_ rfl
  rw [saveMsh_eq, saveMsh_eq]
  refine wr_seq rfl fun _ => wr_seq rfl fun _ => wr_seq rfl fun _ => wr_seq rfl fun _ => wr_seq ?_ fun _ => rfl
  show whenW ((if s.elements.numElements = 0 then ({} : Elements) else { elementsOf (s.elems22 wrap32) with minElementTag := lo, maxElementTag := hi }).numElements > 0)
      (saveElements s.meshFormat (if s.elements.numElements = 0 then ({} : Elements) else { elementsOf (s.elems22 wrap32) with minElementTag := lo, maxElementTag := hi })) =
    whenW ((if s.elements.numElements = 0 then ({} : Elements) else elementsOf (s.elems22 wrap32)).numElements > 0)
      (saveElements s.meshFormat (if s.elements.numElements = 0 then ({} : Elements) else elementsOf (s.elems22 wrap32)))
  split
  · rfl
  · unfold saveElements
    rw [hfmt]
    rfl

/-! ## Concrete cases -/

theorem demo_stable : StableText (.general 6) dOne ∧ StableText (.general 6) dTenth ∧ StableText (.general 6) dPi := by
  unfold StableText Printable reread
  exact ⟨⟨by decide +kernel, by decide +kernel⟩, ⟨by decide +kernel, by decide +kernel⟩, by decide +kernel, by decide +kernel⟩

/-- 4.1 text with π, which is changed by the first save: the spec that is loaded differs from the saved one, the file does not. -/
example : ∃ file s', saveMsh demoExt (demoNano ⟨b! "4.1", 0, 8⟩ dPi) = (file, .ok ()) ∧ loadMsh demoExt file = .ok s' ∧
    saveMsh demoExt s' = (file, .ok ()) := by
  refine C54_ascii41 demoExt _ rfl (demoNano_ok _ _) (demoNano_fits (by decide) _ _) (fun y hy => ?_) (fun _ => by decide) (fun _ => word_10)
  rcases demo_doubles _ _ y hy with rfl | rfl | rfl
  · exact demo_stable.1
  · exact demo_stable.2.1
  · exact demo_stable.2.2

/-- 4.1 binary with a NaN. -/
example : ∃ file s', saveMsh demoExt (demoNano ⟨b! "4.1", 1, 8⟩ dNaN) = (file, .ok ()) ∧ loadMsh demoExt file = .ok s' ∧
    saveMsh demoExt s' = (file, .ok ()) :=
  C54_binary41 demoExt _ rfl (demoNano_ok _ _) (demoNano_fits (by decide) _ _) (fun x hx => by
    obtain ⟨h1, h2⟩ := demo_reals ⟨b! "4.1", 1, 8⟩ dNaN x hx
    refine ⟨h1, ?_⟩
    show fmtDouble (.general 6) (reread (.general 6) x) = _
    rw [h2]; rfl) (fun _ => word_10)

/-- 2.2 text with π. -/
example : ∃ file s', saveMsh demoDebug (demoSpec ⟨b! "2.2", 0, 8⟩ dPi) = (file, .ok ()) ∧ loadMsh demoDebug file = .ok s' ∧
    saveMsh demoDebug s' = (file, .ok ()) := by
  refine C54_ascii22 demoDebug _ (d := 8) rfl (demoSpec_ok _ _) (demo22_counted _ _) (demoSpec_fits (by decide) _ _) (demo22_tags _ _).2.1
    (fun y hy => ?_) (demo22_range _ _) (demo22_fits (by decide) _ _) (by simp [demoDebug])
  rcases demo22_doubles _ _ y hy with rfl | rfl | rfl
  · exact demo_stable.1
  · exact demo_stable.2.1
  · exact demo_stable.2.2

/-- Two neighbouring blocks of points on the same entity. -/
def demoSplit : MshSpec where
  meshFormat := ⟨b! "2.2", 1, 8⟩
  nodes := ⟨1, 1, 1, 1, [⟨0, 1, 0, 1, [1], [dOne, dOne, dOne]⟩]⟩
  elements := ⟨2, 2, 1, 2, [⟨0, 1, 15, 1, [1, 1]⟩, ⟨0, 1, 15, 1, [2, 1]⟩]⟩

theorem demoSplit_ok : demoSplit.Ok where
  nodeBlocks := rfl
  node := by
    intro b hb
    simp only [demoSplit, List.mem_cons, List.not_mem_nil, or_false] at hb
    subst hb
    exact ⟨by decide, rfl, rfl⟩
  elementBlocks := rfl
  element := by
    intro b hb
    simp only [demoSplit, List.mem_cons, List.not_mem_nil, or_false] at hb
    rcases hb with rfl | rfl <;> exact ⟨1, rfl, rfl⟩
  nodeData := by simp [demoSplit]
  elementData := by simp [demoSplit]
  elementNodeData := by simp [demoSplit]
  curve := by simp [demoSplit]
  patch := by simp [demoSplit]

/-- The two blocks become one: the second file is another one (and twelve bytes shorter). -/
example : ∃ file s', saveMsh demoDebug demoSplit = (file, .ok ()) ∧ loadMsh demoDebug file = .ok s' ∧ saveMsh demoDebug s' ≠ (file, .ok ()) := by
  obtain ⟨file, s', h1, h2, h3⟩ := C54_binary22 demoDebug demoSplit (d := 8) rfl demoSplit_ok ⟨rfl, rfl⟩
    ⟨by decide, by decide⟩ (by decide) (by decide) (fun x hx => by cases hx) (by unfold NodesInRange; decide) ⟨by decide, by decide, by decide, by decide⟩ (by simp [demoDebug])
  exact ⟨file, s', h1, h2, fun h => absurd (h3.mp h) (by decide)⟩

/-- One block: the file is reproduced. -/
example : ∃ file s', saveMsh demoDebug (demoSpec ⟨b! "2.2", 1, 8⟩ dNaN) = (file, .ok ()) ∧ loadMsh demoDebug file = .ok s' ∧
    saveMsh demoDebug s' = (file, .ok ()) := by
  obtain ⟨file, s', h1, h2, h3⟩ := C54_binary22 demoDebug (demoSpec ⟨b! "2.2", 1, 8⟩ dNaN) (d := 8) rfl (demoSpec_ok _ _) (demo22_counted _ _)
    (demoSpec_fits (by decide) _ _) (by decide) (by decide) (fun x hx => by
      obtain ⟨h1, h2⟩ := demo_reals ⟨b! "2.2", 1, 8⟩ dNaN x hx
      refine ⟨h1, ?_⟩
      show fmtDouble (.general 6) (reread (.general 6) x) = _
      rw [h2]; rfl) (by unfold NodesInRange; decide) ⟨by decide, by decide, by decide, by decide⟩ (by simp [demoDebug])
  exact ⟨file, s', h1, h2, h3.mpr (by decide)⟩

end MshIO
