import Verif.Proofs.Amplify
import Verif.Props.UndefinedAll

/-!
# C60: how much a file can make `load_msh` hold

`MshSpec.volume` (`Spec/Volume.lean`) counts everything a spec holds.  As long as no section is read past its end, it is at most twice the number of bytes of the file.
-/

namespace MshIO

/-- **C60**, every build and every file: if no section is read past its end (`$MeshFormat` and `$NanoSplineFormat` may be: they hold no vectors), the spec holds at most two items
per byte of the file; except in version 2.2, where nodes are regrouped, its vectors have at most one entry per byte. -/
theorem C60_bounded {cfg : Cfg} {file : Bytes} {s : MshSpec} (hl : loadMsh cfg file = .ok s)
    (h : ∀ name f, Overrun cfg file name f → name = b! "MeshFormat" ∨ name = b! "NanoSplineFormat") :
    s.volume ≤ 2 * file.length ∧ (s.meshFormat.version ≠ b! "2.2" → s.sizes.sum ≤ file.length) := volume_bounded hl h

/-- **C60**, with assertions only these sections can be read past their end: `$MeshFormat`, `$NanoSplineFormat`, the sections of the extension, and in version 2.2 `$Elements`
and binary `$Nodes` (`uncheckedSections`, `Spec/Cut.lean`). -/
theorem C60_overrun {cfg : Cfg} (hA : cfg.asserts = true) {file name : Bytes} {f : MeshFormat} (h : Overrun cfg file name f) : name ∈ uncheckedSections cfg.nanospline f := by
  obtain ⟨spec, st, st', x, ha, he, rfl, e1, e2, hf⟩ := h
  by_contra hn
  obtain ⟨spec', st2⟩ := x
  simp only at hf
  rcases section_ends hA hn with h | h
  · have := h _ _ _ e2
    simp [Stream.good, hf] at this
  · rw [h] at e2
    cases e2
    obtain ⟨w, -, -, hst, -⟩ := inString_at e1 (by simp)
    rw [hst] at hf
    cases hf

/-- **C60**, builds with assertions and without the extension, files other than version 2.2 (with `$MeshFormat` nowhere but at the beginning): whatever the file holds, the spec
holds at most two items, and its vectors at most one entry, per byte of the file. -/
theorem C60_checked {cfg : Cfg} (hA : cfg.asserts = true) (hx : cfg.nanospline = false) {file : Bytes} (hf : ¬ b! "$MeshFormat" <:+: file.tail) {s : MshSpec}
    (hl : loadMsh cfg file = .ok s) (hv : s.meshFormat.version ≠ b! "2.2") : s.volume ≤ 2 * file.length ∧ s.sizes.sum ≤ file.length := by
  have := C60_bounded hl fun name f h => by
    have hn := C60_overrun hA h
    obtain ⟨spec, st, st', x, ha, he, rfl, -⟩ := h
    have hv' : spec.meshFormat.version ≠ b! "2.2" := version_of_final hf hl hv ha
    rw [uncheckedSections, hx, if_neg hv'] at hn
    simpa using hn
  exact ⟨this.1, this.2 hv⟩

/-- **C60** is false without assertions: a file that announces `n` physical groups and ends there is loaded as `n` groups, for every `n` that can be allocated. -/
theorem C60_release_false {cfg : Cfg} (hA : cfg.asserts = false) {n : Nat} (h0 : 0 < n) (hn : n ≤ cfg.maxCount) (h31 : n < 2 ^ 31) :
    ∃ s, loadMsh cfg (b! "$PhysicalNames\n" ++ natText n ++ b! "\n") = .ok s ∧ n ≤ s.volume :=
  ⟨_, groups_load hA h0 hn h31, by
    have : n ≤ (({ physicalGroups := List.replicate n {} } : MshSpec).sizes).sum := by simp [MshSpec.sizes]
    exact Nat.le_trans this (by unfold MshSpec.volume; omega)⟩

/-- **C60** is false in version 2.2, with and without assertions: a file that announces `n` elements and ends after the first is loaded as `n` elements, for every `n` for which
the vectors can be allocated. -/
theorem C60_elements22_false {cfg : Cfg} {n : Nat} (h0 : 2 ≤ n) (hn : 2 * n ≤ cfg.maxCount) :
    ∃ s, loadMsh cfg (b! "$MeshFormat\n2.2 0 8\n$EndMeshFormat\n$Elements\n" ++ natText n ++ b! " 1 15 0 0\n") = .ok s ∧
      s.elements.numElements = UInt64.ofNat n ∧ 2 * n ≤ s.volume := by
  refine ⟨elementsLoaded n, elements_load h0 hn, rfl, ?_⟩
  have := elementsLoaded_sizes n
  unfold MshSpec.volume
  omega

/-! ## Concrete cases -/

/-- A spec is loaded, and something is true of it. -/
theorem loaded_of {α : Type} {o : Outcome α} {p : α → Bool} (h : (match o with | .ok a => p a | _ => false) = true) : ∃ a, o = .ok a ∧ p a = true := by
  cases o with
  | ok a => exact ⟨a, rfl, h⟩
  | throw e => cases h
  | abort => cases h
  | ub => cases h
  | hang => cases h

/-- A file of version 4.1 with a node, a malformed second node tag and an announcement of 60 nodes: the stream has failed, and with assertions loading stops. -/
example : loadMsh demoDebug (hdr41 ++ b! "$Nodes\n1 60 1 60\n0 5 0 60\n1\nx") = .abort := by decide +kernel

/-- The same without assertions: the bound fails. -/
example : ∃ s, loadMsh demoCfg (hdr41 ++ b! "$Nodes\n1 60 1 60\n0 5 0 60\n1\n") = .ok s ∧ 2 * (hdr41 ++ b! "$Nodes\n1 60 1 60\n0 5 0 60\n1\n").length < s.volume := by
  obtain ⟨s, h1, h2⟩ := loaded_of (o := loadMsh demoCfg (hdr41 ++ b! "$Nodes\n1 60 1 60\n0 5 0 60\n1\n"))
    (p := fun s => decide (2 * (hdr41 ++ b! "$Nodes\n1 60 1 60\n0 5 0 60\n1\n").length < s.volume)) (by decide +kernel)
  exact ⟨s, h1, of_decide_eq_true h2⟩

/-- The hypotheses of `C60_checked` are met by a file that is not closed by `$EndNodes`. -/
example : ∃ s, loadMsh demoDebug (hdr41 ++ b! "$PhysicalNames\n1\n2 7 \"left side\"\n$EndPhysicalNames\n$Nodes\n1 1 1 1\n0 5 0 1\n1\n0 0 0\n") = .ok s ∧
    s.meshFormat.version ≠ b! "2.2" ∧ 15 ≤ s.volume ∧ s.volume ≤ 2 * (hdr41 ++ b! "$PhysicalNames\n1\n2 7 \"left side\"\n$EndPhysicalNames\n$Nodes\n1 1 1 1\n0 5 0 1\n1\n0 0 0\n").length := by
  obtain ⟨s, h1, h2⟩ := loaded_of (o := loadMsh demoDebug (hdr41 ++ b! "$PhysicalNames\n1\n2 7 \"left side\"\n$EndPhysicalNames\n$Nodes\n1 1 1 1\n0 5 0 1\n1\n0 0 0\n"))
    (p := fun s => decide (s.meshFormat.version ≠ b! "2.2" ∧ 15 ≤ s.volume)) (by decide +kernel)
  have h3 := of_decide_eq_true h2
  exact ⟨s, h1, h3.1, h3.2, (C60_checked (cfg := demoDebug) rfl rfl (not_occurs (by decide +kernel)) h1 h3.1).1⟩

/-- The hypothesis of `C60_bounded` is met by the empty file, and by a file in which only `$MeshFormat` is read past its end. -/
example : ∀ name f, Overrun demoCfg (b! "$MeshFormat\n4.1 0") name f → name = b! "MeshFormat" ∨ name = b! "NanoSplineFormat" := by
  rintro name f ⟨spec, st, st', x, ha, he, rfl, e1, e2, hf⟩
  unfold Arrives at ha
  rcases Relation.ReflTransGen.cases_head ha with e | ⟨y, hy, hyx⟩
  · cases e
    cases e1
    exact Or.inl rfl
  · have h1 := hy.2
    rw [show loadRound demoCfg {} (Stream.ofBytes (b! "$MeshFormat\n4.1 0")) = .ok ({ meshFormat := ⟨b! "4.1", 0, 8⟩ }, ⟨[], true, true⟩) from rfl] at h1
    cases h1
    rcases Relation.ReflTransGen.cases_head hyx with e | ⟨z, hz, -⟩
    · cases e; cases he
    · cases hz.1

/-- In builds with the extension, curves that are announced but do not follow, with assertions. -/
example : ∃ s, loadMsh demoExt (b! "$Curves\n99\n") = .ok s ∧ 2 * (b! "$Curves\n99\n").length < s.volume := by
  obtain ⟨s, h1, h2⟩ := loaded_of (o := loadMsh demoExt (b! "$Curves\n99\n")) (p := fun s => decide (2 * (b! "$Curves\n99\n").length < s.volume)) (by decide +kernel)
  exact ⟨s, h1, of_decide_eq_true h2⟩

/-- A file of 61 bytes with 500000 elements, with assertions. -/
example : (b! "$MeshFormat\n2.2 0 8\n$EndMeshFormat\n$Elements\n" ++ natText 500000 ++ b! " 1 15 0 0\n").length = 61 ∧
    ∃ s, loadMsh demoDebug (b! "$MeshFormat\n2.2 0 8\n$EndMeshFormat\n$Elements\n" ++ natText 500000 ++ b! " 1 15 0 0\n") = .ok s ∧ 1000000 ≤ s.volume := by
  refine ⟨by rw [show natText 500000 = b! "500000" from by decide +kernel]; rfl, ?_⟩
  obtain ⟨s, h1, -, h2⟩ := C60_elements22_false (cfg := demoDebug) (n := 500000) (by omega) (show 2 * 500000 ≤ 1000000 by omega)
  exact ⟨s, h1, h2⟩

end MshIO
