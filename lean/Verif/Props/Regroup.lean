import Verif.Proofs.RegroupFile
import Verif.Props.Exhausted

/-!
# C76: exactly what follows reading, and exactly which files are loaded, with what result

`C75` leaves open when nothing goes wrong after reading.  Here this is said in terms of what has been read (`Spec/Regroup.lean`), for every file in which `$MeshFormat` comes before
nodes and elements (`FormatFirst`): the table of node tags can be allocated, all node tags lie in it, and the blocks can be allocated.  Then what is returned is what was read, its
nodes and elements cut into maximal runs.
-/

namespace MshIO

/-- **C76**, after reading: `s` is what has been read at the end of the file.  What is returned, if anything; and when memory is exhausted. -/
theorem C76_after {cfg : Cfg} {file : Bytes} (hf : FormatFirst cfg file) {s : MshSpec} {st : Stream} (h : Arrives cfg (Stream.ofBytes file) (s, st)) (he : st.eof = true) :
    (∀ t, loadMsh cfg file = .ok t ↔ RegroupingWorks cfg s ∧ t = s.final) ∧ (loadMsh cfg file = .throw .alloc ↔ RegroupingExhausts cfg s) ∧
    (loadMsh cfg file = .ub ↔ TagOutside cfg s) := by
  have e : loadMsh cfg file = loadPostProcess cfg s := by
    unfold loadMsh
    rw [loadStream_eq]
    have h1 := loadFull_reach h
    simp only at h1
    rw [h1, loadFull_eof he]
  rw [e]
  exact ⟨post_ok_iff hf h, post_exhausts_iff hf h, post_undefined_iff hf h⟩

/-- **C76**, exactly which files are loaded: nothing is wrong with a section, and nothing goes wrong after reading. -/
theorem C76_loads {cfg : Cfg} (hm : 57 ≤ cfg.maxCount) {file : Bytes} (hf : FormatFirst cfg file) : (∃ spec, loadMsh cfg file = .ok spec) ↔
    (∀ s name r, ArrivesAt cfg file s name r → ¬ SectionBad cfg s name r) ∧
    ∀ s st, Arrives cfg (Stream.ofBytes file) (s, st) → st.eof = true → RegroupingWorks cfg s := by
  rw [C75_loads hm]
  refine and_congr Iff.rfl ⟨fun h s st ha he => ?_, fun h s st ha he => ?_⟩
  · obtain ⟨t, ht⟩ := h s st ha he
    exact ((post_ok_iff hf ha t).mp ht).1
  · exact ⟨_, (post_ok_iff hf ha _).mpr ⟨h s st ha he, rfl⟩⟩

/-- **C76**, exactly what is loaded: the main loop arrives at the end of the file, having read `s`, nothing goes wrong afterwards, and `spec` is what becomes of `s`. -/
theorem C76_result {cfg : Cfg} {file : Bytes} (hf : FormatFirst cfg file) (spec : MshSpec) : loadMsh cfg file = .ok spec ↔
    ∃ s st, Arrives cfg (Stream.ofBytes file) (s, st) ∧ st.eof = true ∧ RegroupingWorks cfg s ∧ spec = s.final := by
  constructor
  · intro h
    have h' := h
    unfold loadMsh at h'
    rw [loadStream_eq] at h'
    cases hl : loadFull cfg {} (Stream.ofBytes file) with
    | ok x =>
      obtain ⟨s, st⟩ := x
      obtain ⟨ha, he⟩ := loadFull_ok cfg _ _ _ _ le_rfl hl
      exact ⟨s, st, ha, he, ((C76_after hf ha he).1 spec).mp h⟩
    | throw e => rw [hl] at h'; cases h'
    | abort => rw [hl] at h'; cases h'
    | ub => rw [hl] at h'; cases h'
    | hang => rw [hl] at h'; cases h'
  · rintro ⟨s, st, ha, he, hw⟩
    exact ((C76_after hf ha he).1 spec).mpr hw

/-- **C76**, exactly which files exhaust memory: at a section, or after reading. -/
theorem C76_exhausted {cfg : Cfg} (hm : 57 ≤ cfg.maxCount) {file : Bytes} (hf : FormatFirst cfg file) : loadMsh cfg file = .throw .alloc ↔
    (∃ s name r, ArrivesAt cfg file s name r ∧ SectionExhausts cfg s name r) ∨
    ∃ s st, Arrives cfg (Stream.ofBytes file) (s, st) ∧ st.eof = true ∧ RegroupingExhausts cfg s := by
  rw [C75_exhausted hm]
  refine or_congr Iff.rfl ⟨?_, ?_⟩
  · rintro ⟨s, st, ha, he, h⟩
    exact ⟨s, st, ha, he, (post_exhausts_iff hf ha).mp h⟩
  · rintro ⟨s, st, ha, he, h⟩
    exact ⟨s, st, ha, he, (post_exhausts_iff hf ha).mpr h⟩

/-! ## Concrete cases -/

/-- A hundred entries fit.  Lines of nodes from the tag `a` on. -/
def nodeLines (a n : Nat) : Bytes := (List.range n).flatMap fun i => decU64 (UInt64.ofNat (a + i)) ++ b! " 0 0 0\n"

/-- A file of version 2.2 with nodes in two sections, and then `r`. -/
def twoSections (n k : Nat) (r : Bytes) : Bytes :=
  hdr22 ++ b! "$Nodes\n" ++ decU64 (UInt64.ofNat n) ++ b! "\n" ++ nodeLines 1 n ++ b! "$EndNodes\n$Nodes\n" ++ decU64 (UInt64.ofNat k) ++ b! "\n" ++ nodeLines (n + 1) k ++
    b! "$EndNodes\n" ++ r

/-- Points of the entities 7 and 8, at the nodes 10 and 20. -/
def twoPoints : Bytes := b! "$Elements\n2\n1 15 2 0 7 10\n2 15 2 0 8 20\n$EndElements\n"

theorem arrives_end {cfg : Cfg} {file : Bytes} (h : (match loadFull cfg {} (Stream.ofBytes file) with | .ok _ => true | _ => false) = true) :
    ∃ s st, Arrives cfg (Stream.ofBytes file) (s, st) ∧ st.eof = true := by
  split at h
  · rename_i x hx
    obtain ⟨s, st⟩ := x
    obtain ⟨ha, he⟩ := loadFull_ok cfg _ _ _ _ le_rfl hx
    exact ⟨s, st, ha, he⟩
  · cases h

/-- Thirty-four nodes in two sections, none of which is used by an element: they make one block, for whose coordinates there is no room, although there was room for those of each
section. -/
example : FormatFirst demoHundred (twoSections 20 14 []) ∧ ∃ s st, Arrives demoHundred (Stream.ofBytes (twoSections 20 14 [])) (s, st) ∧ st.eof = true ∧
    RegroupingExhausts demoHundred s := by
  have hf : FormatFirst demoHundred (twoSections 20 14 []) := formatFirst_of (by decide +kernel)
  obtain ⟨s, st, ha, he⟩ := arrives_end (cfg := demoHundred) (file := twoSections 20 14 []) (by decide +kernel)
  exact ⟨hf, s, st, ha, he, (C76_after hf ha he).2.1.mp (by decide +kernel)⟩

/-- With the points there is room: the nodes make five blocks, which end where the entity changes, also across the sections. -/
example : FormatFirst demoHundred (twoSections 20 14 twoPoints) ∧ ∃ s st, Arrives demoHundred (Stream.ofBytes (twoSections 20 14 twoPoints)) (s, st) ∧ st.eof = true ∧
    RegroupingWorks demoHundred s ∧ loadMsh demoHundred (twoSections 20 14 twoPoints) = .ok s.regrouped ∧
    s.regrouped.nodes.entityBlocks.map (fun b => (b.entityDim, b.entityTag, b.tags.length)) = [(0, 0, 9), (0, 7, 1), (0, 0, 9), (0, 8, 1), (0, 0, 14)] := by
  have hf : FormatFirst demoHundred (twoSections 20 14 twoPoints) := formatFirst_of (by decide +kernel)
  have h : (match loadMsh demoHundred (twoSections 20 14 twoPoints) with
    | .ok t => decide (t.meshFormat.version = b! "2.2" ∧
        t.nodes.entityBlocks.map (fun b => (b.entityDim, b.entityTag, b.tags.length)) = [(0, 0, 9), (0, 7, 1), (0, 0, 9), (0, 8, 1), (0, 0, 14)])
    | _ => false) = true := by decide +kernel
  split at h
  · rename_i t ht
    obtain ⟨s, st, ha, he, hw, e⟩ := (C76_result hf t).mp ht
    obtain ⟨h1, h2⟩ := of_decide_eq_true h
    have hv : s.meshFormat.version = b! "2.2" := by
      rw [e] at h1
      unfold MshSpec.final at h1
      split at h1
      · assumption
      · exact h1
    have e' : t = s.regrouped := by rw [e]; unfold MshSpec.final; rw [if_pos hv]
    rw [e'] at h2 ht
    exact ⟨hf, s, st, ha, he, hw, ht, h2⟩
  · cases h

end MshIO
