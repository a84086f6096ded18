import Verif.Proofs.SectionUndefined
import Verif.Props.Undefined

/-!
# C58: exactly which files make `load_msh` undefined

Nothing is asked of the file: it may be malformed, cut off, or no mesh at all.  `SectionUndefined` (`Spec/Undefined.lean`) says for each section, from the bytes that follow its
name and what has been read before, whether reading it is undefined.
-/

namespace MshIO

/-- **C58**, reading a section: whatever follows the name of a section, up to the end of the file, reading it is undefined exactly if `SectionUndefined` holds.  (Vectors of 57
numbers can be allocated: no element has more nodes.) -/
theorem C58_section {cfg : Cfg} (hm : 57 ≤ cfg.maxCount) {file : Bytes} {s : MshSpec} {name r : Bytes} (h : ArrivesAt cfg file s name r) :
    loadSection cfg name s ⟨r, r.isEmpty, false⟩ = .ub ↔ SectionUndefined cfg s name r := by
  obtain ⟨hr, w, hw, ha⟩ := h
  exact section_ub_iff hm (arrives_version ha) name hr

/-- **C58**, every file: loading is undefined exactly if the main loop arrives at a section that is undefined, or at the end of the file and what follows reading is. -/
theorem C58_undefined {cfg : Cfg} (hm : 57 ≤ cfg.maxCount) (file : Bytes) : loadMsh cfg file = .ub ↔
    (∃ s name r, ArrivesAt cfg file s name r ∧ SectionUndefined cfg s name r) ∨
    ∃ s st, Arrives cfg (Stream.ofBytes file) (s, st) ∧ st.eof = true ∧ loadPostProcess cfg s = .ub :=
  undefined_iff hm file

/-- **C58**, every file in which `$MeshFormat` comes before nodes and elements: what follows reading is undefined exactly if in version 2.2 the table of node tags can be
allocated and the tag of a node, or of a node of an element, lies outside it. -/
theorem C58_format_first {cfg : Cfg} (hm : 57 ≤ cfg.maxCount) {file : Bytes} (hf : FormatFirst cfg file) : loadMsh cfg file = .ub ↔
    (∃ s name r, ArrivesAt cfg file s name r ∧ SectionUndefined cfg s name r) ∨
    ∃ s st, Arrives cfg (Stream.ofBytes file) (s, st) ∧ st.eof = true ∧ TagOutside cfg s := by
  rw [C58_undefined hm]
  refine or_congr Iff.rfl ⟨?_, ?_⟩
  · rintro ⟨s, st, ha, he, h⟩
    exact ⟨s, st, ha, he, (post_undefined_iff hf ha).mp h⟩
  · rintro ⟨s, st, ha, he, h⟩
    exact ⟨s, st, ha, he, (post_undefined_iff hf ha).mpr h⟩

/-! ## Concrete cases -/

/-- The hypothesis of `C58_format_first` holds if `$MeshFormat` occurs nowhere but at the beginning. -/
theorem formatFirst_of {cfg : Cfg} {file : Bytes} (h : occurs (b! "$MeshFormat") file.tail = false) : FormatFirst cfg file := by
  rintro s r ⟨hr, w, hw, ha⟩
  unfold Arrives at ha
  rcases Relation.ReflTransGen.cases_head ha with e | ⟨y, hy, hy'⟩
  · cases e; exact ⟨rfl, rfl⟩
  · exfalso
    rcases loadRound_progress (by rfl) hy.2 with hp | hp
    · rcases Relation.ReflTransGen.cases_head hy' with e | ⟨z, hz, -⟩
      · rw [e] at hp; cases hp
      · rw [hz.1] at hp; cases hp
    · have h1 := (reach_keeps (F := y.2.rem) (I := fun _ => True) (fun _ _ _ _ _ _ _ _ => trivial) hy' ⟨trivial, List.suffix_refl _⟩).2
      have h2 := (loadRound_step hy.2).suffix
      have h3 : y.2.rem <:+ file.tail := by
        obtain ⟨a, ha⟩ := h2
        change a ++ y.2.rem = file at ha
        cases a with
        | nil => rw [← ha] at hp; exact absurd hp (by simp [Stream.ofBytes])
        | cons c a => rw [← ha]; exact ⟨a, rfl⟩
      exact occurs_never h (r := r) ((List.IsSuffix.trans ⟨w, by simp⟩ h1).trans h3)

/-- Entities in text, cut off in a malformed tag: the number of physical groups is used without having been read. -/
example : loadMsh demoExt (hdr41 ++ b! "$Entities\n1 0 0 0\nx") = .ub := by
  have hi : ∀ (l : Bytes) (c : UInt8) (r : Bytes) (d : Fin 10), Blank l → isDigit c = false → TakesSize (.on (l ++ (digitsText [d] ++ c :: r))) (some (UInt64.ofInt (1 * digitsValue [d]))) (.on (c :: r)) :=
    fun l c r d hl hc => .number (s := none) ⟨l, rfl, hl, by simpa using hc, fun _ h => by cases h⟩ (by simp) (by have := d.isLt; simp [digitsValue]; omega)
  refine (C58_undefined (by decide) _).mpr (Or.inl ⟨_, b! "$Entities", b! "\n1 0 0 0\nx", ⟨by decide, b! "\n", by unfold Blank; decide, .single ⟨rfl, rfl⟩⟩,
    Or.inr (Or.inr (Or.inl ⟨rfl, rfl, ?_⟩))⟩)
  refine ⟨_, _, _, _, _, _, _, _, hi (b! "\n") 32 (b! "0 0 0\nx") 1 (by unfold Blank; decide) rfl, hi (b! " ") 32 (b! "0 0\nx") 0 (by unfold Blank; decide) rfl,
    hi (b! " ") 32 (b! "0\nx") 0 (by unfold Blank; decide) rfl, hi (b! " ") 10 (b! "x") 0 (by unfold Blank; decide) rfl, fun _ => ⟨_, _, rfl⟩, ?_⟩
  rintro _ ⟨⟩
  refine ⟨by decide, ?_⟩
  rintro _ ⟨⟩
  refine ⟨by decide, ?_⟩
  rintro _ ⟨⟩
  refine ⟨by decide, ?_⟩
  rintro _ ⟨⟩
  refine ⟨by decide, ?_⟩
  refine ⟨.stuck, ⟨.stuck, ⟨some 0, .word (s := none) ⟨b! "\n", rfl, by unfold Blank; decide, by decide, fun _ _ => ⟨120, rfl, by decide⟩⟩ .stuck⟩, ?_⟩, none, .stuck, .stuck, by simp⟩
  exact .next .stuck (.next .stuck (.next .stuck .zero))

/-- No section is undefined in a text file with complete entities and a node with a malformed coordinate. -/
example : ¬ ∃ s name r, ArrivesAt demoDebug (hdr41 ++ b! "$Entities\n1 0 0 0\n5 0 0 0 1 2\n$EndEntities\n$Nodes\n1 1 1 1\n0 5 0 1\n1\n0 x 0\n") s name r ∧
    SectionUndefined demoDebug s name r := by
  intro h
  have := (C58_undefined (cfg := demoDebug) (by decide) _).mpr (Or.inl h)
  revert this
  decide +kernel

/-- A file of version 2.2 with an element at a node outside the table: all sections are read, and what follows is undefined. -/
example : FormatFirst demoDebug (hdr22 ++ demoOutside22) ∧
    ∃ s st, Arrives demoDebug (Stream.ofBytes (hdr22 ++ demoOutside22)) (s, st) ∧ st.eof = true ∧ TagOutside demoDebug s := by
  refine ⟨formatFirst_of (by decide +kernel), ?_⟩
  obtain ⟨s, st, ha, he, h⟩ :=
    ((C36_ascii22_partial demoDebug (boundary_ascii22 _) demoOutside22_harmless).mp (by decide +kernel)).resolve_left (not_counterMissing (by decide +kernel))
  exact ⟨s, st, ha, he, by rw [(raw_of_arrives rfl (boundary_ascii22 _) demoOutside22_harmless.format ha he).format], h⟩

end MshIO
