import Verif.Proofs.RejectedSections
import Verif.Props.Throws
import Verif.Props.UndefinedAll

/-!
# C63: exactly when `load_msh` rejects a file

`SectionRejected` (`Spec/Rejected.lean`) describes, section by section, what `load_msh` answers with `UnsupportedFeature` or `InvalidFormat`.
-/

namespace MshIO

/-- **C63.** For every file, whatever its bytes: `load_msh` throws `UnsupportedFeature` or `InvalidFormat` exactly if, reading the sections one after the other, it comes to one
that is rejected with this exception.  (`57 ≤ cfg.maxCount`: a vector can hold the nodes of one element.) -/
theorem C63_rejected {cfg : Cfg} (hc57 : 57 ≤ cfg.maxCount) (file : Bytes) {e : Exc} (he : e = .invalidFormat ∨ e = .unsupportedFeature) :
    loadMsh cfg file = .throw e ↔ ∃ s name r, ArrivesAt cfg file s name r ∧ SectionRejected cfg s name r e := rejected_iff he hc57 file

/-- **C63**: a file that is loaded has no section that is rejected. -/
theorem C63_accepted {cfg : Cfg} (hc57 : 57 ≤ cfg.maxCount) {file : Bytes} {spec : MshSpec} (h : loadMsh cfg file = .ok spec) {s : MshSpec} {name r : Bytes}
    (ha : ArrivesAt cfg file s name r) (e : Exc) : ¬ SectionRejected cfg s name r e := by
  intro hr
  have he : e = .invalidFormat ∨ e = .unsupportedFeature := by
    rcases hr with ⟨-, rfl, -⟩ | ⟨-, rfl, -⟩ | ⟨-, hr⟩ | ⟨-, rfl, -⟩
    · exact Or.inr rfl
    · exact Or.inl rfl
    · unfold ElementsSectionRejected at hr
      split at hr
      · exact Or.inr hr.1
      split at hr
      · exact Or.inr hr.1
      · obtain ⟨v, y, d, -, -, -, hg⟩ := hr
        generalize 0 = p at hg
        induction hg with
        | type => exact Or.inr rfl
        | many => exact Or.inl rfl
        | next _ _ _ _ _ _ _ _ _ ih => exact ih
    · exact Or.inl rfl
  have := (C63_rejected hc57 file he).mpr ⟨s, name, r, ha, hr⟩
  rw [h] at this
  cases this

/-- **C63**: no section that is come to is both rejected and undefined (C58), and none is rejected with both exceptions. -/
theorem C63_apart {cfg : Cfg} (hc57 : 57 ≤ cfg.maxCount) {file : Bytes} {s s' : MshSpec} {name name' r r' : Bytes}
    (ha : ArrivesAt cfg file s name r) (ha' : ArrivesAt cfg file s' name' r') {e : Exc} (he : e = .invalidFormat ∨ e = .unsupportedFeature) (h : SectionRejected cfg s name r e) :
    ¬ SectionUndefined cfg s' name' r' ∧ ∀ e', e' = .invalidFormat ∨ e' = .unsupportedFeature → SectionRejected cfg s' name' r' e' → e' = e := by
  have h1 := (C63_rejected hc57 file he).mpr ⟨s, name, r, ha, h⟩
  constructor
  · intro hu
    have := (C58_undefined hc57 file).mpr (Or.inl ⟨s', name', r', ha', hu⟩)
    rw [h1] at this
    cases this
  · intro e' he' h'
    have := (C63_rejected hc57 file he').mpr ⟨s', name', r', ha', h'⟩
    rw [h1] at this
    injection this with this
    exact this.symm

/-! ## Both directions on concrete files -/

/-- A release build without extension, with memory for a hundred entries. -/
def demoHundred : Cfg := ⟨false, false, .general 6, 100, by decide⟩

/-- A version that is neither 2.2 nor 4.1: rejected whatever follows. -/
example (r : Bytes) : loadMsh demoHundred (b! "$MeshFormat\n4.10 " ++ r) = .throw .unsupportedFeature := by
  refine (C63_rejected (by decide) _ (Or.inr rfl)).mpr ⟨_, b! "$MeshFormat", b! "\n4.10 " ++ r, ⟨?_, [], (fun _ h => by cases h), .refl⟩, Or.inl ⟨rfl, rfl, ?_⟩⟩
  · exact fun c h => by cases h; rfl
  · exact ⟨some (b! "4.10"), .on (32 :: r), .word (lead := b! "\n") (c := 52) (w := b! ".10") (r' := 32 :: r) (by unfold Blank; decide) (by decide) (fun d h => by cases h; rfl),
      Or.inl (by decide)⟩

/-- Text elements of version 2.2 with an unknown type in the second one; `x` is read as type 0, which is unknown too.  When the file ends before the type, the one of the element
before is used again, and nothing is rejected. -/
example : (∃ s name r, ArrivesAt demoHundred (hdr22 ++ b! "$Elements\n2\n1 1 0 1 2\n2 99 0 1 2\n$EndElements\n") s name r ∧ SectionRejected demoHundred s name r .unsupportedFeature) ∧
    (∃ s name r, ArrivesAt demoHundred (hdr22 ++ b! "$Elements\n2\n1 1 0 1 2\n2 x") s name r ∧ SectionRejected demoHundred s name r .unsupportedFeature) ∧
    ¬ ∃ s name r, ArrivesAt demoHundred (hdr22 ++ b! "$Elements\n2\n1 1 0 1 2\n2 ") s name r ∧ SectionRejected demoHundred s name r .unsupportedFeature := by
  rw [← C63_rejected (by decide) _ (Or.inr rfl), ← C63_rejected (by decide) _ (Or.inr rfl), ← C63_rejected (by decide) _ (Or.inr rfl)]
  decide +kernel

/-- Two `int` tags are too few for a data section, three are enough; a section with two is not rejected if there is no memory for the strings before. -/
example : (∃ s name r, ArrivesAt demoHundred (hdr41 ++ b! "$NodeData\n1\n\"a\"\n0\n2\n0\n1\n$EndNodeData\n") s name r ∧ SectionRejected demoHundred s name r .invalidFormat) ∧
    (¬ ∃ s name r, ArrivesAt demoHundred (hdr41 ++ b! "$NodeData\n1\n\"a\"\n0\n3\n0\n1\n0\n$EndNodeData\n") s name r ∧ SectionRejected demoHundred s name r .invalidFormat) ∧
    ¬ ∃ s name r, ArrivesAt demoHundred (hdr41 ++ b! "$NodeData\n101\n\"a\"\n0\n2\n0\n1\n$EndNodeData\n") s name r ∧ SectionRejected demoHundred s name r .invalidFormat := by
  rw [← C63_rejected (by decide) _ (Or.inl rfl), ← C63_rejected (by decide) _ (Or.inl rfl), ← C63_rejected (by decide) _ (Or.inl rfl)]
  decide +kernel

/-- Binary elements of version 2.2: two where one is announced; the second need not be there. -/
example : (∃ s name r, ArrivesAt demoHundred (hdr22b ++ b! "$Elements\n1\n" ++ [15, 2, 0, 1, 1].flatMap encI32) s name r ∧ SectionRejected demoHundred s name r .invalidFormat) ∧
    ¬ ∃ s name r, ArrivesAt demoHundred (hdr22b ++ b! "$Elements\n2\n" ++ [15, 2, 0, 1, 1].flatMap encI32) s name r ∧ SectionRejected demoHundred s name r .invalidFormat := by
  rw [← C63_rejected (by decide) _ (Or.inl rfl), ← C63_rejected (by decide) _ (Or.inl rfl)]
  decide +kernel

/-- Binary elements of version 4.1 with an unknown type, in the first and in the second block. -/
example : (∃ s name r, ArrivesAt demoHundred (hdr41b ++ b! "$Elements\n" ++ [1, 1, 1, 1].flatMap encU64 ++ [2, 1, 99].flatMap encI32 ++ encU64 1) s name r ∧
      SectionRejected demoHundred s name r .unsupportedFeature) ∧
    ∃ s name r, ArrivesAt demoHundred (hdr41b ++ b! "$Elements\n" ++ [2, 1, 1, 1].flatMap encU64 ++ [0, 1, 15].flatMap encI32 ++ [1, 5, 6].flatMap encU64 ++ [2, 1, 99].flatMap encI32 ++ encU64 1)
      s name r ∧ SectionRejected demoHundred s name r .unsupportedFeature := by
  rw [← C63_rejected (by decide) _ (Or.inr rfl), ← C63_rejected (by decide) _ (Or.inr rfl)]
  decide +kernel

/-- Entities in version 2.2; a binary file of the other byte order; a `1` that is cut off after its first byte counts. -/
example : (∃ s name r, ArrivesAt demoHundred (hdr22 ++ b! "$Entities\n") s name r ∧ SectionRejected demoHundred s name r .invalidFormat) ∧
    (∃ s name r, ArrivesAt demoHundred (b! "$MeshFormat\n4.1 1 8\n" ++ [0, 0, 0, 1]) s name r ∧ SectionRejected demoHundred s name r .unsupportedFeature) ∧
    ¬ ∃ s name r, ArrivesAt demoHundred (b! "$MeshFormat\n4.1 1 8\n" ++ [1]) s name r ∧ SectionRejected demoHundred s name r .unsupportedFeature := by
  rw [← C63_rejected (by decide) _ (Or.inl rfl), ← C63_rejected (by decide) _ (Or.inr rfl), ← C63_rejected (by decide) _ (Or.inr rfl)]
  decide +kernel

end MshIO
