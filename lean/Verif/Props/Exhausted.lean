import Verif.Proofs.ExhaustedSections
import Verif.Props.Rejected
import Verif.Props.Endings

/-!
# C75: exactly when there is not enough memory to load a file, and exactly which files are loaded

A vector can be allocated if it has at most `cfg.maxCount` entries; otherwise `load_msh` throws what the standard library throws, `std::length_error` or `std::bad_alloc`.
`SectionExhausts` (`Spec/Exhausted.lean`) says for each section, from the bytes that follow its name and what has been read before, whether reading it asks for more.  Nothing is
asked of the file.
-/

namespace MshIO

/-- **C75**, reading a section: whatever follows the name of a section, up to the end of the file, there is not enough memory for it exactly if `SectionExhausts` says so.
(Vectors of 57 numbers can be allocated: no element has more nodes.) -/
theorem C75_section {cfg : Cfg} (hm : 57 ≤ cfg.maxCount) {file : Bytes} {s : MshSpec} {name r : Bytes} (h : ArrivesAt cfg file s name r) :
    loadSection cfg name s ⟨r, r.isEmpty, false⟩ = .throw .alloc ↔ SectionExhausts cfg s name r := by
  obtain ⟨hr, w, hw, ha⟩ := h
  exact section_exhausts_iff hm (arrives_version ha) name r

/-- **C75**, every file: there is not enough memory to load it exactly if the main loop arrives at a section for which there is not, or at the end of the file and there is not for
what follows reading. -/
theorem C75_exhausted {cfg : Cfg} (hm : 57 ≤ cfg.maxCount) (file : Bytes) : loadMsh cfg file = .throw .alloc ↔
    (∃ s name r, ArrivesAt cfg file s name r ∧ SectionExhausts cfg s name r) ∨
    ∃ s st, Arrives cfg (Stream.ofBytes file) (s, st) ∧ st.eof = true ∧ loadPostProcess cfg s = .throw .alloc :=
  exhausts_iff hm file

/-- Something is wrong with a section: reading it is undefined, rejects it, fails an assertion, fails unnoticed in front of something, or asks for too much memory. -/
def SectionBad (cfg : Cfg) (s : MshSpec) (name r : Bytes) : Prop :=
  SectionUndefined cfg s name r ∨ SectionRejected cfg s name r .invalidFormat ∨ SectionRejected cfg s name r .unsupportedFeature ∨ SectionEnds cfg .stops s name r ∨
    SectionEnds cfg .sticks s name r ∨ SectionExhausts cfg s name r

/-- **C75**, exactly which files are loaded: those with no section come to with which something is wrong, and with which nothing goes wrong after reading. -/
theorem C75_loads {cfg : Cfg} (hm : 57 ≤ cfg.maxCount) (file : Bytes) : (∃ spec, loadMsh cfg file = .ok spec) ↔
    (∀ s name r, ArrivesAt cfg file s name r → ¬ SectionBad cfg s name r) ∧
    ∀ s st, Arrives cfg (Stream.ofBytes file) (s, st) → st.eof = true → ∃ t, loadPostProcess cfg s = .ok t := by
  constructor
  · rintro ⟨spec, h⟩
    refine ⟨fun s name r ha hb => ?_, fun s st ha he => ?_⟩
    · rcases hb with hb | hb | hb | hb | hb | hb
      · have := (C58_undefined hm file).mpr (Or.inl ⟨s, name, r, ha, hb⟩); rw [h] at this; cases this
      · have := (C63_rejected hm file (Or.inl rfl)).mpr ⟨s, name, r, ha, hb⟩; rw [h] at this; cases this
      · have := (C63_rejected hm file (Or.inr rfl)).mpr ⟨s, name, r, ha, hb⟩; rw [h] at this; cases this
      · have := (C68_stops hm file).mpr (Or.inl ⟨s, name, r, ha, hb⟩); rw [h] at this; cases this
      · have := (C20_exact hm file).mpr ⟨s, name, r, ha, hb⟩; rw [h] at this; cases this
      · have := (C75_exhausted hm file).mpr (Or.inl ⟨s, name, r, ha, hb⟩); rw [h] at this; cases this
    · unfold loadMsh at h
      rw [loadStream_eq] at h
      have h1 := loadFull_reach ha
      simp only at h1
      rw [h1, loadFull_eof he] at h
      exact ⟨spec, h⟩
  · rintro ⟨h1, h2⟩
    cases h : loadMsh cfg file with
    | ok spec => exact ⟨spec, rfl⟩
    | ub =>
      rcases (C58_undefined hm file).mp h with ⟨s, name, r, ha, hb⟩ | ⟨s, st, ha, he, hb⟩
      · exact absurd (Or.inl hb) (h1 s name r ha)
      · obtain ⟨t, ht⟩ := h2 s st ha he; rw [ht] at hb; cases hb
    | abort =>
      rcases (C68_stops hm file).mp h with ⟨s, name, r, ha, hb⟩ | ⟨s, st, ha, he, hb⟩
      · exact absurd (Or.inr (Or.inr (Or.inr (Or.inl hb)))) (h1 s name r ha)
      · obtain ⟨t, ht⟩ := h2 s st ha he; rw [ht] at hb; cases hb
    | hang =>
      obtain ⟨s, name, r, ha, hb⟩ := (C20_exact hm file).mp h
      exact absurd (Or.inr (Or.inr (Or.inr (Or.inr (Or.inl hb))))) (h1 s name r ha)
    | throw e =>
      rcases C62_kinds cfg h with rfl | rfl | rfl
      · rcases (C75_exhausted hm file).mp h with ⟨s, name, r, ha, hb⟩ | ⟨s, st, ha, he, hb⟩
        · exact absurd (Or.inr (Or.inr (Or.inr (Or.inr (Or.inr hb))))) (h1 s name r ha)
        · obtain ⟨t, ht⟩ := h2 s st ha he; rw [ht] at hb; cases hb
      · obtain ⟨s, name, r, ha, hb⟩ := (C63_rejected hm file (Or.inr rfl)).mp h
        exact absurd (Or.inr (Or.inr (Or.inl hb))) (h1 s name r ha)
      · obtain ⟨s, name, r, ha, hb⟩ := (C63_rejected hm file (Or.inl rfl)).mp h
        exact absurd (Or.inr (Or.inl hb)) (h1 s name r ha)

/-- **C75**, files of version 4.1: nothing follows reading, so only the sections matter. -/
theorem C75_version41 {cfg : Cfg} (hm : 57 ≤ cfg.maxCount) {file : Bytes} (h41 : ∀ s st, Arrives cfg (Stream.ofBytes file) (s, st) → st.eof = true → s.meshFormat.version = b! "4.1") :
    (loadMsh cfg file = .throw .alloc ↔ ∃ s name r, ArrivesAt cfg file s name r ∧ SectionExhausts cfg s name r) ∧
    ((∃ spec, loadMsh cfg file = .ok spec) ↔ ∀ s name r, ArrivesAt cfg file s name r → ¬ SectionBad cfg s name r) := by
  have hp : ∀ s st, Arrives cfg (Stream.ofBytes file) (s, st) → st.eof = true → loadPostProcess cfg s = .ok s := fun s st ha he => by
    unfold loadPostProcess
    rw [if_neg (by rw [h41 s st ha he]; decide)]
  constructor
  · rw [C75_exhausted hm]
    refine ⟨fun h => h.resolve_right ?_, Or.inl⟩
    rintro ⟨s, st, ha, he, h⟩
    rw [hp s st ha he] at h
    cases h
  · rw [C75_loads hm]
    exact ⟨fun h => h.1, fun h => ⟨h, fun s st ha he => ⟨s, hp s st ha he⟩⟩⟩

/-! ## Both directions on concrete files -/

/-- A negative number of physical names is more than any vector can hold, whatever follows. -/
example (r : Bytes) : loadMsh demoHundred (b! "$PhysicalNames\n-1 " ++ r) = .throw .alloc := by
  refine (C75_exhausted (by decide) _).mpr (Or.inl ⟨_, b! "$PhysicalNames", b! "\n-1 " ++ r, ⟨?_, [], (fun _ h => by cases h), .refl⟩, Or.inl ⟨rfl, -1, .on (32 :: r), ?_, Or.inl (by decide)⟩⟩)
  · exact fun c h => by cases h; rfl
  · exact .number (s := some true) (ds := [1]) ⟨b! "\n", rfl, by unfold Blank; decide, (fun c h => by cases h; decide), fun h => by cases h⟩ (by decide) (by decide)

/-- What has been read before a section of version 2.2: a header, and so many points. -/
def before22 (t : Int32) (points : Nat) : MshSpec := { meshFormat := ⟨b! "2.2", t, 8⟩, entities := { points := List.replicate points {} } }

/-- Text elements of version 2.2, a point each.  A negative number of tags is too much; two tags are not, unless there is no room for the entity that the second one names, and the
file may end before it. -/
example : SectionExhausts demoHundred (before22 0 0) (b! "$Elements") (b! "\n1\n1 15 -2 0 1 1\n") ∧ ¬ SectionExhausts demoHundred (before22 0 99) (b! "$Elements") (b! "\n1\n1 15 2 0 1 1\n") ∧
    SectionExhausts demoHundred (before22 0 100) (b! "$Elements") (b! "\n1\n1 15 2 0 1 1\n") ∧ SectionExhausts demoHundred (before22 0 100) (b! "$Elements") (b! "\n1\n1 15 2 ") ∧
    ¬ SectionExhausts demoHundred (before22 0 100) (b! "$Elements") (b! "\n1\n1 15 1 0 1\n") := by
  simp only [← section_exhausts_iff (cfg := demoHundred) (by decide) (Or.inr (show (before22 0 _).meshFormat.version = b! "2.2" from rfl))]
  decide +kernel

/-- Binary elements of version 2.2, a point each: announced, found, with too many tags, of an entity for which there is no room, and fine. -/
example : SectionExhausts demoHundred (before22 1 0) (b! "$Elements") (b! "\n101\n") ∧ SectionExhausts demoHundred (before22 1 0) (b! "$Elements") (b! "\n100\n" ++ [15, 101, 0, 1].flatMap encI32) ∧
    SectionExhausts demoHundred (before22 1 0) (b! "$Elements") (b! "\n1\n" ++ [15, 1, 101].flatMap encI32) ∧
    SectionExhausts demoHundred (before22 1 100) (b! "$Elements") (b! "\n1\n" ++ [15, 1, 2, 1, 0, 1, 1].flatMap encI32) ∧
    ¬ SectionExhausts demoHundred (before22 1 99) (b! "$Elements") (b! "\n1\n" ++ [15, 1, 2, 1, 0, 1, 1].flatMap encI32) := by
  simp only [← section_exhausts_iff (cfg := demoHundred) (by decide) (Or.inr (show (before22 1 _).meshFormat.version = b! "2.2" from rfl))]
  decide +kernel

/-- Nodes of version 4.1: a hundred and one blocks; a block with thirty-four nodes, which have a hundred and two coordinates; a block with thirty-three. -/
example : SectionExhausts demoHundred {} (b! "$Nodes") (b! "\n101 1 1 1\n") ∧ SectionExhausts demoHundred {} (b! "$Nodes") (b! "\n1 34 1 34\n0 1 0 34\n") ∧
    ¬ SectionExhausts demoHundred {} (b! "$Nodes") (b! "\n1 33 1 33\n0 1 0 33\n") := by
  simp only [← section_exhausts_iff (cfg := demoHundred) (by decide) (Or.inl (show ({} : MshSpec).meshFormat.version = b! "4.1" from rfl))]
  decide +kernel

/-- The other sections: entities, data, and curves, which need the extension. -/
example : SectionExhausts demoHundred {} (b! "$Entities") (b! "\n0 101 0 0\n") ∧ ¬ SectionExhausts demoHundred {} (b! "$Entities") (b! "\n0 0 0 0\n") ∧
    SectionExhausts demoHundred {} (b! "$NodeData") (b! "\n0\n0\n3\n0 1 101\n") ∧ SectionExhausts demoHundred {} (b! "$NodeData") (b! "\n0\n0\n3\n0 101 1\n1") ∧
    ¬ SectionExhausts demoHundred {} (b! "$NodeData") (b! "\n0\n0\n3\n0 1 1\n1 2.5\n") ∧ ¬ SectionExhausts demoHundred {} (b! "$Curves") (b! "\n101\n") := by
  simp only [← section_exhausts_iff (cfg := demoHundred) (by decide) (Or.inl (show ({} : MshSpec).meshFormat.version = b! "4.1" from rfl))]
  decide +kernel

/-- A file with nodes is loaded, so nothing is wrong with its sections. -/
example : ∀ s name r, ArrivesAt demoDebug goodNodes s name r → ¬ SectionBad demoDebug s name r :=
  ((C75_loads (by decide) _).mp (goodNodes_loads demoDebug (by decide +kernel))).1

/-- After reading: nodes with the tags 1 and 200 of version 2.2 need a table of two hundred entries. -/
example : loadMsh demoHundred (hdr22 ++ b! "$Nodes\n2\n1 0 0 0\n200 0 0 0\n$EndNodes\n") = .throw .alloc ∧
    ∃ s, loadMsh demoHundred (hdr22 ++ b! "$Nodes\n2\n1 0 0 0\n100 0 0 0\n$EndNodes\n") = .ok s ∧ s.nodes.numNodes = 2 := by
  refine ⟨by decide +kernel, ?_⟩
  have h : (match loadMsh demoHundred (hdr22 ++ b! "$Nodes\n2\n1 0 0 0\n100 0 0 0\n$EndNodes\n") with
    | .ok s => s.nodes.numNodes == 2
    | _ => false) = true := by decide +kernel
  split at h
  · rename_i s hs
    exact ⟨s, hs, by simpa using h⟩
  · cases h

end MshIO
