import Verif.Proofs.Throws
import Verif.Props.Agree

/-!
# C62: which exceptions loading can throw, and where

`sectionThrows` (`Spec/Throws.lean`) lists, for every section and format, the exceptions that reading it can end with.
-/

namespace MshIO

/-- **C62.** If `load_msh` throws, it does so either while reading a section, for a reason that is listed for this section and the format the file has so far; or after reading
a file of version 2.2, because memory runs out. -/
theorem C62_throws (cfg : Cfg) {file : Bytes} {e : Exc} (h : loadMsh cfg file = .throw e) :
    (∃ s name r, ArrivesAt cfg file s name r ∧ e ∈ sectionThrows cfg.nanospline s.meshFormat name) ∨
    e = .alloc ∧ ∃ s st, Arrives cfg (Stream.ofBytes file) (s, st) ∧ st.eof = true ∧ s.meshFormat.version = b! "2.2" := by
  rcases (loadMsh_throw_iff cfg file e).mp h with ⟨s, name, r, -, ha, hs⟩ | ⟨s, st, ha, he, hp⟩
  · obtain ⟨w, -, har⟩ := ha.2
    have := (throws_section cfg name s (arrives_version har).symm).all (payload r)
    rw [hs] at this
    exact Or.inl ⟨s, name, r, ha, this⟩
  · have := within_post cfg s (arrives_types cfg ha)
    rw [hp] at this
    refine Or.inr ⟨List.mem_singleton.mp this, s, st, ha, he, ?_⟩
    by_contra hv
    unfold loadPostProcess at hp
    rw [if_neg hv] at hp
    cases hp

/-- **C62**, the exceptions of any section are three; `CorruptData` is never thrown, `std::runtime_error` only when a file cannot be opened (C43). -/
theorem C62_kinds (cfg : Cfg) {file : Bytes} {e : Exc} (h : loadMsh cfg file = .throw e) : e = .alloc ∨ e = .unsupportedFeature ∨ e = .invalidFormat := by
  rcases C62_throws cfg h with ⟨s, name, r, -, hm⟩ | ⟨h, -⟩
  · unfold sectionThrows at hm
    cases e with
    | alloc => exact Or.inl rfl
    | unsupportedFeature => exact Or.inr (Or.inl rfl)
    | invalidFormat => exact Or.inr (Or.inr rfl)
    | corruptData => exfalso; revert hm; repeat' split
                     all_goals decide
    | runtimeError => exfalso; revert hm; repeat' split
                      all_goals decide
  · exact Or.inl h

/-- **C62**: a release build never aborts, whatever the file. -/
theorem C62_release (cfg : Cfg) (h : cfg.asserts = false) (file : Bytes) : loadMsh cfg file ≠ .abort := fun ha => by
  rw [loadMsh_abort cfg ha] at h
  cases h

/-- **C62**: `UnsupportedFeature` comes from `$MeshFormat` or `$Elements`. -/
theorem C62_unsupported (cfg : Cfg) {file : Bytes} (h : loadMsh cfg file = .throw .unsupportedFeature) :
    ∃ s r, ArrivesAt cfg file s (b! "$MeshFormat") r ∨ ArrivesAt cfg file s (b! "$Elements") r := by
  rcases C62_throws cfg h with ⟨s, name, r, ha, hm⟩ | ⟨h, -⟩
  · unfold sectionThrows at hm
    by_cases h1 : name = b! "$MeshFormat"
    · exact ⟨s, r, Or.inl (h1 ▸ ha)⟩
    by_cases h2 : name = b! "$Elements"
    · exact ⟨s, r, Or.inr (h2 ▸ ha)⟩
    exfalso
    rw [if_neg h1, if_neg h2] at hm
    revert hm
    repeat' split
    all_goals decide
  · cases h

/-- **C62**: `InvalidFormat` comes from `$Entities` of version 2.2, binary `$Elements` of version 2.2, or data. -/
theorem C62_invalid (cfg : Cfg) {file : Bytes} (h : loadMsh cfg file = .throw .invalidFormat) :
    ∃ s r name, ArrivesAt cfg file s name r ∧ (name = b! "$Entities" ∧ s.meshFormat.version = b! "2.2" ∨
      name = b! "$Elements" ∧ s.meshFormat.version = b! "2.2" ∧ s.meshFormat.fileType ≠ 0 ∨ name ∈ dataSections) := by
  rcases C62_throws cfg h with ⟨s, name, r, ha, hm⟩ | ⟨h, -⟩
  · refine ⟨s, r, name, ha, ?_⟩
    unfold sectionThrows at hm
    by_cases h1 : name = b! "$Entities" ∧ s.meshFormat.version = b! "2.2"
    · exact Or.inl h1
    by_cases h2 : name = b! "$Elements" ∧ s.meshFormat.version = b! "2.2" ∧ s.meshFormat.fileType ≠ 0
    · exact Or.inr (Or.inl h2)
    by_cases h3 : name = b! "$NodeData" ∨ name = b! "$ElementData" ∨ name = b! "$ElementNodeData"
    · refine Or.inr (Or.inr ?_)
      rcases h3 with rfl | rfl | rfl <;> decide
    exfalso
    rw [if_neg h3] at hm
    revert hm
    split
    · decide
    split
    · rename_i h
      rw [if_neg fun e => h1 ⟨h, e⟩]
      decide
    split
    · decide
    split
    · rename_i h
      rw [if_neg fun e => h2 ⟨h, e⟩]
      decide
    split <;> decide
  · cases h

/-! ## Every entry of the table occurs -/

/-- A release build with the extension, with memory for ten entries. -/
def demoTen : Cfg := ⟨false, true, .general 6, 10, by decide⟩

/-- `$MeshFormat`: unknown version, wrong size of data, wrong byte order. -/
example : loadMsh demoTen (b! "$MeshFormat\n3.0 0 8\n$EndMeshFormat\n") = .throw .unsupportedFeature ∧
    loadMsh demoTen (b! "$MeshFormat\n4.1 0 4\n$EndMeshFormat\n") = .throw .unsupportedFeature ∧
    loadMsh demoTen (b! "$MeshFormat\n4.1 1 8\n" ++ [0, 0, 0, 1] ++ b! "\n$EndMeshFormat\n") = .throw .unsupportedFeature := by decide +kernel

/-- `$Entities`. -/
example : loadMsh demoTen (hdr41 ++ b! "$Entities\n11 0 0 0\n$EndEntities\n") = .throw .alloc ∧
    loadMsh demoTen (hdr22 ++ b! "$Entities\n0 0 0 0\n$EndEntities\n") = .throw .invalidFormat := by decide +kernel

/-- `$PhysicalNames`, `$Nodes`; `-1` is a very large number. -/
example : loadMsh demoTen (hdr41 ++ b! "$PhysicalNames\n11\n$EndPhysicalNames\n") = .throw .alloc ∧
    loadMsh demoTen (hdr22 ++ b! "$PhysicalNames\n-1\n$EndPhysicalNames\n") = .throw .alloc ∧
    loadMsh demoTen (hdr41 ++ b! "$Nodes\n11 11 1 11\n$EndNodes\n") = .throw .alloc ∧
    loadMsh demoTen (hdr22 ++ b! "$Nodes\n11\n$EndNodes\n") = .throw .alloc := by decide +kernel

/-- `$Elements` of version 4.1. -/
example : loadMsh demoTen (hdr41 ++ b! "$Elements\n11 11 1 11\n$EndElements\n") = .throw .alloc ∧
    loadMsh demoTen (hdr41 ++ b! "$Elements\n1 1 1 1\n2 1 99 1\n1 1 2 3\n$EndElements\n") = .throw .unsupportedFeature := by decide +kernel

/-- `$Elements` of version 2.2; in binary files also more elements than announced. -/
example : loadMsh demoTen (hdr22 ++ b! "$Elements\n1\n1 2 11 1 1\n$EndElements\n") = .throw .alloc ∧
    loadMsh demoTen (hdr22 ++ b! "$Elements\n1\n1 99 0\n$EndElements\n") = .throw .unsupportedFeature ∧
    loadMsh demoTen (hdr22b ++ b! "$Elements\n11\n$EndElements\n") = .throw .alloc ∧
    loadMsh demoTen (hdr22b ++ b! "$Elements\n1\n" ++ [99, 1, 0].flatMap encI32 ++ b! "$EndElements\n") = .throw .unsupportedFeature ∧
    loadMsh demoTen (hdr22b ++ b! "$Elements\n1\n" ++ [15, 2, 0, 1, 1, 2, 2].flatMap encI32 ++ b! "$EndElements\n") = .throw .invalidFormat := by decide +kernel

/-- Data sections. -/
example : loadMsh demoTen (hdr41 ++ b! "$NodeData\n11\n$EndNodeData\n") = .throw .alloc ∧ loadMsh demoTen (hdr41 ++ b! "$NodeData\n0\n0\n2\n0\n1\n$EndNodeData\n") = .throw .invalidFormat ∧
    loadMsh demoTen (hdr22 ++ b! "$ElementData\n0\n11\n$EndElementData\n") = .throw .alloc ∧
    loadMsh demoTen (hdr22 ++ b! "$ElementNodeData\n0\n0\n0\n$EndElementNodeData\n") = .throw .invalidFormat := by decide +kernel

/-- Curves and patches: only with the extension. -/
example : loadMsh demoTen (hdr41 ++ b! "$Curves\n11\n$EndCurves\n") = .throw .alloc ∧ loadMsh demoTen (hdr41 ++ b! "$Patches\n11\n$EndPatches\n") = .throw .alloc ∧
    loadMsh demoCfg (hdr41 ++ b! "$Curves\n10000000\n$EndCurves\n") = loadMsh demoCfg hdr41 := by decide +kernel

/-- After reading: nodes with tags far apart. -/
example : loadMsh demoTen (hdr22 ++ b! "$Nodes\n2\n1 0 0 0\n90 0 0 0\n$EndNodes\n") = .throw .alloc := by decide +kernel

end MshIO
