import Verif.Proofs.EndingsFile
import Verif.Props.UndefinedAll
import Verif.Props.Agree

/-!
# C20, C68: exactly which files make `load_msh` loop forever, and exactly which ones fail an assertion

Nothing is asked of the file: it may be malformed, cut off, or no mesh at all.  `SectionEnds` (`Spec/Endings.lean`) says for each section, from the bytes that follow its name
and what has been read before, whether reading it fails an assertion (`stops`) or fails unnoticed in front of something (`sticks`).
-/

namespace MshIO

theorem ends_name {cfg : Cfg} {k : Ending} {s : MshSpec} {name r : Bytes} (h : SectionEnds cfg k s name r) : ∃ n, name = 36 :: n ∧ ∀ c ∈ n, isSpace c = false := by
  rcases h with ⟨rfl, -⟩ | ⟨rfl, -⟩ | ⟨rfl, -⟩ | ⟨rfl, -⟩ | ⟨rfl, -⟩ | ⟨h, -⟩ | ⟨rfl, -⟩ | ⟨rfl, -⟩
  case inr.inr.inr.inr.inr.inl => exact data_name h
  all_goals exact ⟨_, rfl, by decide⟩

/-- **C68**, reading a section: whatever follows the name of a section, up to the end of the file, reading it fails an assertion exactly if `SectionEnds` says so.  (Vectors of
57 numbers can be allocated: no element has more nodes.) -/
theorem C68_section {cfg : Cfg} (hm : 57 ≤ cfg.maxCount) {file : Bytes} {s : MshSpec} {name r : Bytes} (h : ArrivesAt cfg file s name r) :
    loadSection cfg name s ⟨r, r.isEmpty, false⟩ = .abort ↔ SectionEnds cfg .stops s name r := by
  obtain ⟨hr, w, hw, ha⟩ := h
  exact section_ends_iff (k := .stops) hm (arrives_version ha) name r

/-- **C68**, every file: loading fails an assertion exactly if the main loop arrives at a section that does, or at the end of the file and what follows reading does. -/
theorem C68_stops {cfg : Cfg} (hm : 57 ≤ cfg.maxCount) (file : Bytes) : loadMsh cfg file = .abort ↔
    (∃ s name r, ArrivesAt cfg file s name r ∧ SectionEnds cfg .stops s name r) ∨
    ∃ s st, Arrives cfg (Stream.ofBytes file) (s, st) ∧ st.eof = true ∧ loadPostProcess cfg s = .abort := by
  rw [loadMsh_abort_iff]
  refine or_congr ⟨?_, ?_⟩ Iff.rfl
  · rintro ⟨s, name, r, -, ha, h⟩
    exact ⟨s, name, r, ha, (C68_section hm ha).mp h⟩
  · rintro ⟨s, name, r, ha, h⟩
    exact ⟨s, name, r, ends_name h, ha, (C68_section hm ha).mpr h⟩

/-- **C68**, every file in which `$MeshFormat` comes before nodes and elements: what follows reading fails no assertion, so only the sections matter. -/
theorem C68_format_first {cfg : Cfg} (hm : 57 ≤ cfg.maxCount) {file : Bytes} (hf : FormatFirst cfg file) :
    loadMsh cfg file = .abort ↔ ∃ s name r, ArrivesAt cfg file s name r ∧ SectionEnds cfg .stops s name r := by
  rw [C68_stops hm]
  refine ⟨?_, Or.inl⟩
  rintro (h | ⟨s, st, ha, -, h⟩)
  · exact h
  · exact absurd h (post_not_abort cfg s fun hv => (arrives_raw hf ha hv).2)

/-- **C68**, builds: a debug build behaves as a release build on exactly the files of which no section fails an assertion. -/
theorem C68_builds (debug release : Cfg) (hd : debug.asserts = true) (hr : release.asserts = false) (hn : debug.nanospline = release.nanospline)
    (hm : debug.maxCount = release.maxCount) (h57 : 57 ≤ debug.maxCount) {file : Bytes} (hf : FormatFirst debug file) :
    loadMsh debug file = loadMsh release file ↔ ¬ ∃ s name r, ArrivesAt debug file s name r ∧ SectionEnds debug .stops s name r := by
  rw [← C68_format_first h57 hf]
  constructor
  · intro e h
    rw [e] at h
    have := loadMsh_abort release h
    rw [hr] at this
    cases this
  · intro h
    exact (C61_assertions debug release hd hr hn hm file).resolve_left h

/-- **C20**, reading a section: whatever follows the name of a section, reading it leaves the stream failed in front of something exactly if `SectionEnds` says so. -/
theorem C20_section {cfg : Cfg} (hm : 57 ≤ cfg.maxCount) {file : Bytes} {s : MshSpec} {name r : Bytes} (h : ArrivesAt cfg file s name r) :
    (∃ s' st, loadSection cfg name s ⟨r, r.isEmpty, false⟩ = .ok (s', st) ∧ st.fail = true ∧ st.eof = false) ↔ SectionEnds cfg .sticks s name r := by
  obtain ⟨hr, w, hw, ha⟩ := h
  exact section_ends_iff (k := .sticks) hm (arrives_version ha) name r

/-- **C20**, every file: `load_msh` loops forever exactly if the main loop arrives at a section the bytes of which make reading stick. -/
theorem C20_exact {cfg : Cfg} (hm : 57 ≤ cfg.maxCount) (file : Bytes) :
    loadMsh cfg file = .hang ↔ ∃ s name r, ArrivesAt cfg file s name r ∧ SectionEnds cfg .sticks s name r := by
  rw [C20_sections]
  constructor
  · rintro ⟨s, st, name, st1, s', st2, ha, -, h1, -, h2, hf, he⟩
    obtain ⟨w, hw, rfl, e1, hn⟩ := inString_at h1 (by simp)
    have hat : ArrivesAt cfg file s (36 :: name) st1.rem := ⟨hn, w, hw, ha⟩
    rw [show st1 = ⟨st1.rem, st1.rem.isEmpty, false⟩ from e1] at h2
    exact ⟨s, 36 :: name, st1.rem, hat, (C20_section hm hat).mp ⟨s', st2, h2, hf, he⟩⟩
  · rintro ⟨s, name, r, hat, h⟩
    obtain ⟨n, rfl, hn⟩ := ends_name h
    obtain ⟨s', st, h2, hf, he⟩ := (C20_section hm hat).mpr h
    have h1 : loadMsh cfg file = .hang := by
      obtain ⟨hr, w, hw, ha⟩ := hat
      refine (C20_hang_iff cfg _).2 ⟨s, _, ha, rfl, Or.inr ⟨n, _, s', st, inString_end (b := r) [] (tag_word hn) ?_ hw, h2, hf, he⟩⟩
      cases r with
      | nil => exact Or.inl rfl
      | cons c r => exact Or.inr ⟨c, r, rfl, hr c rfl⟩
    exact (C20_sections cfg file).mp h1

/-! ## Concrete cases -/

/-- A file type that is no number: the section sticks, and loading never ends, in every build. -/
example (cfg : Cfg) (hm : 57 ≤ cfg.maxCount) : loadMsh cfg (b! "$MeshFormat\n4.1 x") = .hang := by
  refine (C20_exact hm _).mpr ⟨{}, b! "$MeshFormat", b! "\n4.1 x", ⟨by decide, [], (by unfold Blank; decide), .refl⟩, Or.inl ⟨rfl, rfl, ?_⟩⟩
  refine ⟨some (b! "4.1"), .on (b! " x"), some 0, .stuck, none, TakesWord.word (lead := b! "\n") (c := 52) (w := b! ".1") (r' := b! " x") (by unfold Blank; decide) (by decide) (by decide), ?_,
    .stuck, by simp, fun _ => rfl, rfl⟩
  exact .word (s := none) ⟨b! " ", rfl, by unfold Blank; decide, by decide, fun _ _ => ⟨120, rfl, by decide⟩⟩ .stuck

/-- Elements that do not begin with a number: a debug build stops, and a release build never ends. -/
example : loadMsh demoDebug (hdr41 ++ b! "$Elements x") = .abort ∧ loadMsh demoCfg (hdr41 ++ b! "$Elements x") = .hang := by
  have hx : TakesSize (.on (b! " x")) (some 0) .stuck := .word (s := none) ⟨b! " ", rfl, by unfold Blank; decide, by decide, fun _ _ => ⟨120, rfl, by decide⟩⟩ .stuck
  have h3 : Many SkipsSize 3 .stuck .stuck := .next ⟨_, .stuck⟩ (.next ⟨_, .stuck⟩ (.next ⟨_, .stuck⟩ .zero))
  constructor
  · refine (C68_format_first (by decide) (formatFirst_of (by decide +kernel))).mpr ⟨_, b! "$Elements", b! " x", ⟨by decide, b! "\n", by unfold Blank; decide, .single ⟨rfl, rfl⟩⟩,
      Or.inr (Or.inr (Or.inr (Or.inr (Or.inl ⟨rfl, ?_⟩))))⟩
    exact ⟨_, _, _, hx, h3, Or.inl ⟨rfl, rfl, fun ⟨_, _, h⟩ => by cases h⟩⟩
  · refine (C20_exact (by decide) _).mpr ⟨_, b! "$Elements", b! " x", ⟨by decide, b! "\n", by unfold Blank; decide, .single ⟨rfl, rfl⟩⟩,
      Or.inr (Or.inr (Or.inr (Or.inr (Or.inl ⟨rfl, ?_⟩))))⟩
    exact ⟨_, _, _, hx, h3, Or.inr ⟨(fun h => by cases h), by decide, rfl, rfl⟩⟩

/-- No section of a file with nodes that are fine stops a debug build, or makes loading stick. -/
example : (¬ ∃ s name r, ArrivesAt demoDebug goodNodes s name r ∧ SectionEnds demoDebug .stops s name r) ∧
    ¬ ∃ s name r, ArrivesAt demoDebug goodNodes s name r ∧ SectionEnds demoDebug .sticks s name r := by
  refine ⟨fun h => ?_, fun h => ?_⟩
  · have := (C68_stops (cfg := demoDebug) (by decide) _).mpr (Or.inl h)
    revert this
    decide +kernel
  · have := (C20_exact (cfg := demoDebug) (by decide) _).mpr h
    revert this
    decide +kernel

/-- What `C68_format_first` asks is needed: elements of version 4.1 of dimension and tag -1, then a second format section of version 2.2.  All sections are read, and what follows
fails the assertion that there is a block. -/
def demoLate22 : Bytes := hdr41 ++ b! "$Nodes\n1 1 1 1\n0 5 0 1\n1\n0 0 0\n$EndNodes\n$Elements\n1 1 1 1\n-1 -1 15 1\n1 1\n$EndElements\n"

example : loadMsh demoDebug demoLate22 ≠ .abort ∧ loadMsh demoDebug (demoLate22 ++ hdr22) = .abort ∧ loadMsh demoCfg (demoLate22 ++ hdr22) = .ub := by
  decide +kernel

end MshIO
