import Verif.Proofs.Quoted
import Verif.Proofs.FormatWords
import Verif.Props.Robust
import Verif.Props.Undefined
import Verif.Proofs.Stuck

/-!
# Property C51: how names are written in files

`out << std::quoted(name)` and `in >> std::quoted(name)` against `Spec/Quoted.lean`, and the section `$PhysicalNames`
of any program that writes one of these forms.
-/

namespace MshIO

/-! ## The operators -/

/-- **C51** A name is written between double quotes, every double quote and backslash of it after a backslash. -/
theorem C51_quoted_written (name : Bytes) : quoteText name = quoted name := (quoted_eq name).symm

/-- **C51** What is written is a spelling of the name, and a spelling has one meaning. -/
theorem C51_spelling : (∀ name, Spells (escaped name) name) ∧ ∀ t s s', Spells t s → Spells t s' → s = s' := by
  refine ⟨spells_escaped, fun t s s' h h' => ?_⟩
  have := (quotedBody_open h).symm.trans (quotedBody_open h')
  exact (Prod.mk.injEq .. ▸ this).1

/-- **C51** Reading, after any white space, any spelling between double quotes gives the name, whatever follows the
closing quote. -/
theorem C51_quoted_read (old name : Bytes) {w t rest : Bytes} (hw : Blank w) (ht : Spells t name) :
    inQuoted old ⟨w ++ b! "\"" ++ t ++ b! "\"" ++ rest, false, false⟩ = .ok (name, ⟨rest, false, false⟩) := by
  have e : w ++ b! "\"" ++ t ++ b! "\"" ++ rest = w ++ 34 :: (t ++ 34 :: rest) := by simp
  show inQuoted old (gs _) = _
  unfold inQuoted
  rw [e, sentry_gs hw (by decide)]
  simp only [quotedBody_spells ht]

/-- **C51** A bare word is read as the name. -/
theorem C51_bare_read (old name : Bytes) {w rest : Bytes} (hw : Blank w) (h1 : Word name) (h2 : ¬ b! "\"" <+: name)
    {c : UInt8} (hc : isSpace c = true) :
    inQuoted old ⟨w ++ name ++ c :: rest, false, false⟩ = .ok (name, ⟨c :: rest, false, false⟩) :=
  inQuoted_nameText old (.inr ⟨rfl, h1.1, h1.2, h2⟩) w (c :: rest) hw ⟨c, rest, rfl, hc⟩

/-- **C51** If the rest of the file is no spelling followed by a double quote, all of it is consumed and the stream
fails. -/
theorem C51_open_read (old : Bytes) {w b : Bytes} (hw : Blank w)
    (h : ¬ ∃ t name rest, Spells t name ∧ b = t ++ b! "\"" ++ rest) :
    ∃ name, inQuoted old ⟨w ++ b! "\"" ++ b, false, false⟩ = .ok (name, ⟨[], true, true⟩) := by
  have e : w ++ b! "\"" ++ b = w ++ 34 :: b := by simp
  refine ⟨(quotedBody b).1, ?_⟩
  show inQuoted old (gs _) = _
  unfold inQuoted
  rw [e, sentry_gs hw (by decide)]
  simp only
  rcases quotedBody_cases b with ⟨t, s, rest, ht, rfl⟩ | h'
  · exact absurd ⟨t, s, rest, ht, by simp⟩ h
  · rw [← h']

/-! ## The section -/

/-- The words of a section `$PhysicalNames`: number of groups; dimension, tag and name of every group, the name as it
is in the file. -/
def groupsWords (groups : List (PhysicalGroup × Bytes)) : List Bytes :=
  natText groups.length :: groups.flatMap fun g => [intText g.1.dim.toInt, intText g.1.tag.toInt, g.2]

private theorem blank_nl : Blank (b! "\n") := by unfold Blank; decide

private theorem toks_as (groups : List (PhysicalGroup × Bytes)) :
    groups.flatMap groupToksAs = groups.flatMap fun g => [intText g.1.dim.toInt, intText g.1.tag.toInt, g.2] := by
  refine congrArg (fun f => groups.flatMap f) (funext fun g => ?_)
  simp [groupToksAs, decI32_eq]

/-- **C51** At a section boundary of any file, a section `$PhysicalNames` with the names in any of these forms, its
words separated by any white space, is read: the groups are exactly those of the section, whichever were read
before, and the rest of the file follows. -/
theorem C51_section_read (cfg : Cfg) {a lead tail : Bytes} {spec : MshSpec} {words : List (Bytes × Bytes)}
    (groups : List (PhysicalGroup × Bytes)) (ha : Boundary cfg a spec)
    (hnames : ∀ g ∈ groups, NameText g.2 g.1.name) (hcount : groups.length < 2 ^ 31 ∧ groups.length ≤ cfg.maxCount)
    (hwords : words.map Prod.fst = groupsWords groups)
    (hlead : Blank lead ∧ lead ≠ []) (hsep : ∀ q ∈ words, Blank q.2 ∧ q.2 ≠ []) (htail : Blank tail ∧ tail ≠ []) :
    Boundary cfg (a ++ (b! "$PhysicalNames" ++ Spaced lead words ++ b! "$EndPhysicalNames" ++ tail))
      { spec with physicalGroups := groups.map Prod.fst } := by
  have hlt := cfg.maxCount_lt
  refine ha.section (name := b! "PhysicalNames") ⟨⟨Spaced lead words ++ (b! "$EndPhysicalNames" ++ tail), by simp, ?_⟩, by decide, tail, htail.1, rfl, ?_⟩
  · obtain ⟨c, r, rfl⟩ := List.exists_cons_of_ne_nil hlead.2
    exact ⟨c, _, rfl, hlead.1 c (by simp)⟩
  · have hr : ReadsT (loadSection cfg (36 :: b! "PhysicalNames") spec) (words.map Prod.fst)
        { spec with physicalGroups := groups.map Prod.fst } := by
      rw [loadSection_physicalNames, hwords, groupsWords, ← toks_as, ← decSize_eq (v := groups) (by omega)]
      exact ReadsT.map (loadPhysicalGroups_as cfg _ groups hnames hcount.1 hcount.2) rfl
    have hd := hr.rds words rfl hsep hlead.1
    have hb : WsHead (lead ++ flat words ++ endTag (b! "PhysicalNames") ++ tail) := by
      have := wsHead_append (b := flat words ++ endTag (b! "PhysicalNames") ++ tail) (Sep.head hlead)
      simpa using this
    have := loadRound_section (cfg := cfg) (spec := spec) (rest := tail) (w := []) (by decide) hb (Sep.head htail) Ws.nil hd
    refine Eq.trans (congrArg _ (congrArg gs ?_)) this
    simp [Spaced, flat, List.flatMap_def, endTag]

/-- **C51** A name whose closing quote is missing swallows the rest of the file.  A debug build aborts; a release
build loads silently, as if the file ended with the closing quote and the end of the section. -/
theorem C51_open_section (cfg : Cfg) {a lead t : Bytes} {spec : MshSpec} {words : List (Bytes × Bytes)}
    (groups : List (PhysicalGroup × Bytes)) (dim tag : Int32) {name : Bytes} (ha : Boundary cfg a spec)
    (hnames : ∀ g ∈ groups, NameText g.2 g.1.name) (ht : Spells t name)
    (hcount : groups.length + 1 < 2 ^ 31 ∧ groups.length + 1 ≤ cfg.maxCount)
    (hwords : words.map Prod.fst = natText (groups.length + 1) :: (groups.flatMap fun g => [intText g.1.dim.toInt, intText g.1.tag.toInt, g.2]) ++
      [intText dim.toInt, intText tag.toInt])
    (hlead : Blank lead ∧ lead ≠ []) (hsep : ∀ q ∈ words, Blank q.2 ∧ q.2 ≠ []) :
    loadMsh cfg (a ++ (b! "$PhysicalNames" ++ Spaced lead words ++ b! "\"" ++ t)) =
      if cfg.asserts then .abort
      else loadMsh cfg (a ++ (b! "$PhysicalNames" ++ Spaced lead words ++ b! "\"" ++ t ++ b! "\"\n$EndPhysicalNames\n")) := by
  have hlt := cfg.maxCount_lt
  have e1 : decU64 (UInt64.ofNat (groups.length + 1)) = natText (groups.length + 1) := by
    rw [decU64_eq, ofNat_toNat_lt (by omega)]
  have hw : words.map Prod.fst = decU64 (UInt64.ofNat (groups.length + 1)) :: (groups.flatMap groupToksAs ++ [decI32 dim, decI32 tag]) := by
    rw [hwords, e1, toks_as, decI32_eq, decI32_eq]; rfl
  have ef : b! "$PhysicalNames" ++ Spaced lead words ++ b! "\"" ++ t =
      [] ++ (36 :: b! "PhysicalNames") ++ (lead ++ flat words ++ 34 :: t) := by
    simp [Spaced, flat, List.flatMap_def]
  have hb : WsHead (lead ++ flat words ++ 34 :: t) := by
    have := wsHead_append (b := flat words ++ 34 :: t) (Sep.head hlead)
    simpa using this
  have hin := inString_tok [] _ (tag_word (name := b! "PhysicalNames") (by decide)) [] _ Ws.nil hb
  cases hA : cfg.asserts with
  | true =>
    rw [if_pos rfl, loadMsh_ext ha, ef, loadFull_round rfl]
    have : loadRound cfg spec (gs ([] ++ (36 :: b! "PhysicalNames") ++ (lead ++ flat words ++ 34 :: t))) = .abort := by
      unfold loadRound
      rw [Rd.bind_ok hin]
      simp only
      refine Rd.bind_abort ?_
      rw [loadSection_physicalNames]
      exact Rd.bind_abort (loadPhysicalGroups_open_abort cfg hA _ groups hnames dim tag ht hcount.1 hcount.2 words hw hsep hlead.1)
    rw [Rd.bind_abort this]
    rfl
  | false =>
    rw [if_neg (by simp), loadMsh_ext ha (b! "$PhysicalNames" ++ Spaced lead words ++ b! "\"" ++ t)]
    rw [show loadFull cfg spec (gs (b! "$PhysicalNames" ++ Spaced lead words ++ b! "\"" ++ t)) = _ from congrArg (fun x => loadFull cfg spec (gs x)) ef]
    have h1 : loadRound cfg spec (gs ([] ++ (36 :: b! "PhysicalNames") ++ (lead ++ flat words ++ 34 :: t))) =
        .ok ({ spec with physicalGroups := groups.map Prod.fst ++ [⟨dim, tag, name⟩] }, ⟨[], true, true⟩) := by
      unfold loadRound
      rw [Rd.bind_ok hin]
      simp only
      rw [loadSection_physicalNames]
      rw [Rd.bind_ok (a := { spec with physicalGroups := groups.map Prod.fst ++ [⟨dim, tag, name⟩] }) (s' := ⟨[], true, true⟩)]
      · rw [Rd.bind_ok (a := ()) (s' := ⟨[], true, true⟩)]
        · rfl
        · rw [forwardTo_eq, fwd_step, if_pos (by simp)]
      · rw [Rd.bind_ok (loadPhysicalGroups_open cfg hA spec.physicalGroups groups hnames dim tag ht hcount.1 hcount.2 words hw hsep lead hlead.1)]
        rfl
    rw [loadFull_round_ok rfl h1, loadFull_eof rfl]
    have h2 := C51_section_read cfg (a := a) (lead := lead) (tail := b! "\n") (spec := spec)
      (words := words ++ [(b! "\"" ++ t ++ b! "\"", b! "\n")]) (groups ++ [(⟨dim, tag, name⟩, b! "\"" ++ t ++ b! "\"")]) ha
      (by
        intro g hg
        rcases List.mem_append.mp hg with hg | hg
        · exact hnames g hg
        · simp only [List.mem_singleton] at hg; subst hg; exact .inl ⟨t, ht, rfl⟩)
      (by simpa using hcount)
      (by simp [hwords, groupsWords])
      hlead
      (by
        intro q hq
        rcases List.mem_append.mp hq with hq | hq
        · exact hsep q hq
        · simp only [List.mem_singleton] at hq; subst hq; exact ⟨blank_nl, by simp⟩)
      ⟨by unfold Blank; decide, by simp⟩
    have e2 : a ++ (b! "$PhysicalNames" ++ Spaced lead words ++ b! "\"" ++ t ++ b! "\"\n$EndPhysicalNames\n") =
        (a ++ (b! "$PhysicalNames" ++ Spaced lead (words ++ [(b! "\"" ++ t ++ b! "\"", b! "\n")]) ++ b! "$EndPhysicalNames" ++ b! "\n")) ++ [] := by
      simp [Spaced]
    rw [e2, loadMsh_ext h2, loadFull_ws (w := []) Ws.nil]
    simp [finish]

/-! ## Concrete cases -/

/-- `a"b\c` and a bare name. -/
example : Boundary demoCfg (hdr41 ++ (b! "$PhysicalNames" ++ Spaced (b! "\n") [(b! "2", b! "\n"), (b! "2", b! " "),
      (b! "-7", b! " "), (b! "\"a\\\"b\\\\\\c\"", b! "\n"), (b! "0", b! " "), (b! "1", b! " "), (b! "wall", b! "\n")] ++
      b! "$EndPhysicalNames" ++ b! "\n"))
    { physicalGroups := [⟨2, -7, b! "a\"b\\c"⟩, ⟨0, 1, b! "wall"⟩] } :=
  C51_section_read demoCfg [(⟨2, -7, b! "a\"b\\c"⟩, b! "\"a\\\"b\\\\\\c\""), (⟨0, 1, b! "wall"⟩, b! "wall")] boundary_hdr41
    (by
      simp only [List.mem_cons, List.not_mem_nil, or_false]
      rintro g (rfl | rfl)
      · exact .inl ⟨b! "a\\\"b\\\\\\c", .plain (by decide) (by decide) (.escape (.plain (by decide) (by decide)
          (.escape (.escape .nil)))), rfl⟩
      · exact .inr ⟨rfl, by decide, by decide, by decide⟩)
    (by decide) (by decide) ⟨by unfold Blank; decide, by decide⟩
    (by
      have : ∀ q ∈ [(b! "2", b! "\n"), (b! "2", b! " "), (b! "-7", b! " "), (b! "\"a\\\"b\\\\\\c\"", b! "\n"), (b! "0", b! " "),
          (b! "1", b! " "), (b! "wall", b! "\n")], Blank q.2 ∧ q.2 ≠ [] := by unfold Blank; decide
      exact this)
    ⟨by unfold Blank; decide, by decide⟩

/-- A release build loads a file that ends within a name. -/
example : loadMsh demoExtRelease (hdr41 ++ b! "$PhysicalNames\n1\n2 7 \"wall\n$EndPhysicalNames\n$Nodes\n0 0 0 0\n$EndNodes\n") =
    .ok { physicalGroups := [⟨2, 7, b! "wall\n$EndPhysicalNames\n$Nodes\n0 0 0 0\n$EndNodes\n"⟩] } := by
  decide +kernel

end MshIO
