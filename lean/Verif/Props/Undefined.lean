import Verif.Proofs.SafeSections
import Verif.Proofs.Basic41
import Verif.Props.Reject
import Verif.Props.Demo

/-!
# C36: undefined behaviour of `load_msh`

`load_msh` does have undefined behaviour on some byte strings, in all builds (`C36_false`).  For files that use none of the features listed in `Harmless`, `HarmlessBinary`
and `Harmless22` (`Spec/Hazards.lean`) the theorems say exactly when it has, however malformed or truncated they are.  In version 4.1 the reasons are counted sections without
their counter, binary data and entities that are cut off, and binary nodes whose dimension is too large.  Files of version 2.2 have one more source of undefined behaviour, the table of node tags that is made after
reading; `C36_table22` says exactly when that is undefined.
-/

namespace MshIO

/-! ## Checking the hypotheses on concrete files -/

/-- `name` occurs in `F`. -/
def occurs (name : Bytes) (F : Bytes) : Bool := F.tails.any fun t => name.isPrefixOf t

theorem not_occurs {name F : Bytes} (h : occurs name F = false) : ¬ name <:+: F := by
  rintro ⟨a, b, rfl⟩
  have : occurs name (a ++ name ++ b) = true := by
    unfold occurs
    rw [List.any_eq_true]
    exact ⟨name ++ b, by rw [List.mem_tails]; exact ⟨a, by simp⟩, by simp⟩
  rw [this] at h
  cases h

/-- A section of the file is last. -/
def endsWith (name F : Bytes) : Bool := F.tails.any fun t => name.isPrefixOf t && (t.drop name.length).all isSpace

theorem arrivesAt_suffix {cfg : Cfg} {file : Bytes} {s : MshSpec} {name r : Bytes} (h : ArrivesAt cfg file s name r) : name ++ r <:+ file := by
  obtain ⟨-, w, -, ha⟩ := h
  have := reach_keeps (F := file) (I := fun _ => True) (fun _ _ _ _ _ _ _ _ => trivial) ha ⟨trivial, List.suffix_refl _⟩
  exact List.IsSuffix.trans ⟨w, by simp⟩ this.2

theorem not_counterMissing {cfg : Cfg} {file : Bytes} (h : (countedSections cfg.nanospline).any (endsWith · file) = false) : ¬ CounterMissing cfg file := by
  rintro ⟨s, r, n, hn, ha, hr⟩
  rw [List.any_eq_false] at h
  refine h n hn (List.any_eq_true.mpr ⟨n ++ r, (List.mem_tails _ _).mpr (arrivesAt_suffix ha), ?_⟩)
  simp only [List.drop_left, Bool.and_eq_true, List.all_eq_true]
  exact ⟨by simp, hr⟩

theorem data_of_not_occurs {F : Bytes} {P : Bytes → Bytes → Prop} (h : dataSections.any (occurs · F) = false) : ∀ n ∈ dataSections, ∀ r, n ++ r <:+ F → P n r := by
  intro n hn r hr
  rw [List.any_eq_false] at h
  refine absurd hr.isInfix fun hi => not_occurs (by simpa using h n hn) ((List.prefix_append n r).isInfix.trans hi)

/-- Ten digits follow something that is neither a digit nor a decimal point. -/
def longDigits : Bytes → Bool
  | p :: t => !isDigit p && p != 46 && decide (10 ≤ t.length) && (t.take 10).all isDigit
  | [] => false

theorem nineDigits_of {F : Bytes} (h : (32 :: F).tails.any longDigits = false) : NineDigits F := by
  rintro a d b rfl ha hd
  by_contra hlen
  rw [List.any_eq_false] at h
  obtain ⟨q, p, e, hp⟩ : ∃ q p, 32 :: a = q ++ [p] ∧ isDigit p = false ∧ p ≠ 46 := by
    rcases List.eq_nil_or_concat a with rfl | ⟨q, p, rfl⟩
    · exact ⟨[], 32, rfl, by decide, by decide⟩
    · exact ⟨32 :: q, p, by simp, ha p (by simp)⟩
  refine h (p :: (d ++ b)) ?_ ?_
  · rw [List.mem_tails]
    refine ⟨q, ?_⟩
    have : q ++ p :: (d ++ b) = (q ++ [p]) ++ (d ++ b) := by simp
    rw [this, ← e]
    simp
  · simp only [longDigits]
    rw [List.take_append_of_le_length (by omega)]
    simp only [Bool.and_eq_true, List.all_eq_true, decide_eq_true_eq, List.length_append, hp.1, Bool.not_false, bne_iff_ne, ne_eq, hp.2, not_false_eq_true,
      true_and]
    exact ⟨by omega, fun c hc => hd c (List.mem_of_mem_take hc)⟩

/-! ## The theorems -/

/-- **C36**, text files (partial: the full claim, `loadMsh cfg file ≠ .ub` for every file, is false by `C36_false`; missing are the features `Harmless`
excludes).  Whatever bytes follow a header of a 4.1 text file, unless they use the features that `Harmless` excludes, loading them is undefined exactly if the main loop
arrives at a counted section that is cut off before its counter. -/
theorem C36_ascii41_partial (cfg : Cfg) {header rest : Bytes} (hh : Boundary cfg header { meshFormat := ⟨b! "4.1", 0, 8⟩ }) (hr : Harmless cfg rest) :
    loadMsh cfg (header ++ rest) = .ub ↔ CounterMissing cfg (header ++ rest) := by
  refine ⟨fun hu => ?_, CounterMissing.ub⟩
  rcases file_ub (F := ⟨rest, true⟩) (I := MshSpec.Calm) (H := fun _ => NoCounter cfg) (fun buf _ h => section_text41 hr buf h) hh
    ⟨rfl, rfl, fun _ h => absurd h (List.not_mem_nil), fun _ h => absurd h (List.not_mem_nil)⟩ hu with ⟨s, buf, r, -, ha, h⟩ | ⟨s, st, hs, -, -, h⟩
  · exact .of ha h
  · unfold loadPostProcess at h
    rw [if_neg (by rw [hs.version]; decide)] at h
    cases h

/-- **C36**, binary files (partial in the same sense): loading is undefined exactly if the main loop arrives at a counted section cut off before its counter, at a data section
that is cut off, in builds with `NDEBUG` at entities that are cut off, or at nodes with a block whose dimension is too large. -/
theorem C36_binary41_partial (cfg : Cfg) {header rest : Bytes} {t : Int32} (ht : t ≠ 0)
    (hh : Boundary cfg header { meshFormat := ⟨b! "4.1", t, 8⟩ }) (hr : HarmlessBinary cfg t rest) :
    loadMsh cfg (header ++ rest) = .ub ↔ CounterMissing cfg (header ++ rest) ∨ DataCutOff cfg ⟨b! "4.1", t, 8⟩ (header ++ rest) ∨
      EntitiesCutOff cfg ⟨b! "4.1", t, 8⟩ (header ++ rest) ∨ NodesOverflow cfg ⟨b! "4.1", t, 8⟩ (header ++ rest) := by
  refine ⟨fun hu => ?_, ?_⟩
  · rcases file_ub (F := ⟨rest, false⟩) (I := fun s => s.meshFormat = ⟨b! "4.1", t, 8⟩)
      (H := fun s buf r => NoCounter cfg buf r ∨ BadData cfg s buf r ∨ BadEntities cfg buf r ∨ BadNodes41 cfg s buf r) (fun buf _ h => section_binary41 ht hr buf h) hh
      rfl hu with ⟨s, buf, r, hs, ha, h⟩ | ⟨s, st, hs, -, -, h⟩
    · exact h.imp (.of ha) (Or.imp (.of hs ha) (Or.imp (.of hs ha) (.of hs ha)))
    · unfold loadPostProcess at h
      rw [if_neg (by rw [hs]; exact show ¬ b! "4.1" = b! "2.2" by decide)] at h
      cases h
  · rintro (h | h | h | h)
    · exact h.ub
    · exact h.ub (Or.inl rfl)
    · exact h.ub rfl ht
    · exact h.ub rfl ht

/-- Undefined behaviour of `load_msh` occurs while a section is read, or after the end of the file has been reached. -/
theorem C36_where (cfg : Cfg) (file : Bytes) : loadMsh cfg file = .ub ↔
    (∃ s st, Arrives cfg (Stream.ofBytes file) (s, st) ∧ st.eof = false ∧ loadRound cfg s st = .ub) ∨
    ∃ s st, Arrives cfg (Stream.ofBytes file) (s, st) ∧ st.eof = true ∧ loadPostProcess cfg s = .ub :=
  loadMsh_ub_iff cfg file

/-- **C36**, the part after reading of all version 2.2 files, text or binary: once the end of the file has been reached with `s` read, what follows is
undefined exactly if the table of node tags can be allocated and the tag of a node, or of a node of an element, lies outside it. -/
theorem C36_table22 (cfg : Cfg) {header rest : Bytes} {fmt : MeshFormat} (hv : fmt.version = b! "2.2") (hh : Boundary cfg header { meshFormat := fmt })
    (hr : ¬ b! "$MeshFormat" <:+: rest) {s : MshSpec} {st : Stream} (ha : Arrives cfg (Stream.ofBytes (header ++ rest)) (s, st)) (he : st.eof = true) :
    loadMsh cfg (header ++ rest) = .ub ↔ s.tableSize ≤ cfg.maxCount ∧ ∃ tag, s.LooksUp tag ∧ s.tableSize ≤ s.tableIndex tag := by
  have hraw := raw_of_arrives hv hh hr ha he
  rw [← loadPostProcess_ub_iff cfg (by rw [hraw.format]; exact hv) hraw.nodes hraw.elements]
  unfold loadMsh
  rw [loadStream_eq]
  have h1 := loadFull_reach ha
  simp only at h1
  rw [h1, loadFull_eof he]

/-- **C36**, text files of version 2.2 (partial: missing are the features `Harmless22` excludes).  Whatever bytes follow a header of a 2.2 text file, unless
they use the features that `Harmless22` excludes, loading them is undefined exactly if the main loop arrives at a counted section cut off before its counter, or at the end with a
node tag outside the table of node tags. -/
theorem C36_ascii22_partial (cfg : Cfg) {header rest : Bytes} (hh : Boundary cfg header { meshFormat := ⟨b! "2.2", 0, 8⟩ }) (hr : Harmless22 cfg rest) :
    loadMsh cfg (header ++ rest) = .ub ↔ CounterMissing cfg (header ++ rest) ∨ ∃ s st, Arrives cfg (Stream.ofBytes (header ++ rest)) (s, st) ∧ st.eof = true ∧
      s.tableSize ≤ cfg.maxCount ∧ ∃ tag, s.LooksUp tag ∧ s.tableSize ≤ s.tableIndex tag := by
  constructor
  · intro hu
    rcases file_ub (F := ⟨rest, false⟩) (I := fun s => s.meshFormat = ⟨b! "2.2", 0, 8⟩) (H := fun _ => NoCounter cfg) (fun buf _ h => section_text22 hr buf h) hh rfl hu with
      ⟨s, buf, r, -, ha, h⟩ | ⟨s, st, -, ha, he, -⟩
    · exact Or.inl (.of ha h)
    · exact Or.inr ⟨s, st, ha, he, (C36_table22 cfg rfl hh hr.format ha he).mp hu⟩
  · rintro (h | ⟨s, st, ha, he, h⟩)
    · exact h.ub
    · exact (C36_table22 cfg rfl hh hr.format ha he).mpr h

/-- In particular such a file is safe if no counter is missing, the nodes of its elements have tags between the least and the greatest node tag, and these are not the least and the
greatest number there is. -/
theorem C36_ascii22_inside_partial (cfg : Cfg) {header rest : Bytes} (hh : Boundary cfg header { meshFormat := ⟨b! "2.2", 0, 8⟩ }) (hr : Harmless22 cfg rest)
    (hc : ¬ CounterMissing cfg (header ++ rest)) (hin : ∀ s st, Arrives cfg (Stream.ofBytes (header ++ rest)) (s, st) → st.eof = true →
      s.nodes.maxNodeTag.toNat - s.nodes.minNodeTag.toNat < 2 ^ 64 - 1 ∧
      ∀ b ∈ s.elements.entityBlocks, ∀ t ∈ b.data.tail, s.nodes.minNodeTag ≤ t ∧ t ≤ s.nodes.maxNodeTag) :
    loadMsh cfg (header ++ rest) ≠ .ub := by
  intro h
  obtain ⟨s, st, ha, he, _, tag, hl, ho⟩ := ((C36_ascii22_partial cfg hh hr).mp h).resolve_left hc
  obtain ⟨h1, h2⟩ := hin s st ha he
  have hraw := raw_of_arrives rfl hh hr.format ha he
  have h3 : s.nodes.minNodeTag.toNat ≤ tag.toNat ∧ tag.toNat ≤ s.nodes.maxNodeTag.toNat := by
    rcases hl with ⟨b, hb, ht⟩ | ⟨b, hb, ht⟩
    · exact hraw.nodes.range b hb tag ht
    · exact ⟨UInt64.le_iff_toNat_le.mp (h2 b hb tag ht).1, UInt64.le_iff_toNat_le.mp (h2 b hb tag ht).2⟩
  have := tag.toNat_lt
  have := s.nodes.maxNodeTag.toNat_lt
  unfold MshSpec.tableSize MshSpec.tableIndex at ho
  omega

/-! ## Undefined behaviour -/

/-- **C36** is false as a claim about all files: every build has a file on which loading is undefined (an uninitialised counter is used). -/
theorem C36_false (cfg : Cfg) : ¬ ∀ file, loadMsh cfg file ≠ .ub := fun h => h (b! "$PhysicalNames\n") rfl

/-- A build with `NDEBUG` and the extension. -/
def demoExtRelease : Cfg := ⟨false, true, .general 6, 1000000, by decide⟩

/-- Every feature that `Harmless` excludes is excluded for a reason, in builds with and without assertions: a second `$MeshFormat` switching to
version 2.2, incomplete entities, incomplete heads of data, and numbers of ten or more digits (a number of elements for
which the size of a block overflows; a dimension for which `3 + dim` overflows).  Each counted section without its counter is undefined too. -/
theorem C36_hazards_ascii41 : ∀ cfg ∈ [demoExt, demoExtRelease],
    loadMsh cfg (hdr41 ++ b! "$MeshFormat\n2.2 0 8\n$EndMeshFormat\n$Elements\n") = .ub ∧
    loadMsh cfg (hdr41 ++ b! "$Entities\n1 0 0 0\nx") = .ub ∧
    loadMsh cfg (hdr41 ++ b! "$NodeData\n") = .ub ∧
    loadMsh cfg (hdr41 ++ b! "$ElementData\n") = .ub ∧
    loadMsh cfg (hdr41 ++ b! "$ElementNodeData\n0\n0\n3\n0\n-1\n1\n1 -1 2 3\n") = .ub ∧
    loadMsh cfg (hdr41 ++ b! "$PhysicalNames\n") = .ub ∧
    loadMsh cfg (hdr41 ++ b! "$Curves\n") = .ub ∧
    loadMsh cfg (hdr41 ++ b! "$Patches\n") = .ub ∧
    loadMsh cfg (hdr41 ++ b! "$Elements\n1 6148914691236517206 1 1\n1 1 1 6148914691236517206\n1 1 2\n") = .ub ∧
    loadMsh cfg (hdr41 ++ b! "$Nodes\n1 0 0 0\n2147483645 1 1 0\n$EndNodes\n") = .ub := by
  decide +kernel

/-- The sources of undefined behaviour of `C36_binary41_partial`: entities cut off (`NDEBUG`), a dimension for which `3 + dim` overflows, and such a dimension completed by a cut
file (`NDEBUG`). -/
theorem C36_hazards_binary41 :
    loadMsh demoCfg (hdr41b ++ b! "$Entities\n") = .ub ∧
    (∀ cfg ∈ [demoCfg, demoDebug], loadMsh cfg (hdr41b ++ (b! "$Nodes\n" ++ [1, 0, 0, 0].flatMap encU64 ++
      [253, 255, 255, 127] ++ encI32 1 ++ encI32 1 ++ encU64 0 ++ b! "$EndNodes\n")) = .ub) ∧
    loadMsh demoCfg (hdr41b ++ (b! "$Nodes\n" ++ [1, 0, 0, 0].flatMap encU64 ++ [0, 0, 0, 127] ++ encI32 1 ++ encI32 1 ++ encU64 0 ++
      b! "$EndNodes\n$Nodes\n" ++ [1, 0, 0, 0].flatMap encU64 ++ [253, 255, 255])) = .ub := by
  decide +kernel

/-- Version 2.2: an element whose node is outside the range of node tags, in text and binary; nodes with the least and the greatest number as tags, for which the
length of the table is computed as zero; and `$Elements` sections cut off, or malformed, in their first element. -/
theorem C36_hazards_22 : ∀ cfg ∈ [demoCfg, demoDebug],
    loadMsh cfg (hdr22 ++ b! "$Nodes\n1\n1 0 0 0\n$EndNodes\n$Elements\n1\n1 15 0 5\n$EndElements\n") = .ub ∧
    loadMsh cfg (hdr22b ++ (b! "$Nodes\n1\n" ++ encI32 1 ++ [0, 0, 0].flatMap encU64 ++ b! "\n$EndNodes\n$Elements\n1\n" ++
      [15, 1, 0, 1, 5].flatMap encI32 ++ b! "\n$EndElements\n")) = .ub ∧
    loadMsh cfg (hdr22 ++ b! "$Nodes\n2\n0 0 0 0\n-1 0 0 0\n$EndNodes\n") = .ub ∧
    loadMsh cfg (hdr22 ++ b! "$Elements\n") = .ub ∧
    loadMsh cfg (hdr22 ++ b! "$Elements\n1\n") = .ub ∧
    loadMsh cfg (hdr22 ++ b! "$Elements\n1\n1 15\n") = .ub ∧
    loadMsh cfg (hdr22 ++ b! "$Elements\n1\n1 line 0 1 2\n$EndElements\n") = .ub ∧
    loadMsh cfg (hdr22 ++ b! "$MeshFormat\n4.1 0 8\n$EndMeshFormat\n$Entities\n1 0 0 0\nx") = .ub ∧
    loadMsh cfg (hdr22 ++ b! "$NodeData\n") = .ub ∧
    loadMsh cfg (hdr22 ++ b! "$PhysicalNames\n") = .ub := by
  decide +kernel

/-! ## Concrete cases: the usual headers, and truncated and malformed files that meet the hypotheses -/

theorem boundary_ascii41 (cfg : Cfg) : Boundary cfg hdr41 { meshFormat := ⟨b! "4.1", 0, 8⟩ } := ⟨b! "\n", by decide, .single ⟨rfl, rfl⟩⟩
theorem boundary_binary41 (cfg : Cfg) : Boundary cfg hdr41b { meshFormat := ⟨b! "4.1", 1, 8⟩ } := ⟨b! "\n", by decide, .single ⟨rfl, rfl⟩⟩

/-- Where `name` occurs in `F`. -/
theorem suffix_tails {name r F : Bytes} (h : name ++ r <:+ F) : r ∈ (F.tails.filter fun t => name.isPrefixOf t).map fun t => t.drop name.length :=
  List.mem_map.mpr ⟨name ++ r, List.mem_filter.mpr ⟨(List.mem_tails _ _).mpr h, by simp⟩, by simp⟩

/-- `name` occurs once in `F`, and `x` follows it. -/
theorem occurs_once {name x F : Bytes} (h : ((F.tails.filter fun t => name.isPrefixOf t).map fun t => t.drop name.length) = [x]) {r : Bytes} (hr : name ++ r <:+ F) : r = x := by
  have := suffix_tails hr
  rwa [h, List.mem_singleton] at this

theorem occurs_never {name F : Bytes} (h : occurs name F = false) {r : Bytes} (hr : name ++ r <:+ F) : False :=
  not_occurs h ((List.prefix_append name r).isInfix.trans hr.isInfix)

/-- A text file with physical names, entities, data with a malformed entry, and nodes with many digits that are cut off. -/
def demoText41 : Bytes :=
  b! "$PhysicalNames 1\n2 1 \"a b\"\n$EndPhysicalNames\n$Entities\n1 0 0 0\n7 0 0 0 1 3\n$EndEntities\n" ++
  b! "$NodeData\n1\n\"v\"\n1\n0\n3\n0 1 2\n5 0.5\n6 x\n$EndNodeData\n$Nodes\n1 1 1 1\n0 1 -7 1\n1\n0.12345678901234567"

/-- The words of the entities in it. -/
theorem demoText41_entities : TextEntities demoExt (b! "\n1 0 0 0\n7 0 0 0 1 3\n$EndEntities\n" ++
    b! "$NodeData\n1\n\"v\"\n1\n0\n3\n0 1 2\n5 0.5\n6 x\n$EndNodeData\n$Nodes\n1 1 1 1\n0 1 -7 1\n1\n0.12345678901234567") := by
  refine ⟨b! "\n", [(b! "1", b! " "), (b! "0", b! " "), (b! "0", b! " "), (b! "0", b! "\n"), (b! "7", b! " "), (b! "0", b! " "), (b! "0", b! " "), (b! "0", b! " "),
      (b! "1", b! " "), (b! "3", b! "\n")], _, .general 6, { points := [{ tag := 7, x := ⟨0⟩, y := ⟨0⟩, z := ⟨0⟩, physicalGroupTags := [3] }] },
      rfl, by unfold Blank; decide, by unfold Blank; decide, by decide +kernel, ?_, by decide +kernel⟩
  unfold Printable
  decide +kernel

/-- The words of the head of the data in it. -/
theorem demoText41_data (d : Bytes) : StartsData demoExt (b! "\n1\n\"v\"\n1\n0\n3\n0 1 2" ++ 10 :: d) [0, 1, 2] 10 d := by
  refine ⟨b! "\n", [(b! "1", b! "\n"), (b! "\"v\"", b! "\n"), (b! "1", b! "\n"), (b! "0", b! "\n"), (b! "3", b! "\n"), (b! "0", b! " "), (b! "1", b! " ")], b! "2",
    .general 6, [b! "v"], [⟨0⟩], rfl, by unfold Blank; decide, by simp, by unfold Blank; decide, by decide +kernel, ?_, by decide, by decide, by decide⟩
  unfold Printable
  decide +kernel

theorem demoText41_harmless : Harmless demoExt demoText41 := by
  refine ⟨not_occurs (by decide +kernel), fun r hr => ?_, fun n hn r hr => ?_, nineDigits_of (by decide +kernel)⟩
  · rw [occurs_once (x := b! "\n1 0 0 0\n7 0 0 0 1 3\n$EndEntities\n" ++
      b! "$NodeData\n1\n\"v\"\n1\n0\n3\n0 1 2\n5 0.5\n6 x\n$EndNodeData\n$Nodes\n1 1 1 1\n0 1 -7 1\n1\n0.12345678901234567") (by decide +kernel) hr]
    exact demoText41_entities
  · simp only [dataSections, List.mem_cons, List.not_mem_nil, or_false] at hn
    rcases hn with rfl | rfl | rfl
    · rw [occurs_once (x := b! "\n1\n\"v\"\n1\n0\n3\n0 1 2" ++
        10 :: b! "5 0.5\n6 x\n$EndNodeData\n$Nodes\n1 1 1 1\n0 1 -7 1\n1\n0.12345678901234567") (by decide +kernel) hr]
      exact ⟨_, _, _, demoText41_data _, by decide, fun h => absurd h (by decide)⟩
    · exact (occurs_never (by decide +kernel) hr).elim
    · exact (occurs_never (by decide +kernel) hr).elim

/-- It is not undefined to load it. -/
example : loadMsh demoExt (hdr41 ++ demoText41) ≠ .ub := by
  rw [ne_eq, C36_ascii41_partial _ (boundary_ascii41 _) demoText41_harmless]
  exact not_counterMissing (by decide +kernel)

/-- A text file that ends in the name of a section. -/
theorem demoCounter41_harmless : Harmless demoExt (b! "$Nodes\n1 1 1 1\n0 1 0 1\n1\n0 0 0.12345678901234567\n$EndNodes\n$Curves\n") :=
  ⟨not_occurs (by decide +kernel), fun _ hr => (occurs_never (by decide +kernel) hr).elim, data_of_not_occurs (by decide +kernel), nineDigits_of (by decide +kernel)⟩

example : CounterMissing demoExt (hdr41 ++ b! "$Nodes\n1 1 1 1\n0 1 0 1\n1\n0 0 0.12345678901234567\n$EndNodes\n$Curves\n") := by
  rw [← C36_ascii41_partial demoExt (boundary_ascii41 _) demoCounter41_harmless]
  decide +kernel

/-- A binary file with entities and with data of two entries, the second one cut off. -/
def demoBinary41 : Bytes :=
  b! "$Entities\n" ++ ([1, 0, 0, 0].flatMap encU64 ++ encI32 7 ++ [0, 0, 0, 1].flatMap encU64 ++ encI32 3) ++ b! "\n$EndEntities\n" ++
  b! "$NodeData\n1\n\"v\"\n1\n0\n3\n0 1 2" ++ 10 :: (encI32 5 ++ encU64 0 ++ b! "abc")

theorem demoBinary41_data : BinaryData demoExtRelease (b! "\n1\n\"v\"\n1\n0\n3\n0 1 2" ++ 10 :: (encI32 5 ++ encU64 0 ++ b! "abc")) :=
  ⟨_, _, _, demoText41_data _, Or.inl rfl⟩

theorem demoBinary41_harmless : HarmlessBinary demoExtRelease 1 demoBinary41 := by
  refine ⟨not_occurs (by decide +kernel), fun n hn r hr => ⟨by decide, ?_⟩⟩
  simp only [dataSections, List.mem_cons, List.not_mem_nil, or_false] at hn
  rcases hn with rfl | rfl | rfl
  · rw [occurs_once (x := b! "\n1\n\"v\"\n1\n0\n3\n0 1 2" ++ 10 :: (encI32 5 ++ encU64 0 ++ b! "abc")) (by decide +kernel) hr]
    exact demoBinary41_data
  · exact (occurs_never (by decide +kernel) hr).elim
  · exact (occurs_never (by decide +kernel) hr).elim

set_option maxRecDepth 100000 in
/-- The tag of the second entry is cut off, so loading is undefined. -/
example : loadMsh demoExtRelease (hdr41b ++ demoBinary41) = .ub := by
  refine (C36_binary41_partial demoExtRelease (t := 1) (by decide) (boundary_binary41 _) demoBinary41_harmless).mpr (Or.inr (Or.inl ?_))
  have ha : ∃ s w, Blank w ∧ s.meshFormat = ⟨b! "4.1", 1, 8⟩ ∧ s.nodeData = [] ∧ Arrives demoExtRelease (Stream.ofBytes (hdr41b ++ demoBinary41))
      (s, ⟨w ++ b! "$NodeData" ++ (b! "\n1\n\"v\"\n1\n0\n3\n0 1 2" ++ 10 :: (encI32 5 ++ encU64 0 ++ b! "abc")), false, false⟩) :=
    ⟨_, b! "\n", by unfold Blank; decide, rfl, rfl, .head ⟨rfl, rfl⟩ (.single ⟨rfl, rfl⟩)⟩
  obtain ⟨s, w, hw, hf, hd, ha⟩ := ha
  refine ⟨by decide, s, _, [0, 1, 2], 10, encI32 5 ++ encU64 0 ++ b! "abc", b! "$NodeData", by decide, ⟨by decide, w, hw, ha⟩, hf, demoText41_data _, Or.inl rfl, ?_,
    0, 1, 2, [], rfl, by decide, by decide, ?_⟩
  · show s.nodeData.length < _
    rw [hd]; decide
  · exact .next (k := 1) (r := encU64 0 ++ b! "abc") ⟨Or.inl ⟨by decide, 5, rfl, by decide⟩, by decide⟩ (by decide) (.tag (by decide))

/-- Entities cut off in the number of physical groups of a point are undefined with `NDEBUG` and not undefined in builds with assertions. -/
theorem demoCutEntities_harmless (cfg : Cfg) : HarmlessBinary cfg 1 (b! "$Entities\n" ++ [1, 0, 0, 0].flatMap encU64 ++ encI32 5) :=
  ⟨not_occurs (by decide), data_of_not_occurs (by decide +kernel)⟩

example : loadMsh demoDebug (hdr41b ++ (b! "$Entities\n" ++ [1, 0, 0, 0].flatMap encU64 ++ encI32 5)) ≠ .ub := by
  rw [ne_eq, C36_binary41_partial _ (t := 1) (by decide) (boundary_binary41 _) (demoCutEntities_harmless _)]
  rintro (h | ⟨-, s, r, ints, c, d, n, hn, ha, -⟩ | ⟨h, -⟩ | ⟨s, r, d, ha, -⟩)
  · exact not_counterMissing (by decide +kernel) h
  · simp only [dataSections, List.mem_cons, List.not_mem_nil, or_false] at hn
    rcases hn with rfl | rfl | rfl <;> exact occurs_never (by decide +kernel) (arrivesAt_suffix ha)
  · cases h
  · exact occurs_never (by decide +kernel) (arrivesAt_suffix ha)

example : loadMsh demoCfg (hdr41b ++ (b! "$Entities\n" ++ [1, 0, 0, 0].flatMap encU64 ++ encI32 5)) = .ub := by
  refine (C36_binary41_partial _ (t := 1) (by decide) (boundary_binary41 _) (demoCutEntities_harmless _)).mpr (Or.inr (Or.inr (Or.inl ⟨rfl, _, _,
    [1, 0, 0, 0].flatMap encU64 ++ encI32 5, ⟨by decide, b! "\n", by unfold Blank; decide, .single ⟨rfl, rfl⟩⟩, rfl, Or.inl ⟨10, rfl, Or.inl rfl⟩,
    Or.inr ⟨1, 0, 0, 0, encI32 5, rfl, by decide, .length (by decide)⟩⟩)))

/-- Nodes read twice, the second time cut off in the dimension of the block: with `NDEBUG` the high byte of the first reading stays. -/
def demoCutDim : Bytes := b! "$Nodes\n" ++ [1, 0, 0, 0].flatMap encU64 ++ [0, 0, 0, 127] ++ encI32 1 ++ encI32 1 ++ encU64 0 ++ b! "$EndNodes\n$Nodes\n" ++
  ([1, 0, 0, 0].flatMap encU64 ++ [253, 255, 255])

set_option maxRecDepth 100000 in
example : loadMsh demoCfg (hdr41b ++ demoCutDim) = .ub := by
  refine (C36_binary41_partial _ (t := 1) (by decide) (boundary_binary41 _) ⟨not_occurs (by decide +kernel), data_of_not_occurs (by decide +kernel)⟩).mpr
    (Or.inr (Or.inr (Or.inr ?_)))
  have ha : ∃ s w, Blank w ∧ s.meshFormat = ⟨b! "4.1", 1, 8⟩ ∧ s.nodes = (⟨1, 0, 0, 0, [⟨2130706432, 1, 1, 0, [], []⟩]⟩ : Nodes) ∧
      Arrives demoCfg (Stream.ofBytes (hdr41b ++ demoCutDim)) (s, ⟨w ++ b! "$Nodes" ++ 10 :: ([1, 0, 0, 0].flatMap encU64 ++ [253, 255, 255]), false, false⟩) :=
    ⟨_, b! "\n", by unfold Blank; decide, rfl, rfl, .head ⟨rfl, rfl⟩ (.single ⟨rfl, rfl⟩)⟩
  obtain ⟨s, w, hw, hf, hn, ha⟩ := ha
  refine ⟨s, _, _, ⟨by decide, w, hw, ha⟩, hf, Or.inl ⟨10, rfl, Or.inl rfl⟩, by decide, 1, ?_, by decide, ?_⟩
  · rw [hn]; decide
  · rw [hn]
    exact .here (dim := 2147483645) (tag := 1) (num := 0) (by unfold ReadsHead; decide) (by decide) (by decide) (by decide)

/-- A dimension that large does not matter in a block without parametric coordinates. -/
def demoBigDim : Bytes := b! "$Nodes\n" ++ [1, 0, 0, 0].flatMap encU64 ++ encI32 2147483647 ++ encI32 1 ++ encI32 0 ++ encU64 0 ++ b! "$EndNodes\n"

example : ¬ NodesOverflow demoCfg ⟨b! "4.1", 1, 8⟩ (hdr41b ++ demoBigDim) := by
  intro h
  have := (C36_binary41_partial demoCfg (t := 1) (by decide) (boundary_binary41 _) ⟨not_occurs (by decide +kernel), data_of_not_occurs (by decide +kernel)⟩).mpr
    (Or.inr (Or.inr (Or.inr h)))
  revert this
  decide +kernel

theorem boundary_ascii22 (cfg : Cfg) : Boundary cfg hdr22 { meshFormat := ⟨b! "2.2", 0, 8⟩ } := ⟨b! "\n", by decide, .single ⟨rfl, rfl⟩⟩

/-- A text file of version 2.2 with a node, a point element, and a second element cut off. -/
def demoCut22 : Bytes := b! "$Nodes\n1\n7 0 0 0\n$EndNodes\n$Elements\n2\n1 15 2 3 4 7\n2 1 x"

theorem demoCut22_harmless : Harmless22 demoDebug demoCut22 := by
  refine ⟨not_occurs (by decide), data_of_not_occurs (by decide +kernel), ?_⟩
  · intro r hr
    have h := suffix_tails hr
    have e : ((demoCut22.tails.filter fun t => (b! "$Elements").isPrefixOf t).map fun t => t.drop (b! "$Elements").length) =
        [b! "\n2\n1 15 2 3 4 7\n2 1 x"] := by decide +kernel
    rw [e, List.mem_singleton] at h
    subst h
    refine ⟨b! "\n", [(b! "2", b! "\n"), (b! "1", b! " "), (b! "15", b! " ")], b! "2 3 4 7\n2 1 x", rfl, by unfold Blank; decide, ?_, Or.inl ⟨rfl, 50, rfl, rfl⟩⟩
    simp only [List.mem_cons, List.not_mem_nil, or_false]
    rintro q (rfl | rfl | rfl)
    · exact ⟨⟨none, [2], rfl, by simp, by simp⟩, by unfold Blank; decide, by simp⟩
    · exact ⟨⟨none, [1], rfl, by simp, by simp⟩, by unfold Blank; decide, by simp⟩
    · exact ⟨⟨none, [1, 5], rfl, by simp, by simp⟩, by unfold Blank; decide, by simp⟩

/-- A text file of version 2.2 with a node and a point element at another node. -/
def demoOutside22 : Bytes := b! "$Nodes\n1\n7 0 0 0\n$EndNodes\n$Elements\n1\n1 15 2 3 4 5"

theorem demoOutside22_harmless : Harmless22 demoDebug demoOutside22 := by
  refine ⟨not_occurs (by decide), data_of_not_occurs (by decide +kernel), ?_⟩
  · intro r hr
    have h := suffix_tails hr
    have e : ((demoOutside22.tails.filter fun t => (b! "$Elements").isPrefixOf t).map fun t => t.drop (b! "$Elements").length) =
        [b! "\n1\n1 15 2 3 4 5"] := by decide +kernel
    rw [e, List.mem_singleton] at h
    subst h
    refine ⟨b! "\n", [(b! "1", b! "\n"), (b! "1", b! " "), (b! "15", b! " ")], b! "2 3 4 5", rfl, by unfold Blank; decide, ?_, Or.inl ⟨rfl, 50, rfl, rfl⟩⟩
    simp only [List.mem_cons, List.not_mem_nil, or_false]
    rintro q (rfl | rfl | rfl)
    · exact ⟨⟨none, [1], rfl, by simp, by simp⟩, by unfold Blank; decide, by simp⟩
    · exact ⟨⟨none, [1], rfl, by simp, by simp⟩, by unfold Blank; decide, by simp⟩
    · exact ⟨⟨none, [1, 5], rfl, by simp, by simp⟩, by unfold Blank; decide, by simp⟩

/-- Both directions of `C36_ascii22_partial` occur: a text file cut off in its second element, and one with an element node outside the table. -/
example : ¬ ∃ s st, Arrives demoDebug (Stream.ofBytes (hdr22 ++ demoCut22)) (s, st) ∧ st.eof = true ∧
    s.tableSize ≤ demoDebug.maxCount ∧ ∃ tag, s.LooksUp tag ∧ s.tableSize ≤ s.tableIndex tag := by
  intro h
  have := (C36_ascii22_partial demoDebug (boundary_ascii22 _) demoCut22_harmless).mpr (Or.inr h)
  revert this
  decide +kernel

example : ∃ s st, Arrives demoDebug (Stream.ofBytes (hdr22 ++ demoOutside22)) (s, st) ∧ st.eof = true ∧
    s.tableSize ≤ demoDebug.maxCount ∧ ∃ tag, s.LooksUp tag ∧ s.tableSize ≤ s.tableIndex tag :=
  ((C36_ascii22_partial demoDebug (boundary_ascii22 _) demoOutside22_harmless).mp (by decide +kernel)).resolve_left (not_counterMissing (by decide +kernel))

end MshIO
