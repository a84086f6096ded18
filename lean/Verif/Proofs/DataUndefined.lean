import Verif.Proofs.TextSections

/-! # When reading data sections, and sections of binary files, is undefined -/

namespace MshIO

variable {α β : Type}

theorem asSize_eq (x : Int32) : asSize x = (sizeOfInt x).toNat := by
  unfold asSize
  have h := toNat_sizeOfInt x
  have h1 := x.le_toInt
  have h2 := x.toInt_lt
  split at h <;> omega

/-! ## Where data start -/

/-- A stream from which the data `d` are read. -/
def DataAt (d : Bytes) (st : Stream) : Prop := (d ≠ [] ∧ st = gs d) ∨ (d = [] ∧ st.good = false)

theorem eat_from {y : Place} {d : Bytes} (h : DataFrom y d) {st : Stream} (hs : At y st) : ∃ st', eatWhiteSpace 1 st = .ok ((), st') ∧ DataAt d st' := by
  cases y with
  | on r =>
    cases hs
    obtain ⟨st, e, h'⟩ := eat_data h
    refine ⟨st, e, ?_⟩
    by_cases hd : d = []
    · refine Or.inr ⟨hd, ?_⟩
      rcases h' with rfl | h'
      · subst hd
        rcases h with ⟨c, rfl, hc⟩ | ⟨rfl, -⟩
        · rw [payload_ne (by simp), eat_payload hc.eat] at e
          cases e
        · cases e
      · exact h'.2
    · exact Or.inl ⟨hd, h'.resolve_right fun h => hd h.1⟩
  | stuck =>
    have h : d = [] := h
    have hg : st.good = false := by simp [Stream.good, hs.1]
    exact ⟨_, by unfold eatWhiteSpace; rw [hg, if_neg (by simp)], Or.inr ⟨h, by simp [Stream.good]⟩⟩
  | ended =>
    have h : d = [] := h
    have hg : st.good = false := by simp [Stream.good, hs.1]
    exact ⟨_, by unfold eatWhiteSpace; rw [hg, if_neg (by simp)], Or.inr ⟨h, by simp [Stream.good]⟩⟩

theorem dataFrom_exists (y : Place) : ∃ d, DataFrom y d := by
  cases y with
  | on r => exact dataAfter_exists r
  | stuck => exact ⟨[], rfl⟩
  | ended => exact ⟨[], rfl⟩

theorem UbAt.eat {f : Unit → Rd α} {y : Place} {Q : Bytes → Prop} (h : ∀ d st, DataFrom y d → DataAt d st → (f () st = .ub ↔ Q d)) :
    UbAt (eatWhiteSpace 1 >>= f) y (∃ d, DataFrom y d ∧ Q d) := by
  intro st hs
  constructor
  · intro hu
    obtain ⟨d, hd⟩ := dataFrom_exists y
    obtain ⟨st', e, hs'⟩ := eat_from hd hs
    rw [Rd.bind_ok e] at hu
    exact ⟨d, hd, (h d st' hd hs').mp hu⟩
  · rintro ⟨d, hd, hq⟩
    obtain ⟨st', e, hs'⟩ := eat_from hd hs
    rw [Rd.bind_ok e]
    exact (h d st' hd hs').mpr hq

/-! ## Data sections -/

theorem entries_data {cfg : Cfg} {en v22 : Bool} {V N : Prop} (hV : V ↔ v22 = true) (hN : N ↔ en = true) (f : Int32) (n : Nat) {d : Bytes} {st : Stream} (hs : DataAt d st) :
    forEach (loadDataEntryBinary v22 cfg (sizeOfInt f) en) (List.replicate n {}) st = .ub ↔ EntriesUndefined cfg V N f n d := by
  rcases hs with ⟨-, rfl⟩ | ⟨rfl, hg⟩
  · exact entries_ub_iff hV hN f n d
  · cases n with
    | zero => exact ⟨(fun h => by cases h), fun h => by cases h⟩
    | succ n =>
      rw [List.replicate_succ]
      exact ⟨fun _ => .tag (by simp), fun _ => forEach_ub (entry_bad _ _ _ _ _ hg)⟩

theorem ub_entriesText (cfg : Cfg) (f : Int32) (n : Nat) (x : Place) :
    UbAt (forEach (loadDataEntryAscii cfg (sizeOfInt f) true) (List.replicate n {})) x (EntriesTextUndefined cfg f n x) := by
  induction n generalizing x with
  | zero => exact UbAt.pure _ x
  | succ n ih =>
    rw [List.replicate_succ]
    simp only [forEach, loadDataEntryAscii, Rd.bind_assoc, if_true]
    refine (UbAt.passes (inSize_passes _) fun _ y => UbAt.yields (inInt_yields 0) fun npe z _ =>
      UbAt.table (total := asSize f * asSize npe) inDoubleAt_fills rfl (by rw [UInt64.toNat_mul, asSize_eq, asSize_eq]) (by rw [asSize_eq, asSize_eq, Nat.mul_comm])
        fun _ y => (ih y).last fun _ _ h => by cases h).iff ?_
    rw [EntriesTextUndefined]
    constructor
    · rintro ⟨y, h1, _, z, ⟨w, h2, rfl⟩, h3⟩
      exact ⟨y, w, z, h1, h2, h3⟩
    · rintro ⟨y, w, z, h1, h2, h3⟩
      exact ⟨y, h1, _, z, ⟨w, h2, rfl⟩, h3⟩

theorem ub_plainText (cfg : Cfg) (f : Int32) (n : Nat) (x : Place) : UbAt (forEach (loadDataEntryAscii cfg (sizeOfInt f) false) (List.replicate n {})) x False :=
  UbAt.safe (fun _ => Safe.each (fun e => safe_entryAscii cfg (fun h => by cases h) e) _) x

theorem ub_loadData {cfg : Cfg} {f : MeshFormat} (hv : f.version = b! "4.1" ∨ f.version = b! "2.2") {en : Bool} {N : Prop} (hN : N ↔ en = true) (x : Place) :
    UbAt (loadData cfg f en) x (CounterUndefined cfg x fun n x => ∃ y, Many TakesQuoted n x y ∧
      CounterUndefined cfg y fun n x => ∃ y, Many TakesReal n x y ∧
      CounterUndefined cfg y fun n x => ∃ ints y, TakesInts n x ints y ∧ (cfg.asserts = true → y.Good) ∧
      ∃ g k n more, ints = g :: k :: n :: more ∧ 0 ≤ n.toInt ∧ n.toInt ≤ cfg.maxCount ∧
        if 0 < f.fileType then ∃ d, DataFrom y d ∧ EntriesUndefined cfg (f.version = b! "2.2") N k n.toInt.toNat d
        else N ∧ EntriesTextUndefined cfg k n.toInt.toNat y) := by
  simp only [loadData, loadDataHeader, Rd.bind_assoc, Rd.pure_bind]
  refine UbAt.counter fun n x _ => ?_
  simp only [List.take_nil, List.nil_append, List.length_nil, Nat.sub_zero]
  refine UbAt.strings List.length_replicate extractSize_yields fun strs v y => UbAt.useVar fun nr _ => UbAt.resize fun _ => UbAt.passes
    (forEach_many inDouble_passes real_total (resized_length ..)) fun reals y => UbAt.counter fun ni x _ => ?_
  simp only [List.take_nil, List.nil_append, List.length_nil, Nat.sub_zero]
  refine UbAt.ints fun ints y => UbAt.assertGood ?_
  match ints with
  | [] => exact (UbAt.throw _ y).iff ⟨fun h => h.elim, fun ⟨_, _, _, _, h, _⟩ => by cases h⟩
  | [_] => exact (UbAt.throw _ y).iff ⟨fun h => h.elim, fun ⟨_, _, _, _, h, _⟩ => by cases h⟩
  | [_, _] => exact (UbAt.throw _ y).iff ⟨fun h => h.elim, fun ⟨_, _, _, _, h, _⟩ => by cases h⟩
  | g :: k :: n :: more =>
    have hin : ∀ Q : Prop, (sizeOfInt n).toNat ≤ cfg.maxCount ∧ Q ↔ 0 ≤ n.toInt ∧ n.toInt ≤ cfg.maxCount ∧ Q := by
      intro Q; rw [sizeOfInt_fits, and_assoc]
    have en' : (sizeOfInt n).toNat ≤ cfg.maxCount → (sizeOfInt n).toNat = n.toInt.toNat := by
      intro hn
      have h1 := (sizeOfInt_fits n).mp hn
      have := toNat_sizeOfInt n
      split at this <;> omega
    refine UbAt.iff (Q := 0 ≤ n.toInt ∧ n.toInt ≤ cfg.maxCount ∧
        if 0 < f.fileType then ∃ d, DataFrom y d ∧ EntriesUndefined cfg (f.version = b! "2.2") N k n.toInt.toNat d
        else N ∧ EntriesTextUndefined cfg k n.toInt.toNat y) ?_ ⟨fun h => ⟨g, k, n, more, rfl, h⟩, fun ⟨_, _, _, _, e, h⟩ => by cases e; exact h⟩
    rw [← hin]
    refine UbAt.resize fun hn => ?_
    simp only [List.take_nil, List.nil_append, List.length_nil, Nat.sub_zero, en' hn]
    by_cases ht : 0 < f.fileType
    · rw [if_pos ht, if_pos ht]
      refine UbAt.eat fun d st _ hs => ?_
      rcases hv with hv | hv
      · rw [if_pos hv, data_tail]
        exact entries_data (v22 := false) (by rw [hv]; decide) hN k _ hs
      · rw [if_neg (by rw [hv]; decide), if_pos hv, data_tail]
        exact entries_data (v22 := true) (by rw [hv]; decide) hN k _ hs
    · rw [if_neg ht, if_neg ht]
      intro st hs
      rw [data_tail]
      cases en with
      | true => exact (ub_entriesText cfg k _ y st hs).trans ⟨fun h => ⟨hN.mpr rfl, h⟩, fun h => h.2⟩
      | false => exact (ub_plainText cfg k _ y st hs).trans ⟨fun h => h.elim, fun h => by cases hN.mp h.1⟩

/-! ## Binary files of version 2.2 -/

theorem UbAt.pushBack {cfg : Cfg} {v : List β} {b : β} {f : List β → Rd α} {x : Place} {Q : Prop} (h : UbAt (f (v ++ [b])) x Q) :
    UbAt (MshIO.pushBack cfg v b >>= f) x (v.length < cfg.maxCount ∧ Q) := by
  intro st hs
  by_cases hv : v.length < cfg.maxCount
  · rw [Rd.bind_ok (pushBack_ok hv b st), h st hs]
    exact ⟨fun h => ⟨hv, h⟩, fun h => h.2⟩
  · rw [Rd.bind_def, pushBack_throw hv b st]
    exact ⟨(fun h => by cases h), fun h => absurd h.1 hv⟩

theorem nodeBinary22_lost (cfg : Cfg) (i : Nat) (st : List UInt64 × List Double) {s : Stream} (hg : s.good = false) :
    loadNodeBinary22 cfg i st s = if cfg.asserts = true then .abort else .ub := by
  unfold loadNodeBinary22
  split
  · rename_i h
    exact Rd.bind_abort (by simp [assertGood, hg, h])
  · rename_i h
    have ha : assertGood cfg s = .ok ((), s) := by simp [assertGood, h]
    rw [Rd.bind_ok ha, Rd.bind_ok (readIntVar_none_bad hg)]
    rfl

theorem nodesLoop22 {cfg : Cfg} {N : Nat} (hN : 3 * N ≤ cfg.maxCount) {d : Bytes} {st : Stream} (hs : DataAt d st) :
    loopN (loadNodeBinary22 cfg) N 0 (List.replicate N 0, List.replicate (3 * N) Double.zero) st = .ub ↔
      d.length + 24 < 28 * N ∧ (cfg.asserts = true → d ≠ [] ∧ d.length % 28 < 4) := by
  have hlt := cfg.maxCount_lt
  rcases hs with ⟨hd, rfl⟩ | ⟨rfl, hg⟩
  · by_cases hl : d.length + 24 < 28 * N
    · rw [nodesLoop22_short (cfg := cfg) (m := N) (by omega) N 0 (by omega) (by simp) (by simp) hl]
      by_cases ha : cfg.asserts = true ∧ 4 ≤ d.length % 28
      · rw [if_pos ha]
        exact ⟨(fun h => by cases h), fun h => by have := (h.2 ha.1).2; omega⟩
      · rw [if_neg ha]
        exact ⟨fun _ => ⟨hl, fun h => ⟨hd, by have : ¬ 4 ≤ d.length % 28 := fun h' => ha ⟨h, h'⟩; omega⟩⟩, fun _ => rfl⟩
    · obtain ⟨st, h⟩ := nodesLoop22_long (cfg := cfg) (m := N) (by omega) N 0 (by omega) (tags := List.replicate N 0) (xs := List.replicate (3 * N) Double.zero) (by simp)
        (by simp) (d := d) (by omega)
      rw [h]
      exact ⟨(fun h => by cases h), fun h => absurd h.1 hl⟩
  · cases N with
    | zero => exact ⟨(fun h => by cases h), fun h => by simp at h⟩
    | succ N =>
      rw [loopN, Rd.bind_def, nodeBinary22_lost cfg _ _ hg]
      by_cases ha : cfg.asserts = true
      · rw [if_pos ha]
        exact ⟨(fun h => by cases h), fun h => absurd rfl (h.2 ha).1⟩
      · rw [if_neg ha]
        exact ⟨fun _ => ⟨by simp; omega, fun h => absurd h ha⟩, fun _ => rfl⟩

theorem dataFrom_good {y : Place} {d : Bytes} (h : DataFrom y d) (hd : d ≠ []) : y.Good := by
  cases y with
  | on r =>
    rcases h with ⟨c, rfl, -⟩ | ⟨rfl, -⟩
    · exact ⟨c, d, rfl⟩
    · cases d with
      | nil => exact absurd rfl hd
      | cons c d => exact ⟨c, d, rfl⟩
  | stuck => exact absurd h hd
  | ended => exact absurd h hd

theorem ub_nodesBinary22 (cfg : Cfg) {s : MshSpec} {n : Nodes} (hn : n.entityBlocks = s.nodes.entityBlocks) (x : Place) :
    UbAt (loadNodesBinary22 cfg n) x (∃ v y d, TakesSize x v y ∧ DataFrom y d ∧ NodesUndefined cfg s (v.getD 0) d) := by
  have hlt := cfg.maxCount_lt
  unfold loadNodesBinary22
  refine UbAt.iff (Q := n.entityBlocks.length < cfg.maxCount ∧ ∃ N y, (∃ v, TakesSize x v y ∧ N = v.getD 0) ∧ (cfg.asserts = true → y.Good) ∧ N.toNat ≤ cfg.maxCount ∧
    (N * 3).toNat ≤ cfg.maxCount ∧ ∃ d, DataFrom y d ∧ d.length + 24 < 28 * N.toNat ∧ (cfg.asserts = true → d ≠ [] ∧ d.length % 28 < 4)) ?_ ?_
  · refine UbAt.pushBack (UbAt.yields (inSize_yields 0) fun N y _ => UbAt.assertGood (UbAt.resize fun h1 => UbAt.resize fun h2 => UbAt.eat fun d st hd hs => ?_))
    have h3 : (N * 3).toNat = 3 * N.toNat := by
      rw [UInt64.toNat_mul]
      show N.toNat * 3 % 2 ^ 64 = _
      omega
    rw [ub_bind (fun _ _ h => by cases h)]
    simp only [List.take_nil, List.nil_append, List.length_nil, Nat.sub_zero, h3]
    exact nodesLoop22 (by omega) hs
  · unfold NodesUndefined
    rw [← hn]
    constructor
    · rintro ⟨h1, _, y, ⟨v, h2, rfl⟩, h3, h4, h5, d, h6, h7, h8⟩
      refine ⟨v, y, d, h2, h6, h1, ?_, h7, h8⟩
      have : ((v.getD 0) * 3).toNat = (v.getD 0).toNat * 3 % 2 ^ 64 := UInt64.toNat_mul ..
      omega
    · rintro ⟨v, y, d, h2, h6, h1, h5, h7, h8⟩
      have : ((v.getD 0) * 3).toNat = (v.getD 0).toNat * 3 % 2 ^ 64 := UInt64.toNat_mul ..
      exact ⟨h1, _, y, ⟨v, h2, rfl⟩, fun h => dataFrom_good h6 (h8 h).1, by omega, by omega, d, h6, h7, h8⟩

theorem groups22_lost {cfg : Cfg} {N : UInt64} {fuel : Nat} (st : Binary22) {s : Stream} (hg : s.good = false) :
    loadElementGroups22 cfg N (fuel + 1) st s = if st.processed = N then .ok (st, s) else .ub := by
  unfold loadElementGroups22
  by_cases h : st.processed = N
  · rw [if_pos h, if_pos h]; rfl
  · rw [if_neg h, if_neg h, Rd.bind_def]
    have : loadElementGroupBinary22 cfg N st s = .ub := by
      unfold loadElementGroupBinary22
      have hb : ({ s with fail := true } : Stream).good = false := by simp [Stream.good]
      rw [Rd.bind_ok (readIntVar_none_bad hg), Rd.bind_ok (readIntVar_none_bad hb), Rd.bind_ok (readIntVar_none_bad hb)]
      rfl
    rw [this]

theorem ub_elementsBinary22 {cfg : Cfg} (hc57 : 57 ≤ cfg.maxCount) (e : Elements) (ents : Entities) (x : Place) :
    UbAt (loadElementsBinary22 cfg e ents) x (∃ v y d, TakesSize x v y ∧ DataFrom y d ∧ (v.getD e.numElements).toNat ≤ cfg.maxCount ∧
      GroupsUndefined cfg (v.getD e.numElements).toNat (cfg.maxCount - e.entityBlocks.length) 0 d) := by
  unfold loadElementsBinary22
  refine UbAt.iff (Q := ∃ N y, (∃ v, TakesSize x v y ∧ N = v.getD e.numElements) ∧ N.toNat ≤ cfg.maxCount ∧ ∃ d, DataFrom y d ∧
    GroupsUndefined cfg N.toNat (cfg.maxCount - e.entityBlocks.length) 0 d) ?_ ?_
  · refine UbAt.yields (inSize_yields _) fun N y _ => ?_
    unfold vecReserve
    by_cases hN : N.toNat ≤ cfg.maxCount
    swap
    · rw [if_neg hN]
      exact fun st _ => ⟨(fun h => by cases h), fun h => absurd h.1 hN⟩
    rw [if_pos hN]
    refine UbAt.lift rfl (UbAt.iff (UbAt.eat (Q := fun d => GroupsUndefined cfg N.toNat (cfg.maxCount - e.entityBlocks.length) 0 d) fun d st hd hs => ?_)
      ⟨fun h => ⟨hN, h⟩, fun h => h.2⟩)
    have key : (∀ x s, loadElementGroups22 cfg N (st.rem.length + 2) { blocks := e.entityBlocks } st = .ok (x, s) → x.maps.length = 4) ∧
        (loadElementGroups22 cfg N (st.rem.length + 2) { blocks := e.entityBlocks } st = .ub ↔
          GroupsUndefined cfg N.toNat (cfg.maxCount - e.entityBlocks.length) 0 d) := by
      rcases hs with ⟨-, rfl⟩ | ⟨rfl, hg⟩
      · exact groups22_ub_iff (B := e.entityBlocks.length) (st := { blocks := e.entityBlocks }) hc57 hN (d.length + 2) (by omega)
          ⟨rfl, Nat.zero_le _, Nat.zero_le _, rfl⟩
      · rw [groups22_lost _ hg]
        by_cases h0 : (0 : UInt64) = N
        · subst h0
          refine ⟨fun x s h => by cases h; rfl, ⟨(fun h => by cases h), fun h => ?_⟩⟩
          cases h <;> contradiction
        · refine ⟨fun x s h => ?_, ⟨fun _ => .header (fun h => h0 (UInt64.toNat_inj.mp (by simpa using h))) (Nat.zero_le _) (by simp), fun _ => ?_⟩⟩
          · rw [if_neg h0] at h; cases h
          · rw [if_neg h0]
    refine bind_ub_iff.trans ⟨fun h => ?_, fun h => Or.inl (key.2.mpr h)⟩
    rcases h with h | ⟨st, s', hg, h⟩
    · exact key.2.mp h
    · have hs := (createAllEntities_safe cfg (key.1 st s' hg) ents).1
      rcases bind_ub_iff.mp h with h | ⟨_, _, _, h⟩
      · exact absurd h (fun h => hs (by unfold Rd.lift at h; cases hcr : createAllEntities cfg st.maps ents <;> rw [hcr] at h <;> first | rfl | cases h))
      · cases h
  · constructor
    · rintro ⟨_, y, ⟨v, h1, rfl⟩, h2, d, h3, h4⟩
      exact ⟨v, y, d, h1, h3, h2, h4⟩
    · rintro ⟨v, y, d, h1, h3, h2, h4⟩
      exact ⟨_, y, ⟨v, h1, rfl⟩, h2, d, h3, h4⟩

end MshIO
