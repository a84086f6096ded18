import Verif.Proofs.DataHazards
import Verif.Proofs.FormatLines
import Verif.Proofs.Replace
import Verif.Proofs.Precision

/-! # When reading entities is undefined -/

namespace MshIO

variable {α β : Type}

/-! ## Binary -/

/-- The lists of tags of `listsRun`: what is left of the data, if they are not cut off. -/
def restStream : Option Bytes → Stream
  | some d => gs d
  | none => spent

/-- Reading lists of tags. -/
def listsRun (cfg : Cfg) : List Nat → Option Bytes → Outcome (Option Bytes)
  | [], x => .ok x
  | _ :: _, none => .ub
  | g :: gaps, some d =>
    if d.length < g + 8 then .ub
    else
      if (decodeU64 ((d.drop g).take 8)).toNat ≤ cfg.maxCount then
        listsRun cfg gaps (if 4 * (decodeU64 ((d.drop g).take 8)).toNat ≤ (d.drop (g + 8)).length then
          some ((d.drop (g + 8)).drop (4 * (decodeU64 ((d.drop g).take 8)).toNat)) else none)
      else .throw .alloc

theorem encU64_append_inj {a b : UInt64} {x y : Bytes} (h : encU64 a ++ x = encU64 b ++ y) : a = b ∧ x = y := by
  obtain ⟨h1, h2⟩ := List.append_inj h (by simp)
  exact ⟨by have := congrArg decodeU64 h1; simpa using this, h2⟩

theorem listsRun_cons {cfg : Cfg} {g : Nat} {gaps : List Nat} {sk : Bytes} (h : sk.length = g) (n : UInt64) (r : Bytes) :
    listsRun cfg (g :: gaps) (some (sk ++ (encU64 n ++ r))) =
      if n.toNat ≤ cfg.maxCount then listsRun cfg gaps (if 4 * n.toNat ≤ r.length then some (r.drop (4 * n.toNat)) else none) else .throw .alloc := by
  subst h
  have e1 : (sk ++ (encU64 n ++ r)).drop sk.length = encU64 n ++ r := by simp
  have e2 : (encU64 n ++ r).take 8 = encU64 n := by rw [List.take_left' (by simp)]
  have e3 : (sk ++ (encU64 n ++ r)).drop (sk.length + 8) = r := by rw [← List.drop_drop, e1, List.drop_left' (by simp)]
  rw [listsRun, if_neg (by simp), e1, e2, e3, decodeU64_encU64]

theorem split_list {d : Bytes} {g : Nat} (h : g + 8 ≤ d.length) : ∃ sk n r, d = sk ++ (encU64 n ++ r) ∧ sk.length = g := by
  refine ⟨d.take g, decodeU64 ((d.drop g).take 8), (d.drop g).drop 8, ?_, by simp; omega⟩
  rw [encU64_decodeU64 _ (by simp; omega), List.take_append_drop, List.take_append_drop]

theorem listsRun_ub_iff {cfg : Cfg} (gaps : List Nat) (d : Bytes) : listsRun cfg gaps (some d) = .ub ↔ ListsUndefined cfg gaps d := by
  induction gaps generalizing d with
  | nil => exact ⟨(fun h => by cases h), fun h => by cases h⟩
  | cons g gaps ih =>
    by_cases hd : d.length < g + 8
    · exact ⟨fun _ => .length hd, fun _ => by unfold listsRun; rw [if_pos hd]⟩
    obtain ⟨sk, n, r, rfl, hsk⟩ := split_list (d := d) (g := g) (by omega)
    rw [listsRun_cons hsk]
    have inv : ListsUndefined cfg (g :: gaps) (sk ++ (encU64 n ++ r)) → n.toNat ≤ cfg.maxCount ∧
        ((gaps ≠ [] ∧ r.length < 4 * n.toNat) ∨ (4 * n.toNat ≤ r.length ∧ ListsUndefined cfg gaps (r.drop (4 * n.toNat)))) := by
      generalize hx : sk ++ (encU64 n ++ r) = x at hd
      intro h
      cases h with
      | length h => exact absurd h hd
      | tags h1 h2 h3 =>
        obtain ⟨-, h⟩ := List.append_inj hx (by omega)
        obtain ⟨rfl, rfl⟩ := encU64_append_inj h
        exact ⟨h2, Or.inl ⟨by simp, h3⟩⟩
      | next h1 h2 h3 h4 =>
        obtain ⟨-, h⟩ := List.append_inj hx (by omega)
        obtain ⟨rfl, rfl⟩ := encU64_append_inj h
        exact ⟨h2, Or.inr ⟨h3, h4⟩⟩
    by_cases hn : n.toNat ≤ cfg.maxCount
    swap
    · rw [if_neg hn]
      exact ⟨(fun h => by cases h), fun h => absurd (inv h).1 hn⟩
    rw [if_pos hn]
    by_cases hr : 4 * n.toNat ≤ r.length
    · rw [if_pos hr, ih]
      refine ⟨fun h => .next hsk hn hr h, fun h => ?_⟩
      rcases (inv h).2 with h | h
      · omega
      · exact h.2
    · rw [if_neg hr]
      cases gaps with
      | nil =>
        refine ⟨(fun h => by cases h), fun h => ?_⟩
        rcases (inv h).2 with h | h
        · exact absurd rfl h.1
        · exact absurd h.1 hr
      | cons g' gaps => exact ⟨fun _ => .tags hsk hn (by omega), fun _ => rfl⟩

theorem listsRun_append {cfg : Cfg} (a b : List Nat) (x : Option Bytes) : listsRun cfg (a ++ b) x = (listsRun cfg a x >>= listsRun cfg b) := by
  induction a generalizing x with
  | nil => rfl
  | cons g a ih =>
    rw [List.cons_append]
    cases x with
    | none => rfl
    | some d =>
      unfold listsRun
      by_cases h : d.length < g + 8
      · rw [if_pos h, if_pos h]; rfl
      · rw [if_neg h, if_neg h]
        by_cases h' : (decodeU64 ((d.drop g).take 8)).toNat ≤ cfg.maxCount
        · rw [if_pos h', if_pos h', ih]
        · rw [if_neg h', if_neg h']; rfl

/-- What a reader does to the stream. -/
def endOf : Outcome (α × Stream) → Outcome Stream
  | .ok (_, s) => .ok s
  | .throw e => .throw e
  | .abort => .abort
  | .ub => .ub
  | .hang => .hang

theorem endOf_ub {o : Outcome (α × Stream)} : endOf o = .ub ↔ o = .ub := by cases o <;> simp [endOf]

/-- The reader reads lists of tags. -/
def Follows (cfg : Cfg) (m : Rd α) (gaps : List Nat) : Prop := ∀ x, endOf (m (restStream x)) = (listsRun cfg gaps x >>= fun y => .ok (restStream y))

theorem Follows.pure (cfg : Cfg) (a : α) : Follows cfg (pure a : Rd α) [] := fun _ => rfl

theorem Follows.bind {cfg : Cfg} {m : Rd α} {f : α → Rd β} {g1 g2 : List Nat} (hm : Follows cfg m g1) (hf : ∀ a, Follows cfg (f a) g2) :
    Follows cfg (m >>= f) (g1 ++ g2) := by
  intro x
  rw [listsRun_append, Rd.bind_def]
  have h := hm x
  cases e : listsRun cfg g1 x with
  | ok y =>
    rw [e] at h
    cases e' : m (restStream x) with
    | ok p =>
      obtain ⟨a, s⟩ := p
      rw [e'] at h
      have : s = restStream y := by cases h; rfl
      subst this
      exact hf a y
    | throw => rw [e'] at h; cases h
    | abort => rw [e'] at h; cases h
    | ub => rw [e'] at h; cases h
    | hang => rw [e'] at h; cases h
  | throw z =>
    rw [e] at h
    cases e' : m (restStream x) with
    | throw => rw [e'] at h; cases h; rfl
    | ok p => rw [e'] at h; cases h
    | abort => rw [e'] at h; cases h
    | ub => rw [e'] at h; cases h
    | hang => rw [e'] at h; cases h
  | ub =>
    rw [e] at h
    cases e' : m (restStream x) with
    | ub => rfl
    | ok p => rw [e'] at h; cases h
    | throw => rw [e'] at h; cases h
    | abort => rw [e'] at h; cases h
    | hang => rw [e'] at h; cases h
  | abort =>
    rw [e] at h
    cases e' : m (restStream x) with
    | abort => rfl
    | ok p => rw [e'] at h; cases h
    | throw => rw [e'] at h; cases h
    | ub => rw [e'] at h; cases h
    | hang => rw [e'] at h; cases h
  | hang =>
    rw [e] at h
    cases e' : m (restStream x) with
    | hang => rfl
    | ok p => rw [e'] at h; cases h
    | throw => rw [e'] at h; cases h
    | ub => rw [e'] at h; cases h
    | abort => rw [e'] at h; cases h

theorem Follows.forEach {cfg : Cfg} {f : α → Rd α} {g : List Nat} (hf : ∀ a, Follows cfg (f a) g) (l : List α) :
    Follows cfg (forEach f l) (List.replicate l.length g).flatten := by
  induction l with
  | nil => exact Follows.pure cfg _
  | cons a l ih =>
    unfold MshIO.forEach
    rw [List.length_cons, List.replicate_succ, List.flatten_cons]
    refine Follows.bind (hf a) fun b => ?_
    have := Follows.bind ih (fun l' => Follows.pure cfg (b :: l'))
    rwa [List.append_nil] at this

/-- The reader reads so many bytes. -/
def Skips (m : Rd α) (k : Nat) : Prop := ∀ n d, ∃ a, m (after n d) = .ok (a, after (n + k) d)

theorem skips_readInt (x : Int32) : Skips (readInt x) 4 := by
  intro n d
  unfold readInt
  obtain ⟨b, hb⟩ := readRaw_after2 (encI32 x) n d
  rw [encI32_length] at hb
  exact ⟨_, by rw [Rd.bind_ok hb]; rfl⟩

theorem skips_readDouble (x : Double) : Skips (readDouble x) 8 := by
  intro n d
  unfold readDouble
  obtain ⟨b, hb⟩ := readRaw_after2 (encU64 x.bits) n d
  rw [encU64_length] at hb
  exact ⟨_, by rw [Rd.bind_ok hb]; rfl⟩

/-- The reader reads lists of tags, `j` bytes before the first one having been read. -/
def FollowsFrom (cfg : Cfg) (m : Rd α) (j g : Nat) (gaps : List Nat) : Prop :=
  (∀ d, endOf (m (after j d)) = (listsRun cfg (g :: gaps) (some d) >>= fun y => .ok (restStream y))) ∧ m spent = .ub

theorem FollowsFrom.follows {cfg : Cfg} {m : Rd α} {g : Nat} {gaps : List Nat} (h : FollowsFrom cfg m 0 g gaps) : Follows cfg m (g :: gaps) := by
  intro x
  cases x with
  | none =>
    show endOf (m spent) = _
    rw [h.2]
    rfl
  | some d =>
    have := h.1 d
    rwa [after_zero] at this

theorem FollowsFrom.skip {cfg : Cfg} {m : Rd α} {f : α → Rd β} {j k g : Nat} {gaps : List Nat} (hm : Skips m k) (hf : ∀ a, FollowsFrom cfg (f a) (j + k) g gaps) :
    FollowsFrom cfg (m >>= f) j g gaps := by
  constructor
  · intro d
    obtain ⟨a, h⟩ := hm j d
    rw [Rd.bind_ok h]
    exact (hf a).1 d
  · obtain ⟨a, h⟩ := hm 1 []
    have e1 : after 1 ([] : Bytes) = spent := rfl
    have e2 : after (1 + k) ([] : Bytes) = spent := after_spent (by simp)
    rw [e1, e2] at h
    rw [Rd.bind_ok h]
    exact (hf a).2

theorem readSizeVar_gs {d : Bytes} (h : 8 ≤ d.length) : readSizeVar (gs d) = .ok (some (decodeU64 (d.take 8)), gs (d.drop 8)) := by
  simp [readSizeVar, Stream.good, h]

theorem readSizeVar_short {d : Bytes} (h : d.length < 8) : readSizeVar (gs d) = .ok (none, spent) := by
  simp [readSizeVar, Stream.good, Nat.not_le.mpr h]

theorem readSizeVar_spent : readSizeVar spent = .ok (none, spent) := by simp [readSizeVar, Stream.good]

theorem assertGood_release {cfg : Cfg} (ha : cfg.asserts = false) (s : Stream) : assertGood cfg s = .ok ((), s) := by simp [assertGood, ha]

theorem FollowsFrom.list {cfg : Cfg} (ha : cfg.asserts = false) (v : List Int32) {f : List Int32 → Rd β} {g : Nat} {gaps : List Nat} (hf : ∀ a, Follows cfg (f a) gaps) :
    FollowsFrom cfg (loadIntListBinary cfg v >>= f) g g gaps := by
  have cut : ∀ s, readSizeVar s = .ok (none, spent) → (loadIntListBinary cfg v >>= f) s = .ub := by
    intro s h
    have : loadIntListBinary cfg v s = .ub := by
      unfold loadIntListBinary
      rw [Rd.bind_ok h, Rd.bind_ok (assertGood_release ha _)]
      rfl
    rw [Rd.bind_def, this]
  refine ⟨fun d => ?_, cut _ readSizeVar_spent⟩
  by_cases hd : d.length < g + 8
  · have : readSizeVar (after g d) = .ok (none, spent) := by
      by_cases hg : g ≤ d.length
      · rw [after_gs hg, readSizeVar_short (by simp; omega)]
      · rw [after_spent (by omega), readSizeVar_spent]
    rw [cut _ this]
    unfold listsRun
    rw [if_pos hd]
    rfl
  obtain ⟨sk, n, r, rfl, rfl⟩ := split_list (d := d) (g := g) (by omega)
  rw [listsRun_cons rfl, after_gs (by simp)]
  have e1 : (sk ++ (encU64 n ++ r)).drop sk.length = encU64 n ++ r := by simp
  have hs : readSizeVar (gs (encU64 n ++ r)) = .ok (some n, gs r) := by
    rw [readSizeVar_gs (by simp), List.take_left' (by simp), List.drop_left' (by simp), decodeU64_encU64]
  rw [e1]
  by_cases hn : n.toNat ≤ cfg.maxCount
  · obtain ⟨l, hl, hl'⟩ := vecResize_runs hn v 0
    obtain ⟨l2, hl2, -⟩ := readInts_after l 0 r
    rw [after_zero, Nat.zero_add, hl'] at hl2
    have : loadIntListBinary cfg v (gs (encU64 n ++ r)) = .ok (l2, after (4 * n.toNat) r) := by
      unfold loadIntListBinary
      rw [Rd.bind_ok hs, Rd.bind_ok (assertGood_release ha _), Rd.bind_ok (useVar_some _ _),
        Rd.bind_ok (show resize cfg v n 0 (gs r) = .ok (l, gs r) by unfold resize; rw [hl]; rfl), Rd.bind_ok hl2, Rd.bind_ok (assertGood_release ha _)]
      rfl
    rw [Rd.bind_ok this, if_pos hn]
    have := hf l2 (if 4 * n.toNat ≤ r.length then some (r.drop (4 * n.toNat)) else .none)
    rw [← this]
    congr 2
    unfold after
    split <;> rfl
  · have : loadIntListBinary cfg v (gs (encU64 n ++ r)) = .throw .alloc := by
      unfold loadIntListBinary
      rw [Rd.bind_ok hs, Rd.bind_ok (assertGood_release ha _), Rd.bind_ok (useVar_some _ _), Rd.bind_def]
      have : resize cfg v n 0 (gs r) = .throw .alloc := by unfold resize vecResize; rw [if_neg hn]; rfl
      rw [this]
    rw [Rd.bind_def, this, if_neg hn]
    rfl

theorem follows_point {cfg : Cfg} (ha : cfg.asserts = false) (p : PointEntity) : Follows cfg (loadPointBinary cfg p) [4 + 3 * 8] := by
  unfold loadPointBinary
  refine FollowsFrom.follows (FollowsFrom.skip (skips_readInt _) fun _ => FollowsFrom.skip (skips_readDouble _) fun _ => FollowsFrom.skip (skips_readDouble _) fun _ =>
    FollowsFrom.skip (skips_readDouble _) fun _ => FollowsFrom.list ha _ fun _ => Follows.pure cfg _)

theorem follows_box {cfg : Cfg} (ha : cfg.asserts = false) (p : BoxEntity) : Follows cfg (loadBoxBinary cfg p) [4 + 6 * 8, 0] := by
  unfold loadBoxBinary
  refine FollowsFrom.follows (FollowsFrom.skip (skips_readInt _) fun _ => FollowsFrom.skip (skips_readDouble _) fun _ => FollowsFrom.skip (skips_readDouble _) fun _ =>
    FollowsFrom.skip (skips_readDouble _) fun _ => FollowsFrom.skip (skips_readDouble _) fun _ => FollowsFrom.skip (skips_readDouble _) fun _ => FollowsFrom.skip (skips_readDouble _) fun _ =>
    FollowsFrom.list ha _ fun _ => FollowsFrom.follows (FollowsFrom.list ha _ fun _ => Follows.pure cfg _))

/-- The part of `loadEntitiesBinary41` after the counts. -/
def entitiesTail (cfg : Cfg) (points : List PointEntity) (curves surfaces volumes : List BoxEntity) : Rd Entities := do
  let points ← forEach (loadPointBinary cfg) points
  let curves ← forEach (loadBoxBinary cfg) curves
  let surfaces ← forEach (loadBoxBinary cfg) surfaces
  let volumes ← forEach (loadBoxBinary cfg) volumes
  return { points, curves, surfaces, volumes }

theorem follows_tail {cfg : Cfg} (ha : cfg.asserts = false) (p : List PointEntity) (c s v : List BoxEntity) :
    Follows cfg (entitiesTail cfg p c s v) (List.replicate p.length (4 + 3 * 8) ++ (List.replicate (c.length + s.length + v.length) [4 + 6 * 8, 0]).flatten) := by
  have e : List.replicate p.length (4 + 3 * 8) ++ (List.replicate (c.length + s.length + v.length) [4 + 6 * 8, 0]).flatten =
      (List.replicate p.length [4 + 3 * 8]).flatten ++ ((List.replicate c.length [4 + 6 * 8, 0]).flatten ++ ((List.replicate s.length [4 + 6 * 8, 0]).flatten ++
        ((List.replicate v.length [4 + 6 * 8, 0]).flatten ++ []))) := by
    rw [List.append_nil, List.replicate_add, List.replicate_add, List.flatten_append, List.flatten_append, List.append_assoc]
    congr 1
    induction p.length with
    | zero => rfl
    | succ n ih => rw [List.replicate_succ, List.replicate_succ, List.flatten_cons, ← ih]; rfl
  rw [e]
  unfold entitiesTail
  exact (Follows.forEach (follows_point ha) p).bind fun _ => (Follows.forEach (follows_box ha) c).bind fun _ => (Follows.forEach (follows_box ha) s).bind fun _ =>
    (Follows.forEach (follows_box ha) v).bind fun _ => Follows.pure cfg _

theorem counts_resize {cfg : Cfg} {v : List α} {x : α} {n : UInt64} {f : List α → Rd β} {s : Stream} {Q : Prop} (hf : ∀ l, l.length = n.toNat → (f l s = .ub ↔ Q)) :
    (useVar (some n) >>= fun n => resize cfg v n x >>= f) s = .ub ↔ n.toNat ≤ cfg.maxCount ∧ Q := by
  rw [Rd.bind_ok (useVar_some _ _)]
  by_cases hn : n.toNat ≤ cfg.maxCount
  · obtain ⟨l, hl, hl'⟩ := vecResize_runs hn v x
    rw [Rd.bind_ok (show resize cfg v n x s = .ok (l, s) by unfold resize; rw [hl]; rfl), hf l hl']
    exact ⟨fun h => ⟨hn, h⟩, fun h => h.2⟩
  · have : resize cfg v n x s = .throw .alloc := by unfold resize vecResize; rw [if_neg hn]; rfl
    rw [Rd.bind_def, this]
    exact ⟨(fun h => by cases h), fun h => absurd h.1 hn⟩

/-- The part of `loadEntitiesBinary41` in which the counts are used. -/
def entitiesCounts (cfg : Cfg) (e : Entities) (np nc ns nv : Option UInt64) : Rd Entities := do
  let points ← resize cfg e.points (← useVar np) {}
  let curves ← resize cfg e.curves (← useVar nc) {}
  let surfaces ← resize cfg e.surfaces (← useVar ns) {}
  let volumes ← resize cfg e.volumes (← useVar nv) {}
  entitiesTail cfg points curves surfaces volumes

theorem counts_four {cfg : Cfg} (ha : cfg.asserts = false) (e : Entities) (p c s v : UInt64) (r : Bytes) :
    entitiesCounts cfg e (some p) (some c) (some s) (some v) (gs r) = .ub ↔ (∀ n ∈ [p, c, s, v], n.toNat ≤ cfg.maxCount) ∧
      ListsUndefined cfg (List.replicate p.toNat (4 + 3 * 8) ++ (List.replicate (c.toNat + s.toNat + v.toNat) [4 + 6 * 8, 0]).flatten) r := by
  unfold entitiesCounts
  refine (counts_resize fun lp hp => counts_resize fun lc hc => counts_resize fun ls hs => counts_resize (Q := ListsUndefined cfg (List.replicate p.toNat (4 + 3 * 8) ++
    (List.replicate (c.toNat + s.toNat + v.toNat) [4 + 6 * 8, 0]).flatten) r) fun lv hv => ?_).trans ?_
  · have h := follows_tail ha lp lc ls lv (some r)
    rw [hp, hc, hs, hv] at h
    rw [← endOf_ub, show gs r = restStream (some r) from rfl, h, ← listsRun_ub_iff]
    constructor
    · intro h
      cases e : listsRun cfg (List.replicate p.toNat (4 + 3 * 8) ++ (List.replicate (c.toNat + s.toNat + v.toNat) [4 + 6 * 8, 0]).flatten) (some r) with
      | ub => rfl
      | ok => rw [e] at h; cases h
      | throw => rw [e] at h; cases h
      | abort => rw [e] at h; cases h
      | hang => rw [e] at h; cases h
    · intro h
      rw [h]
      rfl
  · simp only [List.mem_cons, List.not_mem_nil, or_false, forall_eq_or_imp, forall_eq, and_assoc]

theorem counts_none (o : Option UInt64) (ho : o = none) {f : UInt64 → Rd β} {s : Stream} : (useVar o >>= f) s = .ub := by
  subst ho
  rfl

theorem counts_short {cfg : Cfg} (e : Entities) (counts : List UInt64) (h : counts.length < 4) (s : Stream) :
    entitiesCounts cfg e counts[0]? counts[1]? counts[2]? counts[3]? s = .ub ↔ ∀ n ∈ counts, n.toNat ≤ cfg.maxCount := by
  unfold entitiesCounts
  rcases counts with _ | ⟨p, _ | ⟨c, _ | ⟨v, _ | ⟨w, t⟩⟩⟩⟩
  · exact ⟨(fun _ n hn => by cases hn), fun _ => rfl⟩
  · refine (counts_resize (Q := True) fun _ _ => ⟨fun _ => trivial, fun _ => rfl⟩).trans ?_
    simp
  · refine (counts_resize fun _ _ => counts_resize (Q := True) fun _ _ => ⟨fun _ => trivial, fun _ => rfl⟩).trans ?_
    simp
  · refine (counts_resize fun _ _ => counts_resize fun _ _ => counts_resize (Q := True) fun _ _ => ⟨fun _ => trivial, fun _ => rfl⟩).trans ?_
    simp
  · exact absurd h (by simp only [List.length_cons]; omega)

theorem sizeVar_some {n : UInt64} {r : Bytes} {st : Stream} (h : st = gs (encU64 n ++ r) ∨ (encU64 n ++ r = [] ∧ st.good = false)) :
    readSizeVar st = .ok (some n, gs r) := by
  rcases h with rfl | ⟨h, -⟩
  · rw [readSizeVar_gs (by simp), List.take_left' (by simp), List.drop_left' (by simp), decodeU64_encU64]
  · have := congrArg List.length h
    simp at this

theorem sizeVar_none {r : Bytes} {st : Stream} (hr : r.length < 8) (h : st = gs r ∨ (r = [] ∧ st.good = false)) : ∃ st', readSizeVar st = .ok (none, st') ∧ st'.good = false := by
  rcases h with rfl | ⟨-, h⟩
  · exact ⟨spent, readSizeVar_short hr, rfl⟩
  · exact ⟨_, readSizeVar_bad h, by simp [Stream.good]⟩

theorem split_counts (d : Bytes) : ∀ k, ∃ (counts : List UInt64) (r : Bytes), d = counts.flatMap encU64 ++ r ∧ (counts.length = k ∨ (counts.length < k ∧ r.length < 8)) := by
  intro k
  induction k with
  | zero => exact ⟨[], d, rfl, Or.inl rfl⟩
  | succ k ih =>
    obtain ⟨counts, r, rfl, h | h⟩ := ih
    · by_cases hr : r.length < 8
      · exact ⟨counts, r, rfl, Or.inr ⟨by omega, hr⟩⟩
      · obtain ⟨sk, n, t, rfl, hsk⟩ := split_list (d := r) (g := 0) (by omega)
        have : sk = [] := List.length_eq_zero_iff.mp hsk
        subst this
        exact ⟨counts ++ [n], t, by simp, Or.inl (by simp [h])⟩
    · exact ⟨counts, r, rfl, Or.inr ⟨by omega, h.2⟩⟩

/-- `loadEntitiesBinary41` after the white space. -/
def entitiesData (cfg : Cfg) (e : Entities) : Rd Entities := do
  let np ← readSizeVar
  let nc ← readSizeVar
  let ns ← readSizeVar
  let nv ← readSizeVar
  assertGood cfg
  entitiesCounts cfg e np nc ns nv

theorem entitiesData_short {cfg : Cfg} (ha : cfg.asserts = false) (e : Entities) (counts : List UInt64) (h : counts.length < 4) {r : Bytes} (hr : r.length < 8) {st : Stream}
    (hst : st = gs (counts.flatMap encU64 ++ r) ∨ (counts.flatMap encU64 ++ r = [] ∧ st.good = false)) :
    entitiesData cfg e st = .ub ↔ ∀ n ∈ counts, n.toNat ≤ cfg.maxCount := by
  rw [← counts_short e counts h spent]
  unfold entitiesData
  have bad : ∀ {t : Stream}, t.good = false → readSizeVar t = .ok (none, { t with fail := true }) := readSizeVar_bad
  rcases counts with _ | ⟨p, _ | ⟨c, _ | ⟨v, _ | ⟨w, t⟩⟩⟩⟩
  · obtain ⟨s1, e1, g1⟩ := sizeVar_none hr hst
    rw [Rd.bind_ok e1, Rd.bind_ok (bad g1), Rd.bind_ok (bad (by simp [Stream.good])), Rd.bind_ok (bad (by simp [Stream.good])), Rd.bind_ok (assertGood_release ha _)]
    exact ⟨fun _ => rfl, fun _ => rfl⟩
  · simp only [List.flatMap_cons, List.flatMap_nil, List.append_nil, List.append_assoc] at hst
    obtain ⟨s1, e1, g1⟩ := sizeVar_none hr (Or.inl rfl : gs r = gs r ∨ _)
    rw [Rd.bind_ok (sizeVar_some hst), Rd.bind_ok e1, Rd.bind_ok (bad g1), Rd.bind_ok (bad (by simp [Stream.good])), Rd.bind_ok (assertGood_release ha _)]
    exact (counts_short e [p] (by simp) _).trans (counts_short e [p] (by simp) _).symm
  · simp only [List.flatMap_cons, List.flatMap_nil, List.append_nil, List.append_assoc] at hst
    obtain ⟨s1, e1, g1⟩ := sizeVar_none hr (Or.inl rfl : gs r = gs r ∨ _)
    rw [Rd.bind_ok (sizeVar_some hst), Rd.bind_ok (sizeVar_some (Or.inl rfl)), Rd.bind_ok e1, Rd.bind_ok (bad g1), Rd.bind_ok (assertGood_release ha _)]
    exact (counts_short e [p, c] (by simp) _).trans (counts_short e [p, c] (by simp) _).symm
  · simp only [List.flatMap_cons, List.flatMap_nil, List.append_nil, List.append_assoc] at hst
    obtain ⟨s1, e1, g1⟩ := sizeVar_none hr (Or.inl rfl : gs r = gs r ∨ _)
    rw [Rd.bind_ok (sizeVar_some hst), Rd.bind_ok (sizeVar_some (Or.inl rfl)), Rd.bind_ok (sizeVar_some (Or.inl rfl)), Rd.bind_ok e1, Rd.bind_ok (assertGood_release ha _)]
    exact (counts_short e [p, c, v] (by simp) _).trans (counts_short e [p, c, v] (by simp) _).symm
  · exact absurd h (by simp only [List.length_cons]; omega)

theorem entitiesData_four {cfg : Cfg} (ha : cfg.asserts = false) (e : Entities) (p c s v : UInt64) {r : Bytes} {st : Stream}
    (hst : st = gs ([p, c, s, v].flatMap encU64 ++ r) ∨ ([p, c, s, v].flatMap encU64 ++ r = [] ∧ st.good = false)) :
    entitiesData cfg e st = .ub ↔ (∀ n ∈ [p, c, s, v], n.toNat ≤ cfg.maxCount) ∧
      ListsUndefined cfg (List.replicate p.toNat (4 + 3 * 8) ++ (List.replicate (c.toNat + s.toNat + v.toNat) [4 + 6 * 8, 0]).flatten) r := by
  simp only [List.flatMap_cons, List.flatMap_nil, List.append_nil, List.append_assoc] at hst
  unfold entitiesData
  rw [Rd.bind_ok (sizeVar_some hst), Rd.bind_ok (sizeVar_some (Or.inl rfl)), Rd.bind_ok (sizeVar_some (Or.inl rfl)), Rd.bind_ok (sizeVar_some (Or.inl rfl)),
    Rd.bind_ok (assertGood_release ha _), counts_four ha]

theorem entitiesData_ub_iff {cfg : Cfg} (ha : cfg.asserts = false) (e : Entities) {d : Bytes} {st : Stream} (hst : st = gs d ∨ (d = [] ∧ st.good = false)) :
    entitiesData cfg e st = .ub ↔ EntitiesUndefined cfg d := by
  constructor
  · intro h
    obtain ⟨counts, r, rfl, hk | ⟨hk, hr⟩⟩ := split_counts d 4
    · obtain ⟨p, c, s, v, rfl⟩ : ∃ p c s v, counts = [p, c, s, v] := by
        rcases counts with _ | ⟨p, _ | ⟨c, _ | ⟨s, _ | ⟨v, _ | ⟨w, t⟩⟩⟩⟩⟩ <;> simp at hk
        exact ⟨p, c, s, v, rfl⟩
      obtain ⟨h1, h2⟩ := (entitiesData_four ha e p c s v hst).mp h
      exact Or.inr ⟨p, c, s, v, r, rfl, h1, h2⟩
    · exact Or.inl ⟨counts, r, rfl, (entitiesData_short ha e counts hk hr hst).mp h, hk, hr⟩
  · rintro (⟨counts, r, rfl, h, hk, hr⟩ | ⟨p, c, s, v, r, rfl, h1, h2⟩)
    · exact (entitiesData_short ha e counts hk hr hst).mpr h
    · exact (entitiesData_four ha e p c s v hst).mpr ⟨h1, h2⟩

theorem not_skipped {c : UInt8} (h : ¬ Skipped c) : isEatSpace c = false := by
  have : isEatSpace c = true → Skipped c := by
    unfold isEatSpace Skipped
    simp only [Bool.or_eq_true, beq_iff_eq]
    tauto
  simpa using fun h' => h (this h')

theorem eat_data {r d : Bytes} (h : DataAfter r d) : ∃ st, eatWhiteSpace 1 (payload r) = .ok ((), st) ∧ (st = gs d ∨ (d = [] ∧ st.good = false)) := by
  rcases h with ⟨c, rfl, hc⟩ | ⟨rfl, hd⟩
  · rw [payload_ne (by simp)]
    refine ⟨_, eat_payload hc.eat d, ?_⟩
    by_cases hd : d = []
    · subst hd; exact Or.inr ⟨rfl, rfl⟩
    · exact Or.inl (payload_ne hd)
  · cases d with
    | nil => exact ⟨_, rfl, Or.inr ⟨rfl, rfl⟩⟩
    | cons c d =>
      refine ⟨gs (c :: d), ?_, Or.inl rfl⟩
      have := not_skipped (hd c rfl)
      rw [payload_ne (by simp)]
      simp [eatWhiteSpace, Stream.good, eatLoop, this]

theorem entitiesBinary_ub_iff {cfg : Cfg} (ha : cfg.asserts = false) (e : Entities) {r d : Bytes} (h : DataAfter r d) :
    loadEntitiesBinary41 cfg e (payload r) = .ub ↔ EntitiesUndefined cfg d := by
  obtain ⟨st, h1, h2⟩ := eat_data h
  rw [← entitiesData_ub_iff ha e h2]
  unfold loadEntitiesBinary41
  rw [Rd.bind_ok h1]
  rfl

theorem dataAfter_exists (r : Bytes) : ∃ d, DataAfter r d := by
  cases r with
  | nil => exact ⟨[], Or.inr ⟨rfl, fun _ h => by cases h⟩⟩
  | cons c r =>
    by_cases h : Skipped c
    · exact ⟨r, Or.inl ⟨c, rfl, h⟩⟩
    · exact ⟨c :: r, Or.inr ⟨rfl, fun x hx => by cases hx; exact h⟩⟩

/-! ## Text -/

theorem lastSep_suffix (w : Bytes) (ps : List (Bytes × Bytes)) : lastSep w ps <:+ w ++ flat ps := by
  induction ps generalizing w with
  | nil => simp [lastSep, flat]
  | cons q ps ih =>
    refine (ih q.2).trans ⟨w ++ q.1, ?_⟩
    simp [flat]

theorem TextEntities.read {cfg : Cfg} {r : Bytes} (h : TextEntities cfg r) {f : MeshFormat} (hv : f.version = b! "4.1") (ht : f.fileType = 0) (e : Entities) :
    ∃ e' c d, loadEntities cfg f e (gs r) = .ok (e', gs (c :: d)) ∧ isSpace c = true ∧ c :: d <:+ r := by
  obtain ⟨lead, words, t, P, e0, rfl, hl, hw, hwords, hp, hs⟩ := h
  have hlt := cfg.maxCount_lt
  have hsz : ∀ n ∈ e0.sizes, n ≤ cfg.maxCount := fun n hn => hs n (by simp only [MshSpec.sizes, Entities.sizes, List.mem_append, List.mem_cons] at hn ⊢; tauto)
  have hk := loadEntitiesAscii41_reads (cfg.withFmt P) (rd := reread P) e0 (fun x hx => (hp x (by simp only [MshSpec.doubles, Entities.doubles, List.mem_append] at hx ⊢; tauto)).dtok) hsz
  have hk := hk words (by
    rw [hwords, entitiesLines_flatten]
    exact (entitiesToks_eq P e0 fun n hn => by have := hsz n hn; omega).symm) hw lead t hl
  rw [loadEntitiesAscii41_prec] at hk
  have hne : words ≠ [] := by
    rintro rfl
    rw [entitiesLines_flatten] at hwords
    simp [entitiesWords] at hwords
  obtain ⟨q, hq⟩ : ∃ q ∈ words, lastSep lead words = q.2 := lastSep_of_ne (P := fun s => ∃ q ∈ words, s = q.2) hne fun q hq => ⟨q, hq, rfl⟩
  obtain ⟨hq, hq'⟩ := hq
  obtain ⟨hb, hbne⟩ := hw q hq
  cases hc : q.2 with
  | nil => exact absurd hc hbne
  | cons c x =>
    rw [hq', hc] at hk
    have e1 : Spaced lead words ++ t = lead ++ flat words ++ t := by simp [Spaced, flat, List.flatMap_def]
    have h1 : loadEntities cfg f {} (gs (Spaced lead words ++ t)) = .ok (e0.convert (reread P), gs (c :: (x ++ t))) := by
      unfold loadEntities
      rw [if_pos hv, if_pos ht, e1]
      exact hk
    obtain ⟨b, h2, -⟩ := (alike_entities cfg hv {} e).all _ _ _ h1 rfl
    refine ⟨b, c, x ++ t, h2, hb c (by rw [hc]; simp), ?_⟩
    obtain ⟨y, hy⟩ := lastSep_suffix lead words
    rw [hq', hc] at hy
    rw [e1, ← hy]
    exact ⟨y, by simp⟩

theorem after_text_entities {F : Ends} {cfg : Cfg} {f : MeshFormat} (hv : f.version = b! "4.1") (ht : f.fileType = 0) {name : Bytes}
    (hd : ∀ r, name ++ r <:+ F.bytes → TextEntities cfg r) (e : Entities) : SafeAfter (fun _ => False) F name (loadEntities cfg f e) fun _ => True := by
  intro r hr hw
  obtain ⟨e', c, d, h, hc, ⟨a, rfl⟩⟩ := (hd r hr).read hv ht e
  have : (⟨a ++ c :: d, (a ++ c :: d).isEmpty, false⟩ : Stream) = gs (a ++ c :: d) := by simp
  rw [this, h]
  refine ⟨(fun h => by cases h), fun _ _ h => ?_⟩
  cases h
  exact ⟨WsNext.at (name := name ++ a) (fun x hx => by cases hx; exact hc) (by simpa using hr), trivial⟩

end MshIO
