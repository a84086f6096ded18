import Verif.Spec.Repeat
import Verif.Proofs.Frame
import Verif.Proofs.PostFile

/-!
# A section read again replaces what was read before

`Alike R p q`: whenever `p` comes back with a stream that has not failed, `q` comes back from the same stream with the same stream, and the results are related by `R`.
-/

namespace MshIO

variable {α β σ : Type}

/-- A failed stream stays failed. -/
structure Sticky (p : Rd α) : Prop where
  of ::
  all : ∀ s a s', p s = .ok (a, s') → s.fail = true → s'.fail = true

theorem Tame.sticky {p : Rd α} (h : Tame p) : Sticky p := ⟨fun s _ _ e hf => (((h.all s).2 _ _ e).fail hf)⟩

theorem Sticky.bind {p : Rd α} {f : α → Rd β} (h1 : Sticky p) (h2 : ∀ a, Sticky (f a)) : Sticky (p >>= f) := by
  refine ⟨fun s a s' e hf => ?_⟩
  obtain ⟨x, s1, e1, e2⟩ := Rd.bind_eq_ok e
  exact (h2 x).all _ _ _ e2 (h1.all _ _ _ e1 hf)

/-- `q` does what `p` does, as long as nothing fails. -/
structure Alike (R : α → β → Prop) (p : Rd α) (q : Rd β) : Prop where
  of ::
  sticky : Sticky p
  all : ∀ s a s', p s = .ok (a, s') → s'.fail = false → ∃ b, q s = .ok (b, s') ∧ R a b

theorem Alike.refl {p : Rd α} (h : Tame p) : Alike Eq p p := ⟨h.sticky, fun _ a _ e _ => ⟨a, e, rfl⟩⟩

theorem Alike.pure {R : α → β → Prop} {a : α} {b : β} (h : R a b) : Alike R (Pure.pure a : Rd α) (Pure.pure b : Rd β) := by
  refine ⟨(Tame.pure _).sticky, fun s a' s' e _ => ?_⟩
  rw [Rd.pure_def] at e; cases e
  exact ⟨b, rfl, h⟩

theorem Alike.bind {α' β' : Type} {R : α → β → Prop} {S : α' → β' → Prop} {p : Rd α} {q : Rd β} {f : α → Rd α'} {g : β → Rd β'}
    (h1 : Alike R p q) (ht : ∀ a, Sticky (f a)) (h2 : ∀ a b, R a b → Alike S (f a) (g b)) : Alike S (p >>= f) (q >>= g) := by
  refine ⟨h1.sticky.bind ht, fun s a s' e hf => ?_⟩
  obtain ⟨x, s1, e1, e2⟩ := Rd.bind_eq_ok e
  have hf1 : s1.fail = false := by
    cases h : s1.fail
    · rfl
    · rw [(ht x).all _ _ _ e2 h] at hf; cases hf
  obtain ⟨y, e3, hr⟩ := h1.all _ _ _ e1 hf1
  obtain ⟨z, e4, hs⟩ := (h2 x y hr).all _ _ _ e2 hf
  exact ⟨z, (Rd.bind_ok e3).trans e4, hs⟩

/-- Sequencing after equal results. -/
theorem Alike.next {α' β' : Type} {S : α' → β' → Prop} {p q : Rd α} {f : α → Rd α'} {g : α → Rd β'}
    (h1 : Alike Eq p q) (h2 : ∀ a, Alike S (f a) (g a)) : Alike S (p >>= f) (q >>= g) :=
  h1.bind (fun a => (h2 a).sticky) fun a b h => h ▸ h2 a

/-- The same start. -/
theorem Alike.same {α' β' : Type} {S : α' → β' → Prop} {p : Rd α} {f : α → Rd α'} {g : α → Rd β'}
    (h1 : Tame p) (h2 : ∀ a, Alike S (f a) (g a)) : Alike S (p >>= f) (p >>= g) := (Alike.refl h1).next h2

theorem alike_getD {x : Rd (Option α)} (hx : Tame x) (hn : ∀ s s', x s = .ok (none, s') → s'.fail = true) (o o' : α) :
    Alike Eq (x >>= fun v => (Pure.pure (v.getD o) : Rd α)) (x >>= fun v => Pure.pure (v.getD o')) := by
  refine ⟨(hx.bind fun _ => Tame.pure _).sticky, fun s a s' e hf => ?_⟩
  obtain ⟨v, s1, e1, e2⟩ := Rd.bind_eq_ok e
  rw [Rd.pure_def] at e2; cases e2
  cases v with
  | none => rw [hn _ _ e1] at hf; cases hf
  | some v => exact ⟨v, Rd.bind_ok e1, rfl⟩

theorem sentry_false {s s' : Stream} (h : sentry s = (false, s')) : s'.fail = true := by
  unfold sentry at h
  split at h
  · split at h <;> cases h; rfl
  · cases h; rfl

theorem extractSize_none {s s' : Stream} (h : extractSize s = .ok (none, s')) : s'.fail = true := by
  unfold extractSize at h
  split at h
  · cases h; exact sentry_false ‹_›
  · simp at h

theorem extractInt_none {s s' : Stream} (h : extractInt s = .ok (none, s')) : s'.fail = true := by
  unfold extractInt at h
  split at h
  · cases h; exact sentry_false ‹_›
  · simp at h

theorem extractDouble_none {s s' : Stream} (h : extractDouble s = .ok (none, s')) : s'.fail = true := by
  unfold extractDouble at h
  split at h
  · cases h; exact sentry_false ‹_›
  · simp at h

theorem alike_inSize (o o' : UInt64) : Alike Eq (inSize o) (inSize o') := alike_getD tame_extractSize (fun _ _ => extractSize_none) o o'
theorem alike_inInt (o o' : Int32) : Alike Eq (inInt o) (inInt o') := alike_getD tame_extractInt (fun _ _ => extractInt_none) o o'
theorem alike_inDouble (o o' : Double) : Alike Eq (inDouble o) (inDouble o') := alike_getD tame_extractDouble (fun _ _ => extractDouble_none) o o'

theorem alike_inString (o o' : Bytes) : Alike Eq (inString o) (inString o') := by
  refine ⟨(tame_inString o).sticky, fun s a s' e hf => ?_⟩
  unfold inString at e ⊢
  split at e <;> rename_i hs
  · cases e; rw [sentry_false hs] at hf; cases hf
  · exact ⟨a, e, rfl⟩

theorem alike_inQuoted (o o' : Bytes) : Alike Eq (inQuoted o) (inQuoted o') := by
  refine ⟨(tame_inQuoted o).sticky, fun s a s' e hf => ?_⟩
  unfold inQuoted at e ⊢
  split at e <;> rename_i hs
  · cases e; rw [sentry_false hs] at hf; cases hf
  · simp only at e ⊢
    split at e
    · exact ⟨a, e, rfl⟩
    · exact (alike_inString o o').all _ _ _ e hf

theorem alike_readRaw {o o' : Bytes} (h : o.length = o'.length) : Alike Eq (readRaw o) (readRaw o') := by
  refine ⟨(tame_readRaw o).sticky, fun s a s' e hf => ?_⟩
  unfold readRaw at e ⊢
  rw [← h]
  split at e
  · split at e
    · rename_i h1 h2; rw [if_pos h1, if_pos h2]; exact ⟨a, e, rfl⟩
    · cases e; cases hf
  · cases e; cases hf

theorem alike_readSize (o o' : UInt64) : Alike Eq (readSize o) (readSize o') :=
  (alike_readRaw (by rfl)).next fun _ => Alike.pure rfl
theorem alike_readInt (o o' : Int32) : Alike Eq (readInt o) (readInt o') :=
  (alike_readRaw (by rfl)).next fun _ => Alike.pure rfl
theorem alike_readDouble (o o' : Double) : Alike Eq (readDouble o) (readDouble o') :=
  (alike_readRaw (by rfl)).next fun _ => Alike.pure rfl

theorem flatMap_len {f : α → Bytes} {k : Nat} (hf : ∀ a, (f a).length = k) (l : List α) : (l.flatMap f).length = k * l.length := by
  induction l with
  | nil => simp
  | cons a l ih => rw [List.flatMap_cons, List.length_append, ih, hf, List.length_cons, Nat.mul_add]; omega

theorem alike_readSizes {o o' : List UInt64} (h : o.length = o'.length) : Alike Eq (readSizes o) (readSizes o') := by
  unfold readSizes
  rw [h]
  exact (alike_readRaw (by rw [flatMap_len (k := 8) (fun _ => rfl), flatMap_len (k := 8) (fun _ => rfl), h])).next fun _ => Alike.pure rfl

theorem alike_readInts {o o' : List Int32} (h : o.length = o'.length) : Alike Eq (readInts o) (readInts o') := by
  unfold readInts
  rw [h]
  exact (alike_readRaw (by rw [flatMap_len (k := 4) (fun _ => rfl), flatMap_len (k := 4) (fun _ => rfl), h])).next fun _ => Alike.pure rfl

theorem alike_readDoubles {o o' : List Double} (h : o.length = o'.length) : Alike Eq (readDoubles o) (readDoubles o') := by
  unfold readDoubles
  rw [h]
  exact (alike_readRaw (by rw [flatMap_len (k := 8) (fun _ => rfl), flatMap_len (k := 8) (fun _ => rfl), h])).next fun _ => Alike.pure rfl

/-- Same length, as resized. -/
def Sized (n : UInt64) (a b : List α) : Prop := a.length = n.toNat ∧ b.length = n.toNat

theorem Sized.eq {n : UInt64} {a b : List α} (h : Sized n a b) : a.length = b.length := h.1.trans h.2.symm

theorem alike_resize (cfg : Cfg) (v v' : List α) (n : UInt64) (d : α) : Alike (Sized n) (resize cfg v n d) (resize cfg v' n d) := by
  refine ⟨(tame_resize ..).sticky, fun s a s' e _ => ?_⟩
  unfold resize vecResize at e ⊢
  by_cases hn : n.toNat ≤ cfg.maxCount
  · rw [if_pos hn] at e ⊢
    cases e
    refine ⟨_, rfl, ?_, ?_⟩ <;> (rw [List.length_append, List.length_take, List.length_replicate]; omega)
  · rw [if_neg hn] at e; cases e

theorem alike_forEach {f : α → Rd α} (h : ∀ a b, Alike Eq (f a) (f b)) {l l' : List α} (hl : l.length = l'.length) : Alike Eq (forEach f l) (forEach f l') := by
  induction l generalizing l' with
  | nil => cases l' with
    | nil => exact Alike.pure rfl
    | cons b l' => cases hl
  | cons a l ih => cases l' with
    | nil => cases hl
    | cons b l' =>
      exact (h a b).next fun _ => (ih (by simpa using hl)).next fun _ => Alike.pure rfl

theorem alike_loopN {R : Nat → σ → σ → Prop} {f : Nat → σ → Rd σ} (n i : Nat) (a b : σ) (hr : R i a b) (ht : ∀ j a, Tame (f j a))
    (h : ∀ j a b, j < i + n → R j a b → Alike (R (j + 1)) (f j a) (f j b)) : Alike (R (i + n)) (loopN f n i a) (loopN f n i b) := by
  induction n generalizing i a b with
  | zero => exact Alike.pure hr
  | succ n ih =>
    refine (h i a b (by omega) hr).bind (fun a => (Tame.loopN ht _ _ _).sticky) fun a b hr => ?_
    have := ih (i + 1) a b hr fun j a b hj => h j a b (by omega)
    rw [show i + (n + 1) = i + 1 + n by omega]
    exact this

/-- Same length `n`, and the same first `m` entries. -/
structure First (n m : Nat) (a b : List α) : Prop where
  lt : n < 2 ^ 64
  left : a.length = n
  right : b.length = n
  take : a.take m = b.take m

theorem First.all {n m : Nat} {a b : List α} (h : First n m a b) (hm : n ≤ m) : a = b := by
  have := h.take
  rwa [List.take_of_length_le (by rw [h.left]; exact hm), List.take_of_length_le (by rw [h.right]; exact hm)] at this

theorem First.set {n m i : Nat} {a b : List α} (h : First n m a b) (hi : i = m % 2 ^ 64) (x : α) : First n (m + 1) (a.set i x) (b.set i x) := by
  refine ⟨h.lt, by rw [List.length_set]; exact h.left, by rw [List.length_set]; exact h.right, ?_⟩
  by_cases hm : m < n
  · rw [Nat.mod_eq_of_lt (by have := h.lt; omega)] at hi
    subst hi
    apply List.ext_getElem?
    intro j
    have := congrArg (·[j]?) h.take
    simp only [List.getElem?_take] at this
    simp only [List.getElem?_take, List.getElem?_set, h.left, h.right]
    by_cases hj : i = j
    · subst hj; simp [hm]
    · by_cases hj' : j < i
      · simpa [hj, hj', Nat.lt_succ_of_lt hj'] using this
      · simp [show ¬ j < i + 1 by omega]
  · rw [h.all (by omega)]

theorem getElem?_len {a b : List α} (h : a.length = b.length) {i : Nat} {x : α} (e : a[i]? = some x) : ∃ y, b[i]? = some y := by
  obtain ⟨hi, -⟩ := List.getElem?_eq_some_iff.1 e
  exact ⟨_, List.getElem?_eq_getElem (h ▸ hi)⟩

theorem alike_inSizeAt {n m : Nat} {i : UInt64} {a b : List UInt64} (h : First n m a b) (hi : i.toNat = m % 2 ^ 64) :
    Alike (First n (m + 1)) (inSizeAt i a) (inSizeAt i b) := by
  unfold inSizeAt
  cases e : a[i.toNat]? with
  | none => exact ⟨Tame.ub.sticky, fun _ _ _ e _ => by cases e⟩
  | some x =>
    obtain ⟨y, e'⟩ := getElem?_len (h.left.trans h.right.symm) e
    rw [e']
    exact (alike_inSize x y).next fun v => Alike.pure (h.set hi v)

theorem alike_inDoubleAt {n m : Nat} {i : UInt64} {a b : List Double} (h : First n m a b) (hi : i.toNat = m % 2 ^ 64) :
    Alike (First n (m + 1)) (inDoubleAt i a) (inDoubleAt i b) := by
  unfold inDoubleAt
  cases e : a[i.toNat]? with
  | none => exact ⟨Tame.ub.sticky, fun _ _ _ e _ => by cases e⟩
  | some x =>
    obtain ⟨y, e'⟩ := getElem?_len (h.left.trans h.right.symm) e
    rw [e']
    exact (alike_inDouble x y).next fun v => Alike.pure (h.set hi v)

/-- Filling a table row by row. -/
theorem alike_grid {at' : UInt64 → List α → Rd (List α)} (ht : ∀ i v, Tame (at' i v))
    (hat : ∀ {n m : Nat} {i : UInt64} {a b : List α}, First n m a b → i.toNat = m % 2 ^ 64 → Alike (First n (m + 1)) (at' i a) (at' i b))
    {e num : UInt64} {m : Nat} (hm : m = e.toNat) {a b : List α} (hs : Sized (num * e) a b) :
    Alike Eq (loopN (fun j data => loopN (fun k data => at' (UInt64.ofNat j * e + UInt64.ofNat k) data) m 0 data) num.toNat 0 a)
      (loopN (fun j data => loopN (fun k data => at' (UInt64.ofNat j * e + UInt64.ofNat k) data) m 0 data) num.toNat 0 b) := by
  subst hm
  have h := alike_loopN (R := fun j a b => First (num * e).toNat (j * e.toNat) a b) num.toNat 0 a b ⟨UInt64.toNat_lt _, hs.1, hs.2, by simp⟩
    (fun j a => Tame.loopN (fun k a => ht _ a) _ _ _)
    (f := fun j data => loopN (fun k data => at' (UInt64.ofNat j * e + UInt64.ofNat k) data) e.toNat 0 data) (by
      intro j a b hj hr
      have := alike_loopN (R := fun k a b => First (num * e).toNat (j * e.toNat + k) a b) e.toNat 0 a b hr (fun k a => ht _ a)
        (f := fun k data => at' (UInt64.ofNat j * e + UInt64.ofNat k) data) (by
          intro k a b hk hr
          refine hat hr ?_
          rw [UInt64.toNat_add, UInt64.toNat_mul, UInt64.toNat_ofNat', UInt64.toNat_ofNat']
          have h1 := UInt64.toNat_lt num
          have h2 := UInt64.toNat_lt e
          rw [Nat.mod_eq_of_lt (a := j) (by omega), Nat.mod_eq_of_lt (a := k) (by omega), Nat.mod_add_mod]
          rfl)
      rw [Nat.zero_add, show j * e.toNat + e.toNat = (j + 1) * e.toNat by rw [Nat.add_mul, Nat.one_mul]] at this
      exact this)
  refine ⟨h.sticky, fun s a' s' e1 hf => ?_⟩
  obtain ⟨b', e2, hr⟩ := h.all s a' s' e1 hf
  refine ⟨b', e2, hr.all ?_⟩
  rw [Nat.zero_add, UInt64.toNat_mul]
  exact Nat.mod_le _ _

/-! ## Section readers -/

/-- Proves `Alike Eq` of a reader applied to two old values. -/
macro "alike" : tactic => `(tactic| repeat' (first
  | with_reducible exact Alike.pure rfl
  | with_reducible refine Alike.next (alike_inSize _ _) fun _ => ?_
  | with_reducible refine Alike.next (alike_inInt _ _) fun _ => ?_
  | with_reducible refine Alike.next (alike_inDouble _ _) fun _ => ?_
  | with_reducible refine Alike.next (alike_inString _ _) fun _ => ?_
  | with_reducible refine Alike.next (alike_inQuoted _ _) fun _ => ?_
  | with_reducible refine Alike.next (alike_readSize _ _) fun _ => ?_
  | with_reducible refine Alike.next (alike_readInt _ _) fun _ => ?_
  | with_reducible refine Alike.next (alike_readDouble _ _) fun _ => ?_
  | with_reducible refine Alike.next (alike_readSizes (Sized.eq ‹_›)) fun _ => ?_
  | with_reducible refine Alike.next (alike_readInts (Sized.eq ‹_›)) fun _ => ?_
  | with_reducible refine Alike.next (alike_readDoubles (Sized.eq ‹_›)) fun _ => ?_
  | with_reducible refine Alike.same tame_extractSize fun _ => ?_
  | with_reducible refine Alike.same tame_extractInt fun _ => ?_
  | with_reducible refine Alike.same tame_readSizeVar fun _ => ?_
  | with_reducible refine Alike.same (tame_useVar _) fun _ => ?_
  | with_reducible refine Alike.same (tame_assertGood _) fun _ => ?_
  | with_reducible refine Alike.same (tame_assertC _ _) fun _ => ?_
  | with_reducible refine Alike.same (tame_eatWhiteSpace _) fun _ => ?_
  | with_reducible refine Alike.same (Tame.lift (NoHang.nodesPerElement _)) fun _ => ?_
  | with_reducible refine Alike.same (Tame.lift (NoHang.entriesPerNode _ _)) fun _ => ?_
  | with_reducible refine Alike.bind (alike_resize _ _ _ _ _) (fun _ => Tame.sticky ?_) fun _ _ _ => ?_
  | with_reducible exact alike_forEach (fun _ _ => alike_inInt _ _) (Sized.eq ‹_›)
  | with_reducible refine Alike.next (alike_forEach (fun _ _ => alike_inSize _ _) (Sized.eq ‹_›)) fun _ => ?_
  | with_reducible refine Alike.next (alike_forEach (fun _ _ => alike_inDouble _ _) (Sized.eq ‹_›)) fun _ => ?_
  | with_reducible refine Alike.next (alike_grid tame_inDoubleAt alike_inDoubleAt rfl ‹_›) fun _ => ?_
  | assumption
  | (tame; done)))

theorem alike_physicalGroup (g g' : PhysicalGroup) : Alike Eq (loadPhysicalGroup g) (loadPhysicalGroup g') := by
  unfold loadPhysicalGroup; alike

theorem alike_physicalGroups (cfg : Cfg) (g g' : List PhysicalGroup) : Alike Eq (loadPhysicalGroups cfg g) (loadPhysicalGroups cfg g') := by
  have ht : ∀ g, Tame (loadPhysicalGroup g) := fun g => by unfold loadPhysicalGroup; tame
  unfold loadPhysicalGroups; alike
  · refine Alike.next (alike_forEach alike_physicalGroup (Sized.eq ‹_›)) fun _ => ?_
    alike

theorem alike_intListAscii (cfg : Cfg) (v v' : List Int32) : Alike Eq (loadIntListAscii cfg v) (loadIntListAscii cfg v') := by
  unfold loadIntListAscii; alike

theorem alike_intListBinary (cfg : Cfg) (v v' : List Int32) : Alike Eq (loadIntListBinary cfg v) (loadIntListBinary cfg v') := by
  unfold loadIntListBinary; alike

theorem alike_pointAscii (cfg : Cfg) (p p' : PointEntity) : Alike Eq (loadPointAscii cfg p) (loadPointAscii cfg p') := by
  unfold loadPointAscii; alike
  exact (alike_intListAscii cfg _ _).next fun _ => Alike.pure rfl

theorem alike_boxAscii (cfg : Cfg) (p p' : BoxEntity) : Alike Eq (loadBoxAscii cfg p) (loadBoxAscii cfg p') := by
  unfold loadBoxAscii; alike
  exact (alike_intListAscii cfg _ _).next fun _ => (alike_intListAscii cfg _ _).next fun _ => Alike.pure rfl

theorem alike_pointBinary (cfg : Cfg) (p p' : PointEntity) : Alike Eq (loadPointBinary cfg p) (loadPointBinary cfg p') := by
  unfold loadPointBinary; alike
  exact (alike_intListBinary cfg _ _).next fun _ => Alike.pure rfl

theorem alike_boxBinary (cfg : Cfg) (p p' : BoxEntity) : Alike Eq (loadBoxBinary cfg p) (loadBoxBinary cfg p') := by
  unfold loadBoxBinary; alike
  exact (alike_intListBinary cfg _ _).next fun _ => (alike_intListBinary cfg _ _).next fun _ => Alike.pure rfl

theorem alike_entities (cfg : Cfg) {f : MeshFormat} (hv : f.version = b! "4.1") (e e' : Entities) : Alike Eq (loadEntities cfg f e) (loadEntities cfg f e') := by
  have t1 := tame_loadPointAscii cfg
  have t2 := tame_loadBoxAscii cfg
  have t3 := tame_loadPointBinary cfg
  have t4 := tame_loadBoxBinary cfg
  unfold loadEntities
  rw [if_pos hv, if_pos hv]
  split
  · unfold loadEntitiesAscii41; alike
    refine (alike_forEach (alike_pointAscii cfg) (Sized.eq ‹_›)).next fun _ => (alike_forEach (alike_boxAscii cfg) (Sized.eq ‹_›)).next fun _ =>
      (alike_forEach (alike_boxAscii cfg) (Sized.eq ‹_›)).next fun _ => (alike_forEach (alike_boxAscii cfg) (Sized.eq ‹_›)).next fun _ => ?_
    alike
  · unfold loadEntitiesBinary41; alike
    refine (alike_forEach (alike_pointBinary cfg) (Sized.eq ‹_›)).next fun _ => (alike_forEach (alike_boxBinary cfg) (Sized.eq ‹_›)).next fun _ =>
      (alike_forEach (alike_boxBinary cfg) (Sized.eq ‹_›)).next fun _ => (alike_forEach (alike_boxBinary cfg) (Sized.eq ‹_›)).next fun _ => ?_
    alike

theorem alike_nodeBlockAscii (cfg : Cfg) (b b' : NodeBlock) : Alike Eq (loadNodeBlockAscii41 cfg b) (loadNodeBlockAscii41 cfg b') := by
  unfold loadNodeBlockAscii41; alike

theorem alike_nodeBlockBinary (cfg : Cfg) (b b' : NodeBlock) : Alike Eq (loadNodeBlockBinary41 cfg b) (loadNodeBlockBinary41 cfg b') := by
  unfold loadNodeBlockBinary41; alike

theorem alike_elementBlockAscii (cfg : Cfg) (b b' : ElementBlock) : Alike Eq (loadElementBlockAscii41 cfg b) (loadElementBlockAscii41 cfg b') := by
  unfold loadElementBlockAscii41
  refine (alike_inInt _ _).next fun _ => (alike_inInt _ _).next fun _ => (alike_inInt _ _).next fun t => (alike_inSize _ _).next fun num => ?_
  have hn : Alike (fun a b => a = b ∧ a.toNat ≤ 56) (Rd.lift (nodesPerElement t)) (Rd.lift (nodesPerElement t)) := by
    refine ⟨(Tame.lift (NoHang.nodesPerElement _)).sticky, fun s a s' e _ => ⟨a, e, rfl, ?_⟩⟩
    have := nodesPerElement_post t
    cases h : nodesPerElement t <;> rw [h] at e <;> simp [Rd.lift] at e
    rw [← e.1]
    exact (this _ h).2
  refine hn.bind (fun _ => Tame.sticky (by tame)) fun n n' h => ?_
  obtain ⟨rfl, hn⟩ := h
  refine Alike.bind (alike_resize _ _ _ _ _) (fun _ => Tame.sticky (by tame)) fun d d' hd => ?_
  refine Alike.next (alike_grid tame_inSizeAt alike_inSizeAt ?_ hd) fun _ => ?_
  · rw [UInt64.toNat_add]
    show _ = (n.toNat + 1) % 2 ^ 64
    omega
  · alike

theorem alike_elementBlockBinary (cfg : Cfg) (b b' : ElementBlock) : Alike Eq (loadElementBlockBinary41 cfg b) (loadElementBlockBinary41 cfg b') := by
  unfold loadElementBlockBinary41; alike

theorem alike_nodes (cfg : Cfg) {f : MeshFormat} (hv : f.version = b! "4.1") (n n' : Nodes) : Alike Eq (loadNodes cfg f n) (loadNodes cfg f n') := by
  have t1 : ∀ p, Tame (loadNodeBlockAscii41 cfg p) := fun p => by unfold loadNodeBlockAscii41; tame
  have t2 : ∀ p, Tame (loadNodeBlockBinary41 cfg p) := fun p => by unfold loadNodeBlockBinary41; tame
  unfold loadNodes
  simp only [if_pos hv]
  split
  · unfold loadNodesAscii41; alike
    refine (alike_forEach (alike_nodeBlockAscii cfg) (Sized.eq ‹_›)).next fun _ => ?_
    alike
  · unfold loadNodesBinary41; alike
    refine (alike_forEach (alike_nodeBlockBinary cfg) (Sized.eq ‹_›)).next fun _ => ?_
    alike

theorem alike_elements (cfg : Cfg) {f : MeshFormat} (hv : f.version = b! "4.1") (n n' : Elements) (e e' : Entities) :
    Alike (fun a b => b = (a.1, e')) (loadElements cfg f n e) (loadElements cfg f n' e') := by
  have t1 : ∀ p, Tame (loadElementBlockAscii41 cfg p) := fun p => by unfold loadElementBlockAscii41; tame
  have t2 : ∀ p, Tame (loadElementBlockBinary41 cfg p) := fun p => by unfold loadElementBlockBinary41; tame
  unfold loadElements
  simp only [if_pos hv]
  split
  · refine Alike.next ?_ fun _ => Alike.pure rfl
    unfold loadElementsAscii41; alike
    refine (alike_forEach (alike_elementBlockAscii cfg) (Sized.eq ‹_›)).next fun _ => ?_
    alike
  · refine Alike.next ?_ fun _ => Alike.pure rfl
    unfold loadElementsBinary41; alike
    refine (alike_forEach (alike_elementBlockBinary cfg) (Sized.eq ‹_›)).next fun _ => ?_
    alike

theorem alike_curveHeader (c c' : Curve) : Alike (fun a b => b = { a with data := c'.data }) (loadCurveHeader c) (loadCurveHeader c') := by
  unfold loadCurveHeader; alike

theorem alike_patchHeader (c c' : Patch) : Alike (fun a b => b = { a with data := c'.data }) (loadPatchHeader c) (loadPatchHeader c') := by
  unfold loadPatchHeader; alike

theorem alike_curveAscii (cfg : Cfg) (c c' : Curve) : Alike Eq (loadCurveAscii cfg c) (loadCurveAscii cfg c') := by
  unfold loadCurveAscii
  refine (alike_curveHeader c c').bind (fun _ => Tame.sticky (by tame)) fun a b h => ?_
  subst h
  exact (alike_resize _ _ _ _ _).bind (fun _ => Tame.sticky (by tame)) fun d d' hd => (alike_forEach (fun _ _ => alike_inDouble _ _) hd.eq).next fun _ => Alike.pure rfl

theorem alike_curveBinary (cfg : Cfg) (c c' : Curve) : Alike Eq (loadCurveBinary cfg c) (loadCurveBinary cfg c') := by
  unfold loadCurveBinary
  refine (alike_curveHeader c c').bind (fun _ => Tame.sticky (by tame)) fun a b h => ?_
  subst h
  exact Alike.same (tame_eatWhiteSpace _) fun _ => (alike_resize _ _ _ _ _).bind (fun _ => Tame.sticky (by tame)) fun d d' hd => (alike_readDoubles hd.eq).next fun _ => Alike.pure rfl

theorem alike_patchAscii (cfg : Cfg) (c c' : Patch) : Alike Eq (loadPatchAscii cfg c) (loadPatchAscii cfg c') := by
  unfold loadPatchAscii
  refine (alike_patchHeader c c').bind (fun _ => Tame.sticky (by tame)) fun a b h => ?_
  subst h
  exact (alike_resize _ _ _ _ _).bind (fun _ => Tame.sticky (by tame)) fun d d' hd => (alike_forEach (fun _ _ => alike_inDouble _ _) hd.eq).next fun _ => Alike.pure rfl

theorem alike_patchBinary (cfg : Cfg) (c c' : Patch) : Alike Eq (loadPatchBinary cfg c) (loadPatchBinary cfg c') := by
  unfold loadPatchBinary
  refine (alike_patchHeader c c').bind (fun _ => Tame.sticky (by tame)) fun a b h => ?_
  subst h
  exact (alike_resize _ _ _ _ _).bind (fun _ => Tame.sticky (by tame)) fun d d' hd => Alike.same (tame_eatWhiteSpace _) fun _ => (alike_readDoubles hd.eq).next fun _ => Alike.pure rfl

theorem alike_curves (cfg : Cfg) (hx : cfg.nanospline = true) (f : MeshFormat) (c c' : List Curve) : Alike Eq (loadCurves cfg f c) (loadCurves cfg f c') := by
  unfold loadCurves
  rw [if_pos hx, if_pos hx]
  refine Alike.same tame_extractSize fun _ => Alike.same (tame_useVar _) fun _ => (alike_resize _ _ _ _ _).bind (fun d => ?_) fun d d' hd => ?_
  · exact Tame.sticky (Tame.ite (Tame.forEach (fun a => by unfold loadCurveAscii loadCurveHeader; tame) _) (Tame.forEach (fun a => by unfold loadCurveBinary loadCurveHeader; tame) _))
  · split
    · exact alike_forEach (alike_curveAscii cfg) hd.eq
    · exact alike_forEach (alike_curveBinary cfg) hd.eq

theorem alike_patches (cfg : Cfg) (hx : cfg.nanospline = true) (f : MeshFormat) (c c' : List Patch) : Alike Eq (loadPatches cfg f c) (loadPatches cfg f c') := by
  unfold loadPatches
  rw [if_pos hx, if_pos hx]
  refine Alike.same tame_extractSize fun _ => Alike.same (tame_useVar _) fun _ => (alike_resize _ _ _ _ _).bind (fun d => ?_) fun d d' hd => ?_
  · exact Tame.sticky (Tame.ite (Tame.forEach (fun a => by unfold loadPatchAscii loadPatchHeader; tame) _) (Tame.forEach (fun a => by unfold loadPatchBinary loadPatchHeader; tame) _))
  · split
    · exact alike_forEach (alike_patchAscii cfg) hd.eq
    · exact alike_forEach (alike_patchBinary cfg) hd.eq

/-- Reading a section into another spec of the same format. -/
theorem alike_section (cfg : Cfg) {name : Bytes} (hn : name ≠ b! "MeshFormat") (hd : name ∉ addedSections)
    (hx : cfg.nanospline = true ∨ (name ≠ b! "Curves" ∧ name ≠ b! "Patches")) {s1 s2 : MshSpec} (hf : s1.meshFormat = s2.meshFormat)
    (hv : s1.meshFormat.version = b! "4.1") :
    Alike (fun a b => b = MshSpec.put name a s2) (loadSection cfg (36 :: name) s1) (loadSection cfg (36 :: name) s2) := by
  simp only [addedSections, List.mem_cons, List.not_mem_nil, or_false, not_or] at hd
  obtain ⟨hd1, hd2, hd3⟩ := hd
  by_cases h : name = b! "Nodes"
  · subst h
    show Alike _ (loadNodes cfg s1.meshFormat s1.nodes >>= fun q => pure { s1 with nodes := q })
      (loadNodes cfg s2.meshFormat s2.nodes >>= fun q => pure { s2 with nodes := q })
    rw [← hf]
    exact (alike_nodes cfg hv _ _).next fun _ => Alike.pure (by rw [put_nodes, ← hf])
  by_cases h : name = b! "Elements"
  · subst h
    show Alike _ (loadElements cfg s1.meshFormat s1.elements s1.entities >>= fun q => pure { s1 with elements := q.1, entities := q.2 })
      (loadElements cfg s2.meshFormat s2.elements s2.entities >>= fun q => pure { s2 with elements := q.1, entities := q.2 })
    rw [← hf]
    exact (alike_elements cfg hv _ _ _ _).bind (fun _ => (Tame.pure _).sticky) fun a b h => Alike.pure (by rw [put_elements, h, ← hf])
  by_cases h : name = b! "Entities"
  · subst h
    show Alike _ (loadEntities cfg s1.meshFormat s1.entities >>= fun q => pure { s1 with entities := q })
      (loadEntities cfg s2.meshFormat s2.entities >>= fun q => pure { s2 with entities := q })
    rw [← hf]
    exact (alike_entities cfg hv _ _).next fun _ => Alike.pure (by rw [put_entities, ← hf])
  by_cases h : name = b! "PhysicalNames"
  · subst h
    exact (alike_physicalGroups cfg _ _).next fun _ => Alike.pure (by rw [put_physicalGroups])
  by_cases h : name = b! "NanoSplineFormat"
  · subst h
    exact (alike_inString _ _).next fun _ => Alike.pure (by rw [put_nanosplineVersion])
  by_cases h : name = b! "Curves"
  · subst h
    have hx := hx.resolve_right fun h => h.1 rfl
    show Alike _ (loadCurves cfg s1.meshFormat s1.curves >>= fun q => pure { s1 with curves := q })
      (loadCurves cfg s2.meshFormat s2.curves >>= fun q => pure { s2 with curves := q })
    rw [← hf]
    exact (alike_curves cfg hx _ _ _).next fun _ => Alike.pure (by rw [put_curves, ← hf])
  by_cases h : name = b! "Patches"
  · subst h
    have hx := hx.resolve_right fun h => h.2 rfl
    show Alike _ (loadPatches cfg s1.meshFormat s1.patches >>= fun q => pure { s1 with patches := q })
      (loadPatches cfg s2.meshFormat s2.patches >>= fun q => pure { s2 with patches := q })
    rw [← hf]
    exact (alike_patches cfg hx _ _ _).next fun _ => Alike.pure (by rw [put_patches, ← hf])
  have hp : ∀ t, MshSpec.put name t s2 = s2 := by
    intro t
    unfold MshSpec.put
    simp only [*, if_false]
  have hs : ∀ s, loadSection cfg (36 :: name) s = pure s := by
    intro s
    unfold loadSection
    simp only [List.cons.injEq, true_and, *, if_false]
  rw [hs, hs]
  exact Alike.pure (hp _).symm

/-- Readers that do alike make sections alike. -/
theorem IsSection.alike {cfg : Cfg} {name A : Bytes} {R : MshSpec → MshSpec → Prop} {s1 s2 t : MshSpec}
    (ha : Alike R (loadSection cfg (36 :: name) s1) (loadSection cfg (36 :: name) s2)) (h : IsSection cfg s1 name A t) :
    ∃ t2, IsSection cfg s2 name A t2 ∧ R t t2 := by
  obtain ⟨w, hw, -, hm⟩ := h.round
  obtain ⟨r, hA, c, r', rfl, hc⟩ := h.start
  subst hA
  change loadRound cfg s1 (gs (36 :: name ++ c :: r')) = _ at hm
  have hh : WsHead (c :: r') := ⟨c, r', rfl, hc⟩
  rw [loadRound_start cfg _ h.word hh] at hm
  obtain ⟨a, s1', e1, e2⟩ := Rd.bind_eq_ok hm
  obtain ⟨u, s2', e3, e4⟩ := Rd.bind_eq_ok e2
  rw [Rd.pure_def] at e4
  simp only [Outcome.ok.injEq, Prod.mk.injEq] at e4
  obtain ⟨rfl, rfl⟩ := e4
  have hg : s1'.fail = false := by
    rw [forwardTo_eq] at e3
    rcases fwd_cases (endTag name) [] s1' with h | ⟨x, h, st⟩ <;> rw [h] at e3 <;> cases e3
    cases hs : s1'.fail
    · rfl
    · have := st.fail hs; cases this
  obtain ⟨b, e5, hr⟩ := ha.all _ _ _ e1 hg
  refine ⟨b, ⟨h.start, h.word, w, hw, rfl, ?_⟩, hr⟩
  show loadRound cfg s2 (gs (36 :: name ++ c :: r')) = _
  rw [loadRound_start cfg _ h.word hh, Rd.bind_ok e5, Rd.bind_ok e3]
  rfl

theorem IsSection.replace {cfg : Cfg} {name A : Bytes} (hn : name ≠ b! "MeshFormat") (hd : name ∉ addedSections)
    (hx : cfg.nanospline = true ∨ (name ≠ b! "Curves" ∧ name ≠ b! "Patches")) {s1 s2 t : MshSpec} (hf : s1.meshFormat = s2.meshFormat)
    (hv : s1.meshFormat.version = b! "4.1") (h : IsSection cfg s1 name A t) : IsSection cfg s2 name A (MshSpec.put name t s2) := by
  obtain ⟨t2, h2, rfl⟩ := h.alike (alike_section cfg hn hd hx hf hv)
  exact h2

/-- Without the extension curves and patches are skipped. -/
theorem IsSection.skip {cfg : Cfg} {name A : Bytes} (hx : cfg.nanospline = false) (hc : name = b! "Curves" ∨ name = b! "Patches") {s t : MshSpec}
    (h : IsSection cfg s name A t) : t = s := by
  obtain ⟨w, hw, -, hm⟩ := h.round
  obtain ⟨r, hA, c, r', rfl, hs⟩ := h.start
  subst hA
  change loadRound cfg s (gs (36 :: name ++ c :: r')) = _ at hm
  rw [loadRound_start cfg _ h.word ⟨c, r', rfl, hs⟩] at hm
  have hp : loadSection cfg (36 :: name) s = pure s := by
    rcases hc with rfl | rfl
    · show (loadCurves cfg s.meshFormat s.curves >>= fun q => pure { s with curves := q }) = _
      unfold loadCurves; rw [hx]; rfl
    · show (loadPatches cfg s.meshFormat s.patches >>= fun q => pure { s with patches := q }) = _
      unfold loadPatches; rw [hx]; rfl
  rw [hp, pure_bind] at hm
  obtain ⟨u, s2', e3, e4⟩ := Rd.bind_eq_ok hm
  rw [Rd.pure_def] at e4
  simp only [Outcome.ok.injEq, Prod.mk.injEq] at e4
  exact e4.1.symm

/-- A run of sections that contains one named `name` does not depend on what was there under that name. -/
theorem chain_replace {cfg : Cfg} {name B : Bytes} (hn : name ≠ b! "MeshFormat") (hd : name ∉ addedSections)
    (hx : cfg.nanospline = true ∨ (name ≠ b! "Curves" ∧ name ≠ b! "Patches")) {L M : List (Bytes × Bytes)} (hL : ∀ p ∈ L, p.1 ≠ b! "MeshFormat")
    {s u : MshSpec} (v : MshSpec) (hv : s.meshFormat.version = b! "4.1") (h : Chain cfg s (L ++ (name, B) :: M) u) :
    Chain cfg (MshSpec.put name v s) (L ++ (name, B) :: M) u := by
  induction L generalizing s with
  | nil =>
    rw [List.nil_append] at h ⊢
    cases h with
    | cons hB hM =>
      refine .cons (hB.replace hn hd hx (put_format hn v s).symm hv) ?_
      rwa [put_put, hB.own hn hv]
  | cons p L ih =>
    obtain ⟨m, C⟩ := p
    rw [List.cons_append] at h ⊢
    cases h with
    | @cons _ t _ _ _ _ hC hM =>
      have hm : m ≠ b! "MeshFormat" := hL _ List.mem_cons_self
      have hL' : ∀ p ∈ L, p.1 ≠ b! "MeshFormat" := fun p h => hL p (List.mem_cons_of_mem _ h)
      have hvt : t.meshFormat.version = b! "4.1" := by rw [← hC.own hm hv, put_format hm]; exact hv
      by_cases he : m = name
      · subst he
        refine .cons (hC.replace hn hd hx (put_format hn v s).symm hv) ?_
        rwa [put_put, hC.own hn hv]
      · refine .cons (hC.frame hm (put_format hn v s).symm hv ?_) ?_
        · rw [put_comm he, put_self]
        · rw [put_comm he, hC.own hm hv]
          exact ih hL' hvt hM

/-- An earlier section of the same name makes no difference. -/
theorem chain_again {cfg : Cfg} {name A B : Bytes} (hn : name ≠ b! "MeshFormat") (hd : name ∉ addedSections) {L M : List (Bytes × Bytes)}
    (hL : ∀ p ∈ L, p.1 ≠ b! "MeshFormat") {s t u : MshSpec} (hv : s.meshFormat.version = b! "4.1") (hA : IsSection cfg s name A t) :
    Chain cfg t (L ++ (name, B) :: M) u ↔ Chain cfg s (L ++ (name, B) :: M) u := by
  by_cases hx : cfg.nanospline = true ∨ (name ≠ b! "Curves" ∧ name ≠ b! "Patches")
  · have hvt : t.meshFormat.version = b! "4.1" := by rw [← hA.own hn hv, put_format hn]; exact hv
    constructor
    · intro h
      have := chain_replace hn hd hx hL s hvt h
      rwa [← hA.own hn hv, put_put, put_self] at this
    · intro h
      have := chain_replace hn hd hx hL t hv h
      rwa [hA.own hn hv] at this
  · rw [not_or] at hx
    have : t = s := hA.skip (by simpa using hx.1) (by by_contra hc; exact hx.2 (not_or.1 hc))
    rw [this]

end MshIO
