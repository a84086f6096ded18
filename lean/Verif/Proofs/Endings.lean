import Verif.Proofs.RejectedSections
import Verif.Spec.Endings

/-! # How reading a section ends: assertions, and reading that is stuck -/

namespace MshIO

variable {α β : Type} {k : Ending}

/-- The outcome is the one the ending stands for. -/
def Ending.Of : Ending → Outcome (α × Stream) → Prop
  | .stops, o => o = .abort
  | .sticks, o => ∃ a s, o = .ok (a, s) ∧ s.fail = true ∧ s.eof = false

theorem Ending.not_throw {e : Exc} : ¬ k.Of (.throw e : Outcome (α × Stream)) := by
  cases k
  · exact fun h => by cases h
  · exact fun ⟨_, _, h, _⟩ => by cases h

theorem Ending.not_ub : ¬ k.Of (.ub : Outcome (α × Stream)) := by
  cases k
  · exact fun h => by cases h
  · exact fun ⟨_, _, h, _⟩ => by cases h

theorem Ending.not_hang : ¬ k.Of (.hang : Outcome (α × Stream)) := by
  cases k
  · exact fun h => by cases h
  · exact fun ⟨_, _, h, _⟩ => by cases h

theorem Ending.abort : k.Of (.abort : Outcome (α × Stream)) ↔ k = .stops := by
  cases k
  · exact ⟨fun _ => rfl, fun _ => rfl⟩
  · exact ⟨(fun ⟨_, _, h, _⟩ => by cases h), (fun h => by cases h)⟩

theorem Ending.ok {a : α} {s : Stream} : k.Of (.ok (a, s)) ↔ k = .sticks ∧ s.fail = true ∧ s.eof = false := by
  cases k
  · exact ⟨(fun h => by cases h), fun h => by cases h.1⟩
  · exact ⟨fun ⟨_, _, h, h'⟩ => by cases h; exact ⟨rfl, h'⟩, fun ⟨_, h⟩ => ⟨_, _, rfl, h⟩⟩

/-- From the place `x` on, `m` ends with `k` exactly if `Q`. -/
def EndsAt (k : Ending) (m : Rd α) (x : Place) (Q : Prop) : Prop := ∀ st, At x st → (k.Of (m st) ↔ Q)

theorem ends_bind {m : Rd α} {f : α → Rd β} {s : Stream} (h : ∀ a s', ∃ b, f a s' = .ok (b, s')) : k.Of ((m >>= f) s) ↔ k.Of (m s) := by
  rw [Rd.bind_def]
  cases hm : m s with
  | ok x =>
    obtain ⟨a, t⟩ := x
    obtain ⟨b, hb⟩ := h a t
    show k.Of (f a t) ↔ _
    rw [hb, Ending.ok, Ending.ok]
  | throw x => exact ⟨fun h => absurd h Ending.not_throw, fun h => absurd h Ending.not_throw⟩
  | abort => exact Ending.abort.trans Ending.abort.symm
  | hang => exact ⟨fun h => absurd h Ending.not_hang, fun h => absurd h Ending.not_hang⟩
  | ub => exact ⟨fun h => absurd h Ending.not_ub, fun h => absurd h Ending.not_ub⟩

theorem at_stuck {x : Place} {st : Stream} (h : Cur x st) : st.fail = true ∧ st.eof = false ↔ x = .stuck := by
  cases x with
  | on r => exact ⟨(fun h' => by rw [h.2.1] at h'; cases h'.1), fun h => by cases h⟩
  | stuck => exact ⟨fun _ => rfl, fun _ => h⟩
  | ended => exact ⟨(fun h' => by rw [h.2] at h'; cases h'.2), fun h => by cases h⟩

theorem EndsAt.pure (a : α) (x : Place) : EndsAt k (Pure.pure a : Rd α) x (ReadTo k x) := fun st hs => by
  show k.Of (.ok (a, st)) ↔ _
  rw [Ending.ok, at_stuck hs.cur]
  rfl

theorem EndsAt.throw (e : Exc) (x : Place) : EndsAt k (Rd.throw e : Rd α) x False := fun _ _ => ⟨fun h => absurd h Ending.not_throw, fun h => h.elim⟩

theorem EndsAt.iff {m : Rd α} {x : Place} {Q Q' : Prop} (h : EndsAt k m x Q) (e : Q ↔ Q') : EndsAt k m x Q' := fun st hs => (h st hs).trans e

theorem EndsAt.useVar {v : Option β} {f : β → Rd α} {x : Place} {Q : β → Prop} (h : ∀ n, v = some n → EndsAt k (f n) x (Q n)) :
    EndsAt k (MshIO.useVar v >>= f) x (∃ n ∈ v, Q n) := by
  intro st hs
  cases v with
  | none => exact ⟨fun h => absurd h Ending.not_ub, fun ⟨n, hn, _⟩ => by cases hn⟩
  | some n =>
    have : MshIO.useVar (some n) st = .ok (n, st) := rfl
    rw [Rd.bind_ok this, h n rfl st hs]
    exact ⟨fun h => ⟨n, rfl, h⟩, fun ⟨m, hm, h⟩ => by cases hm; exact h⟩

theorem EndsAt.yields {m : Rd α} {R : Place → α → Place → Prop} (hm : Yields m R) {f : α → Rd β} {x : Place} {Q : α → Place → Prop}
    (h : ∀ v y, R x v y → EndsAt k (f v) y (Q v y)) : EndsAt k (m >>= f) x (∃ v y, R x v y ∧ Q v y) := by
  intro st hs
  constructor
  · intro hu
    obtain ⟨v, y, hr⟩ := hm.total x
    obtain ⟨st', e, hs'⟩ := hm.sound hr hs.cur
    rw [Rd.bind_ok e] at hu
    exact ⟨v, y, hr, (h v y hr st' hs').mp hu⟩
  · rintro ⟨v, y, hr, hq⟩
    obtain ⟨st', e, hs'⟩ := hm.sound hr hs.cur
    rw [Rd.bind_ok e]
    exact (h v y hr st' hs').mpr hq

theorem EndsAt.passes {m : Rd α} {R : Place → Place → Prop} (hm : Passes m R) {f : α → Rd β} {x : Place} {Q : Place → Prop}
    (h : ∀ v y, EndsAt k (f v) y (Q y)) : EndsAt k (m >>= f) x (∃ y, R x y ∧ Q y) := by
  intro st hs
  constructor
  · intro hu
    obtain ⟨y, hr⟩ := hm.total x
    obtain ⟨v, st', e, hs'⟩ := hm.sound hr hs
    rw [Rd.bind_ok e] at hu
    exact ⟨y, hr, (h v y st' hs').mp hu⟩
  · rintro ⟨y, hr, hq⟩
    obtain ⟨v, st', e, hs'⟩ := hm.sound hr hs
    rw [Rd.bind_ok e]
    exact (h v y st' hs').mpr hq

theorem EndsAt.resize {cfg : Cfg} {v : List β} {n : UInt64} {d : β} {f : List β → Rd α} {x : Place} {Q : Prop}
    (h : n.toNat ≤ cfg.maxCount → EndsAt k (f (v.take n.toNat ++ List.replicate (n.toNat - v.length) d)) x Q) : EndsAt k (MshIO.resize cfg v n d >>= f) x (n.toNat ≤ cfg.maxCount ∧ Q) := by
  intro st hs
  by_cases hn : n.toNat ≤ cfg.maxCount
  · have : MshIO.resize cfg v n d st = .ok (v.take n.toNat ++ List.replicate (n.toNat - v.length) d, st) := by unfold MshIO.resize vecResize; rw [if_pos hn]; rfl
    rw [Rd.bind_ok this, h hn st hs]
    exact ⟨fun h => ⟨hn, h⟩, fun h => h.2⟩
  · have : MshIO.resize cfg v n d st = .throw .alloc := by unfold MshIO.resize vecResize; rw [if_neg hn]; rfl
    rw [Rd.bind_def, this]
    exact ⟨fun h => absurd h Ending.not_throw, fun h => absurd h.1 hn⟩

theorem EndsAt.assertGood {cfg : Cfg} {f : Unit → Rd α} {x : Place} {Q : Prop} (h : EndsAt k (f ()) x Q) : EndsAt k (MshIO.assertGood cfg >>= f) x (Asserted cfg k x Q) := by
  intro st hs
  have hg := hs.good
  unfold Asserted
  by_cases hc : cfg.asserts = true → x.Good
  · have : MshIO.assertGood cfg st = .ok ((), st) := by
      unfold MshIO.assertGood
      rw [if_neg]
      intro hh
      simp only [Bool.and_eq_true, Bool.not_eq_true'] at hh
      have := hg.mpr (hc hh.1)
      rw [this] at hh
      cases hh.2
    rw [Rd.bind_ok this, h st hs]
    exact ⟨fun h => Or.inr ⟨hc, h⟩, fun h => h.elim (fun h => absurd (hc h.2.1) h.2.2) fun h => h.2⟩
  · have hc' := Classical.not_imp.mp hc
    have : MshIO.assertGood cfg st = .abort := by
      unfold MshIO.assertGood
      rw [if_pos]
      simp only [Bool.and_eq_true, Bool.not_eq_true']
      refine ⟨hc'.1, ?_⟩
      rw [← Bool.not_eq_true]
      exact fun hh => hc'.2 (hg.mp hh)
    rw [Rd.bind_def, this]
    exact Ending.abort.trans ⟨fun h => Or.inl ⟨h, hc'⟩, fun h => h.elim (fun h => h.1) fun h => absurd h.1 hc⟩

theorem EndsAt.assertC {cfg : Cfg} {c : Bool} {P : Prop} [Decidable P] (hP : c = true ↔ P) {f : Unit → Rd α} {x : Place} {Q : Prop} (h : EndsAt k (f ()) x Q) :
    EndsAt k (MshIO.assertC cfg c >>= f) x (if cfg.asserts = true ∧ ¬ P then k = .stops else Q) := by
  intro st hs
  by_cases hc : cfg.asserts = true ∧ ¬ P
  · have : MshIO.assertC cfg c st = .abort := by
      unfold MshIO.assertC
      rw [if_pos]
      simp only [Bool.and_eq_true, Bool.not_eq_true']
      refine ⟨hc.1, ?_⟩
      rw [← Bool.not_eq_true, hP]
      exact hc.2
    rw [Rd.bind_def, this, if_pos hc]
    exact Ending.abort
  · have : MshIO.assertC cfg c st = .ok ((), st) := by
      unfold MshIO.assertC
      rw [if_neg]
      intro hh
      simp only [Bool.and_eq_true, Bool.not_eq_true'] at hh
      refine hc ⟨hh.1, fun hp => ?_⟩
      rw [hP.mpr hp] at hh
      cases hh.2
    rw [Rd.bind_ok this, h st hs, if_neg hc]

theorem EndsAt.lift {o : Outcome β} {b : β} (ho : o = .ok b) {f : β → Rd α} {x : Place} {Q : Prop} (h : EndsAt k (f b) x Q) : EndsAt k (Rd.lift o >>= f) x Q := by
  intro st hs
  rw [Rd.bind_ok (Rd.lift_ok ho st), h st hs]

theorem EndsAt.last {m : Rd α} {f : α → Rd β} {x : Place} {Q : Prop} (h : EndsAt k m x Q) (hf : ∀ a s, ∃ b, f a s = .ok (b, s)) : EndsAt k (m >>= f) x Q := by
  intro st hs
  rw [ends_bind hf]
  exact h st hs

theorem EndsAt.strings {γ : Type} {l : List Bytes} {n : Nat} (hl : l.length = n) {x : Place} {R : Place → γ → Place → Prop} {m : Rd γ} (hm : Yields m R) {Q : γ → Place → Prop} {K : List Bytes → γ → Rd α}
    (h : ∀ l v y, EndsAt k (K l v) y (Q v y)) :
    EndsAt k (forEach inQuoted l >>= fun l => m >>= K l) x (∃ y, Many TakesQuoted n x y ∧ ∃ v z, R y v z ∧ Q v z) := by
  subst hl
  intro st hs
  constructor
  · intro hu
    obtain ⟨y, hr⟩ := many_total takesQuoted_total l.length x
    obtain ⟨l', st', e, hc⟩ := forEach_inQuoted hr hs.cur
    obtain ⟨v, z, hr'⟩ := hm.total y
    obtain ⟨st2, e2, hs2⟩ := hm.sound hr' hc
    rw [Rd.bind_ok e, Rd.bind_ok e2] at hu
    exact ⟨y, hr, v, z, hr', (h l' v z st2 hs2).mp hu⟩
  · rintro ⟨y, hr, v, z, hr', hq⟩
    obtain ⟨l', st', e, hc⟩ := forEach_inQuoted hr hs.cur
    obtain ⟨st2, e2, hs2⟩ := hm.sound hr' hc
    rw [Rd.bind_ok e, Rd.bind_ok e2]
    exact (h l' v z st2 hs2).mpr hq

theorem eat_stuck {y : Place} {st st' : Stream} (hs : At y st) (h : eatWhiteSpace 1 st = .ok ((), st')) : st'.fail = true ∧ st'.eof = false ↔ y = .stuck := by
  cases y with
  | on r =>
    refine ⟨fun h' => ?_, fun h => by cases h⟩
    cases hs
    unfold eatWhiteSpace at h
    cases r with
    | nil => cases h; cases h'.2
    | cons c r =>
      rw [if_pos (show (payload (c :: r)).good = true from rfl)] at h
      injection h with h
      injection h with _ h
      subst h
      simp only [payload, eatLoop] at h'
      split at h'
      · cases r <;> cases h'.1
      · cases h'.1
  | stuck =>
    refine ⟨fun _ => rfl, fun _ => ?_⟩
    have hg : st.good = false := by simp [Stream.good, hs.1]
    unfold eatWhiteSpace at h
    rw [hg, if_neg (by simp)] at h
    cases h
    exact ⟨rfl, hs.2⟩
  | ended =>
    refine ⟨fun h' => ?_, fun h => by cases h⟩
    have hg : st.good = false := by simp [Stream.good, hs.1]
    unfold eatWhiteSpace at h
    rw [hg, if_neg (by simp)] at h
    cases h
    rw [show st.eof = true from hs.2] at h'
    cases h'.2

theorem EndsAt.eat {f : Unit → Rd α} {y : Place} {Q : Bytes → Prop}
    (h : ∀ d st, DataFrom y d → DataAt d st → (st.fail = true ∧ st.eof = false ↔ y = .stuck) → (k.Of (f () st) ↔ Q d)) :
    EndsAt k (eatWhiteSpace 1 >>= f) y (∃ d, DataFrom y d ∧ Q d) := by
  intro st hs
  constructor
  · intro hu
    obtain ⟨d, hd⟩ := dataFrom_exists y
    obtain ⟨st', e, hs'⟩ := eat_from hd hs
    rw [Rd.bind_ok e] at hu
    exact ⟨d, hd, (h d st' hd hs' (eat_stuck hs e)).mp hu⟩
  · rintro ⟨d, hd, hq⟩
    obtain ⟨st', e, hs'⟩ := eat_from hd hs
    rw [Rd.bind_ok e]
    exact (h d st' hd hs' (eat_stuck hs e)).mpr hq

theorem EndsAt.pushBack {cfg : Cfg} {v : List β} {b : β} {f : List β → Rd α} {x : Place} {Q : Prop} (h : EndsAt k (f (v ++ [b])) x Q) :
    EndsAt k (MshIO.pushBack cfg v b >>= f) x (v.length < cfg.maxCount ∧ Q) := by
  intro st hs
  by_cases hv : v.length < cfg.maxCount
  · rw [Rd.bind_ok (pushBack_ok hv b st), h st hs]
    exact ⟨fun h => ⟨hv, h⟩, fun h => h.2⟩
  · rw [Rd.bind_def, pushBack_throw hv b st]
    exact ⟨fun h => absurd h Ending.not_throw, fun h => absurd h.1 hv⟩

theorem EndsAt.counter {cfg : Cfg} {v : List β} {d : β} {K : List β → Rd α} {x : Place} {P : Nat → Place → Prop}
    (h : ∀ n y, n ≤ cfg.maxCount → EndsAt k (K (v.take n ++ List.replicate (n - v.length) d)) y (P n y)) :
    EndsAt k (extractSize >>= fun a => MshIO.useVar a >>= fun n => MshIO.resize cfg v n d >>= K) x (CounterRead cfg x P) := by
  refine (EndsAt.yields extractSize_yields fun _ y _ => EndsAt.useVar fun n _ => EndsAt.resize fun hn => h n.toNat y hn).iff ?_
  constructor
  · rintro ⟨v, y, hv, n, rfl, h⟩
    exact ⟨n, y, hv, h⟩
  · rintro ⟨n, y, hv, h⟩
    exact ⟨some n, y, hv, n, rfl, h⟩

theorem EndsAt.ints {n : Nat} {f : List Int32 → Rd α} {x : Place} {Q : List Int32 → Place → Prop} (h : ∀ l y, EndsAt k (f l) y (Q l y)) :
    EndsAt k (forEach inInt (List.replicate n 0) >>= f) x (∃ l y, TakesInts n x l y ∧ Q l y) := by
  intro st hs
  constructor
  · intro hu
    obtain ⟨l, y, hr⟩ := takesInts_total n x
    obtain ⟨st', e, hs'⟩ := forEach_inInt n hr hs
    rw [Rd.bind_ok e] at hu
    exact ⟨l, y, hr, (h l y st' hs').mp hu⟩
  · rintro ⟨l, y, hr, hq⟩
    obtain ⟨st', e, hs'⟩ := forEach_inInt n hr hs
    rw [Rd.bind_ok e]
    exact (h l y st' hs').mpr hq

theorem EndsAt.table {τ : Type} {f : UInt64 → List τ → Rd (List τ)} {R : Place → Place → Prop} {cfg : Cfg} (hf : Fills f R) {e m : UInt64} {w n total : Nat}
    (hw : w = e.toNat) (hm : m.toNat = total % 2 ^ 64) (ht : total = n * w) {v : List τ} {d : τ} {K : List τ → Rd α} {x : Place} {P : Place → Prop} (h : ∀ v y, EndsAt k (K v) y (P y)) :
    EndsAt k (MshIO.resize cfg v m d >>= fun v => loopN (fun j v => loopN (fun k v => f (UInt64.ofNat j * e + UInt64.ofNat k) v) w 0 v) n 0 v >>= K) x
      (∃ y, total ≤ cfg.maxCount ∧ Many R total x y ∧ P y) := by
  have hx := cfg.maxCount_lt
  refine (EndsAt.resize (Q := total < 2 ^ 64 ∧ ∃ y, Many R total x y ∧ P y) fun hn => ?_).iff ?_
  · have hl := resized_length v m.toNat d
    generalize v.take m.toNat ++ List.replicate (m.toNat - v.length) d = u at hl ⊢
    intro st hs
    by_cases hb : 2 ^ 64 ≤ total
    · rw [Rd.bind_def, table_ub hf hw n (j := 0) (v := u) (by omega) (by have := Nat.mod_lt total (y := 2 ^ 64) (by decide); omega) (by omega) hs]
      exact ⟨fun h => absurd h Ending.not_ub, fun h => absurd h.1 (by omega)⟩
    · rw [Nat.mod_eq_of_lt (by omega)] at hm
      constructor
      · intro hu
        obtain ⟨y, hr⟩ := many_total hf.total total x
        obtain ⟨v1, st1, e1, l1, hs1⟩ := table_ok hf hw n (j := 0) (v := u) (by omega) (by omega) (ht ▸ hr) hs
        rw [Rd.bind_ok e1] at hu
        exact ⟨by omega, y, hr, (h v1 y st1 hs1).mp hu⟩
      · rintro ⟨-, y, hr, hp⟩
        obtain ⟨v1, st1, e1, l1, hs1⟩ := table_ok hf hw n (j := 0) (v := u) (by omega) (by omega) (ht ▸ hr) hs
        rw [Rd.bind_ok e1]
        exact (h v1 y st1 hs1).mpr hp
  · constructor
    · rintro ⟨h1, h2, y, h3, h4⟩
      rw [hm, Nat.mod_eq_of_lt h2] at h1
      exact ⟨y, h1, h3, h4⟩
    · rintro ⟨y, h1, h3, h4⟩
      rw [hm, Nat.mod_eq_of_lt (by omega)]
      exact ⟨h1, by omega, y, h3, h4⟩

/-- Reading the members of a list one after the other. -/
theorem EndsAt.forEach {f : α → Rd α} (T : α → (Place → Prop) → Place → Prop)
    (h : ∀ b (K : α → Rd (List α)) Q x, (∀ b' y, EndsAt k (K b') y (Q y)) → EndsAt k (f b >>= K) x (T b Q x)) (P : List α → Place → Prop) (h0 : ∀ x, ReadTo k x ↔ P [] x)
    (h1 : ∀ b bs x, T b (P bs) x ↔ P (b :: bs) x) : ∀ l x, EndsAt k (MshIO.forEach f l) x (P l x)
  | [], x => (EndsAt.pure [] x).iff (h0 x)
  | b :: bs, x => by
    unfold MshIO.forEach
    refine (h b _ (P bs) x fun b' y => ?_).iff (h1 b bs x)
    exact (EndsAt.forEach T h P h0 h1 bs y).last fun _ _ => ⟨_, rfl⟩

/-! ## Elements of version 4.1 in text -/

theorem ends_elementBlock (cfg : Cfg) (b : ElementBlock) (K : ElementBlock → Rd α) (Q : Place → Prop) (x : Place) (hK : ∀ b' y, EndsAt k (K b') y (Q y)) :
    EndsAt k (loadElementBlockAscii41 cfg b >>= K) x (∃ x1 x2 t x3 v y, SkipsInt x x1 ∧ SkipsInt x1 x2 ∧ TakesInt x2 t x3 ∧ TakesSize x3 v y ∧
      ∃ m ∈ mshNodes (t.getD b.elementType), ∃ z, (v.getD b.numElementsInBlock).toNat * (m + 1) ≤ cfg.maxCount ∧
        Many SkipsSize ((v.getD b.numElementsInBlock).toNat * (m + 1)) y z ∧ Asserted cfg k z (Q z)) := by
  simp only [loadElementBlockAscii41, Rd.bind_assoc]
  refine (EndsAt.passes (inInt_passes b.entityDim) fun _ x1 => EndsAt.passes (inInt_passes b.entityTag) fun _ x2 => EndsAt.yields (inInt_yields b.elementType) fun t x3 _ =>
    EndsAt.yields (inSize_yields b.numElementsInBlock) fun num y _ => (?_ : EndsAt _ _ y (∃ m ∈ mshNodes t, ∃ z, num.toNat * (m + 1) ≤ cfg.maxCount ∧
        Many SkipsSize (num.toNat * (m + 1)) y z ∧ Asserted cfg k z (Q z)))).iff ?_
  · cases hk : mshNodes t with
    | none =>
      intro st _
      rw [mshNodes_none hk]
      exact ⟨fun h => absurd h Ending.not_throw, fun ⟨_, h, _⟩ => by cases h⟩
    | some m =>
      obtain ⟨hn, h56, -⟩ := nodesPerElement_of_mshNodes hk
      have hN : (UInt64.ofNat m).toNat = m := by rw [UInt64.toNat_ofNat']; omega
      have hN1 : (UInt64.ofNat m + 1).toNat = m + 1 := by rw [UInt64.toNat_add, hN]; show (m + 1) % 2 ^ 64 = _; omega
      refine (EndsAt.lift hn (EndsAt.table (w := (UInt64.ofNat m).toNat + 1) (total := num.toNat * (m + 1)) inSizeAt_fills (by rw [hN1, hN]) (by rw [UInt64.toNat_mul, hN1])
        (by rw [hN]) fun v y => EndsAt.assertGood (hK _ y))).iff ?_
      exact ⟨fun h => ⟨m, rfl, h⟩, fun ⟨_, e, h⟩ => by cases e; exact h⟩
  · constructor
    · rintro ⟨x1, h1, x2, h2, _, x3, ⟨t, h3, rfl⟩, _, y, ⟨v, h4, rfl⟩, h5⟩
      exact ⟨x1, x2, t, x3, v, y, h1, h2, h3, h4, h5⟩
    · rintro ⟨x1, x2, t, x3, v, y, h1, h2, h3, h4, h5⟩
      exact ⟨x1, h1, x2, h2, _, x3, ⟨t, h3, rfl⟩, _, y, ⟨v, h4, rfl⟩, h5⟩

theorem ends_elementBlocks (cfg : Cfg) (l : List ElementBlock) (x : Place) : EndsAt k (forEach (loadElementBlockAscii41 cfg) l) x (ElementBlocksTextEnd cfg k l x) :=
  EndsAt.forEach (fun b Q x => ∃ x1 x2 t x3 v y, SkipsInt x x1 ∧ SkipsInt x1 x2 ∧ TakesInt x2 t x3 ∧ TakesSize x3 v y ∧
      ∃ m ∈ mshNodes (t.getD b.elementType), ∃ z, (v.getD b.numElementsInBlock).toNat * (m + 1) ≤ cfg.maxCount ∧
        Many SkipsSize ((v.getD b.numElementsInBlock).toNat * (m + 1)) y z ∧ Asserted cfg k z (Q z))
    (ends_elementBlock cfg) (ElementBlocksTextEnd cfg k) (fun _ => Iff.rfl) (fun _ _ _ => Iff.rfl) l x

theorem ends_elements41 (cfg : Cfg) (e : Elements) (x : Place) : EndsAt k (loadElementsAscii41 cfg e) x (Elements41TextEnds cfg k e x) := by
  unfold loadElementsAscii41
  refine (EndsAt.yields (inSize_yields e.numEntityBlocks) fun v x1 _ => EndsAt.passes (inSize_passes _) fun _ x2 => EndsAt.passes (inSize_passes _) fun _ x3 =>
    EndsAt.passes (inSize_passes _) fun _ y => EndsAt.assertGood (EndsAt.resize fun _ => (ends_elementBlocks cfg _ y).last fun _ _ => ⟨_, rfl⟩)).iff ?_
  unfold Elements41TextEnds
  simp only [many_three]
  constructor
  · rintro ⟨_, x1, ⟨v, hv, rfl⟩, x2, h2, x3, h3, y, h4, h5⟩
    exact ⟨v, x1, y, hv, ⟨x2, x3, h2, h3, h4⟩, h5⟩
  · rintro ⟨v, x1, y, hv, ⟨x2, x3, h2, h3, h4⟩, h5⟩
    exact ⟨_, x1, ⟨v, hv, rfl⟩, x2, h2, x3, h3, y, h4, h5⟩

end MshIO
