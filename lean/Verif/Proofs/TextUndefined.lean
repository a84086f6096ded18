import Verif.Spec.Undefined
import Verif.Proofs.TextRead
import Verif.Proofs.SafeSections

/-! # When reading sections in text is undefined -/

namespace MshIO

variable {α β : Type}

/-- From the place `x` on, `m` is undefined exactly if `Q`. -/
def UbAt (m : Rd α) (x : Place) (Q : Prop) : Prop := ∀ st, At x st → (m st = .ub ↔ Q)

theorem UbAt.pure (a : α) (x : Place) : UbAt (Pure.pure a : Rd α) x False := fun _ _ => ⟨(fun h => by cases h), fun h => h.elim⟩

theorem UbAt.throw (e : Exc) (x : Place) : UbAt (Rd.throw e : Rd α) x False := fun _ _ => ⟨(fun h => by cases h), fun h => h.elim⟩

theorem UbAt.iff {m : Rd α} {x : Place} {Q Q' : Prop} (h : UbAt m x Q) (e : Q ↔ Q') : UbAt m x Q' := fun st hs => (h st hs).trans e

theorem UbAt.yields {m : Rd α} {R : Place → α → Place → Prop} (hm : Yields m R) {f : α → Rd β} {x : Place} {Q : α → Place → Prop}
    (h : ∀ v y, R x v y → UbAt (f v) y (Q v y)) : UbAt (m >>= f) x (∃ v y, R x v y ∧ Q v y) := by
  intro st hs
  constructor
  · intro hu
    obtain ⟨v, y, hr⟩ := hm.total x
    obtain ⟨st', e, hs'⟩ := hm.sound hr hs.cur
    rw [Rd.bind_ok e] at hu
    exact ⟨v, y, hr, (h v y hr st' hs').mp hu⟩
  · rintro ⟨v, y, hr, hq⟩
    obtain ⟨st', e, hs'⟩ := hm.sound hr hs.cur
    rw [Rd.bind_ok e]
    exact (h v y hr st' hs').mpr hq

theorem UbAt.passes {m : Rd α} {R : Place → Place → Prop} (hm : Passes m R) {f : α → Rd β} {x : Place} {Q : Place → Prop}
    (h : ∀ v y, UbAt (f v) y (Q y)) : UbAt (m >>= f) x (∃ y, R x y ∧ Q y) := by
  intro st hs
  constructor
  · intro hu
    obtain ⟨y, hr⟩ := hm.total x
    obtain ⟨v, st', e, hs'⟩ := hm.sound hr hs
    rw [Rd.bind_ok e] at hu
    exact ⟨y, hr, (h v y st' hs').mp hu⟩
  · rintro ⟨y, hr, hq⟩
    obtain ⟨v, st', e, hs'⟩ := hm.sound hr hs
    rw [Rd.bind_ok e]
    exact (h v y st' hs').mpr hq

theorem UbAt.resize {cfg : Cfg} {v : List β} {n : UInt64} {d : β} {f : List β → Rd α} {x : Place} {Q : Prop}
    (h : n.toNat ≤ cfg.maxCount → UbAt (f (v.take n.toNat ++ List.replicate (n.toNat - v.length) d)) x Q) : UbAt (MshIO.resize cfg v n d >>= f) x (n.toNat ≤ cfg.maxCount ∧ Q) := by
  intro st hs
  by_cases hn : n.toNat ≤ cfg.maxCount
  · have : MshIO.resize cfg v n d st = .ok (v.take n.toNat ++ List.replicate (n.toNat - v.length) d, st) := by unfold MshIO.resize vecResize; rw [if_pos hn]; rfl
    rw [Rd.bind_ok this, h hn st hs]
    exact ⟨fun h => ⟨hn, h⟩, fun h => h.2⟩
  · have : MshIO.resize cfg v n d st = .throw .alloc := by unfold MshIO.resize vecResize; rw [if_neg hn]; rfl
    rw [Rd.bind_def, this]
    exact ⟨(fun h => by cases h), fun h => absurd h.1 hn⟩

theorem At.good {x : Place} {st : Stream} (h : At x st) : st.good = true ↔ x.Good := by
  cases x with
  | on r =>
    have h : st = payload r := h
    subst h
    cases r with
    | nil => exact ⟨(fun h => by cases h), fun ⟨c, r, e⟩ => by cases e⟩
    | cons c r => exact ⟨fun _ => ⟨c, r, rfl⟩, fun _ => rfl⟩
  | stuck =>
    obtain ⟨h1, h2⟩ := h
    exact ⟨(fun h => by simp [Stream.good, h1] at h), fun ⟨c, r, e⟩ => by cases e⟩
  | ended =>
    obtain ⟨h1, h2⟩ := h
    exact ⟨(fun h => by simp [Stream.good, h1] at h), fun ⟨c, r, e⟩ => by cases e⟩

theorem UbAt.assertGood {cfg : Cfg} {f : Unit → Rd α} {x : Place} {Q : Prop} (h : UbAt (f ()) x Q) : UbAt (MshIO.assertGood cfg >>= f) x ((cfg.asserts = true → x.Good) ∧ Q) := by
  intro st hs
  have hg := hs.good
  by_cases hc : cfg.asserts = true → x.Good
  · have : MshIO.assertGood cfg st = .ok ((), st) := by
      unfold MshIO.assertGood
      rw [if_neg]
      intro hh
      simp only [Bool.and_eq_true, Bool.not_eq_true'] at hh
      have := hg.mpr (hc hh.1)
      rw [this] at hh
      cases hh.2
    rw [Rd.bind_ok this, h st hs]
    exact ⟨fun h => ⟨hc, h⟩, fun h => h.2⟩
  · rw [Classical.not_imp] at hc
    have : MshIO.assertGood cfg st = .abort := by
      unfold MshIO.assertGood
      rw [if_pos]
      simp only [Bool.and_eq_true, Bool.not_eq_true']
      refine ⟨hc.1, ?_⟩
      rw [← Bool.not_eq_true]
      exact fun hh => hc.2 (hg.mp hh)
    rw [Rd.bind_def, this]
    exact ⟨(fun h => by cases h), fun h => absurd (h.1 hc.1) hc.2⟩

theorem UbAt.assertC {cfg : Cfg} {c : Bool} {P : Prop} (hP : c = true ↔ P) {f : Unit → Rd α} {x : Place} {Q : Prop} (h : UbAt (f ()) x Q) :
    UbAt (MshIO.assertC cfg c >>= f) x ((cfg.asserts = true → P) ∧ Q) := by
  intro st hs
  by_cases hc : cfg.asserts = true → P
  · have : MshIO.assertC cfg c st = .ok ((), st) := by
      unfold MshIO.assertC
      rw [if_neg]
      intro hh
      simp only [Bool.and_eq_true, Bool.not_eq_true'] at hh
      have := hP.mpr (hc hh.1)
      rw [this] at hh
      cases hh.2
    rw [Rd.bind_ok this, h st hs]
    exact ⟨fun h => ⟨hc, h⟩, fun h => h.2⟩
  · rw [Classical.not_imp] at hc
    have : MshIO.assertC cfg c st = .abort := by
      unfold MshIO.assertC
      rw [if_pos]
      simp only [Bool.and_eq_true, Bool.not_eq_true']
      refine ⟨hc.1, ?_⟩
      rw [← Bool.not_eq_true]
      exact fun hh => hc.2 (hP.mp hh)
    rw [Rd.bind_def, this]
    exact ⟨(fun h => by cases h), fun h => absurd (h.1 hc.1) hc.2⟩

theorem UbAt.useVar {v : Option β} {f : β → Rd α} {x : Place} {Q : β → Prop} (h : ∀ n, v = some n → UbAt (f n) x (Q n)) : UbAt (MshIO.useVar v >>= f) x (∀ n ∈ v, Q n) := by
  intro st hs
  cases v with
  | none => exact ⟨(fun _ n hn => by cases hn), fun _ => rfl⟩
  | some n =>
    have : MshIO.useVar (some n) st = .ok (n, st) := rfl
    rw [Rd.bind_ok this, h n rfl st hs]
    exact ⟨fun h m hm => by cases hm; exact h, fun h => h n rfl⟩

theorem UbAt.lift {o : Outcome β} {b : β} (ho : o = .ok b) {f : β → Rd α} {x : Place} {Q : Prop} (h : UbAt (f b) x Q) : UbAt (Rd.lift o >>= f) x Q := by
  intro st hs
  rw [Rd.bind_ok (Rd.lift_ok ho st), h st hs]

/-- Something that is never undefined. -/
theorem UbAt.never {m : Rd α} {x : Place} (h : ∀ st, m st ≠ .ub) : UbAt m x False := fun st _ => ⟨fun hu => h st hu, fun h => h.elim⟩

/-- What follows is never undefined. -/
theorem UbAt.last {m : Rd α} {f : α → Rd β} {x : Place} {Q : Prop} (h : UbAt m x Q) (hf : ∀ a s, f a s ≠ .ub) : UbAt (m >>= f) x Q := by
  intro st hs
  rw [ub_bind hf]
  exact h st hs

/-! ## Readers -/

theorem Yields.getD {α : Type} {m : Rd (Option α)} {R : Place → Option α → Place → Prop} (h : Yields m R) (old : α) :
    Yields (do return (← m).getD old) fun x a y => ∃ v, R x v y ∧ a = v.getD old where
  sound := by
    rintro x a y st ⟨v, hr, rfl⟩ hc
    obtain ⟨st', e, hs⟩ := h.sound hr hc
    exact ⟨st', by rw [Rd.bind_ok e]; rfl, hs⟩
  total x := by obtain ⟨v, y, h⟩ := h.total x; exact ⟨_, y, v, h, rfl⟩

theorem inSize_yields (old : UInt64) : Yields (inSize old) fun x a y => ∃ v, TakesSize x v y ∧ a = v.getD old := extractSize_yields.getD old

theorem inInt_yields (old : Int32) : Yields (inInt old) fun x a y => ∃ v, TakesInt x v y ∧ a = v.getD old := extractInt_yields.getD old

theorem inSize_passes (old : UInt64) : Passes (inSize old) SkipsSize where
  sound := by
    rintro x y st ⟨v, hr⟩ hs
    obtain ⟨st', e, hs⟩ := (inSize_yields old).sound ⟨v, hr, rfl⟩ hs.cur
    exact ⟨_, st', e, hs⟩
  total x := by obtain ⟨v, y, h⟩ := extractSize_yields.total x; exact ⟨y, v, h⟩

theorem inInt_passes (old : Int32) : Passes (inInt old) SkipsInt where
  sound := by
    rintro x y st ⟨v, hr⟩ hs
    obtain ⟨st', e, hs⟩ := (inInt_yields old).sound ⟨v, hr, rfl⟩ hs.cur
    exact ⟨_, st', e, hs⟩
  total x := by obtain ⟨v, y, h⟩ := extractInt_yields.total x; exact ⟨y, v, h⟩

theorem inDouble_passes (old : Double) : Passes (inDouble old) TakesReal where
  sound := by
    intro x y st hr hs
    obtain ⟨v, st', e, hs⟩ := extractDouble_passes.sound hr hs
    exact ⟨v.getD old, st', by unfold inDouble; rw [Rd.bind_ok e]; rfl, hs⟩
  total := extractDouble_passes.total

theorem many_total {R : Place → Place → Prop} (h : ∀ x, ∃ y, R x y) (n : Nat) (x : Place) : ∃ y, Many R n x y := by
  induction n generalizing x with
  | zero => exact ⟨x, .zero⟩
  | succ n ih =>
    obtain ⟨y, h1⟩ := h x
    obtain ⟨z, h2⟩ := ih y
    exact ⟨z, .next h1 h2⟩

theorem forEach_passes {f : α → Rd α} {R : Place → Place → Prop} (h : ∀ a, Passes (f a) R) (hR : ∀ x, ∃ y, R x y) (l : List α) : Passes (forEach f l) (Many R l.length) where
  sound := by
    induction l with
    | nil =>
      intro x y st hr hs
      cases hr
      exact ⟨[], st, rfl, hs⟩
    | cons a l ih =>
      intro x y st hr hs
      cases hr with
      | next h1 h2 =>
        obtain ⟨v, st1, e1, hs1⟩ := (h a).sound h1 hs
        obtain ⟨l', st2, e2, hs2⟩ := ih h2 hs1
        refine ⟨v :: l', st2, ?_, hs2⟩
        unfold forEach
        rw [Rd.bind_ok e1, Rd.bind_ok e2]
        rfl
  total x := many_total hR _ x

theorem size_total (x : Place) : ∃ y, SkipsSize x y := (inSize_passes 0).total x
theorem int_total (x : Place) : ∃ y, SkipsInt x y := (inInt_passes 0).total x
theorem real_total (x : Place) : ∃ y, TakesReal x y := extractDouble_passes.total x

theorem forEach_inQuoted {l : List Bytes} {x y : Place} {st : Stream} (hr : Many TakesQuoted l.length x y) (hc : Cur x st) :
    ∃ l' st', forEach inQuoted l st = .ok (l', st') ∧ Cur y st' := by
  induction l generalizing x st with
  | nil => cases hr; exact ⟨[], st, rfl, hc⟩
  | cons a l ih =>
    cases hr with
    | next h1 h2 =>
      obtain ⟨v, st1, e1, hs1⟩ := inQuoted_sound a h1 hc
      obtain ⟨l', st2, e2, hs2⟩ := ih h2 hs1
      refine ⟨v :: l', st2, ?_, hs2⟩
      unfold forEach
      rw [Rd.bind_ok e1, Rd.bind_ok e2]
      rfl

/-- Reading strings, then a number. -/
theorem UbAt.strings {γ : Type} {l : List Bytes} {n : Nat} (hl : l.length = n) {x : Place} {R : Place → γ → Place → Prop} {m : Rd γ} (hm : Yields m R) {Q : γ → Place → Prop} {k : List Bytes → γ → Rd α}
    (h : ∀ l v y, UbAt (k l v) y (Q v y)) :
    UbAt (forEach inQuoted l >>= fun l => m >>= k l) x (∃ y, Many TakesQuoted n x y ∧ ∃ v z, R y v z ∧ Q v z) := by
  subst hl
  intro st hs
  constructor
  · intro hu
    obtain ⟨y, hr⟩ := many_total takesQuoted_total l.length x
    obtain ⟨l', st', e, hc⟩ := forEach_inQuoted hr hs.cur
    obtain ⟨v, z, hr'⟩ := hm.total y
    obtain ⟨st2, e2, hs2⟩ := hm.sound hr' hc
    rw [Rd.bind_ok e, Rd.bind_ok e2] at hu
    exact ⟨y, hr, v, z, hr', (h l' v z st2 hs2).mp hu⟩
  · rintro ⟨y, hr, v, z, hr', hq⟩
    obtain ⟨l', st', e, hc⟩ := forEach_inQuoted hr hs.cur
    obtain ⟨st2, e2, hs2⟩ := hm.sound hr' hc
    rw [Rd.bind_ok e, Rd.bind_ok e2]
    exact (h l' v z st2 hs2).mpr hq

theorem takesInts_total (n : Nat) (x : Place) : ∃ l y, TakesInts n x l y := by
  induction n generalizing x with
  | zero => exact ⟨_, _, .zero⟩
  | succ n ih =>
    obtain ⟨v, y, h1⟩ := extractInt_yields.total x
    obtain ⟨l, z, h2⟩ := ih y
    exact ⟨_, _, .next h1 h2⟩

theorem forEach_inInt (n : Nat) {x y : Place} {l : List Int32} {st : Stream} (hr : TakesInts n x l y) (hs : At x st) :
    ∃ st', forEach inInt (List.replicate n 0) st = .ok (l, st') ∧ At y st' := by
  induction hr generalizing st with
  | zero => exact ⟨st, rfl, hs⟩
  | next h1 _ ih =>
    obtain ⟨st1, e1, hs1⟩ := (inInt_yields 0).sound ⟨_, h1, rfl⟩ hs.cur
    obtain ⟨st2, e2, hs2⟩ := ih hs1
    refine ⟨st2, ?_, hs2⟩
    rw [List.replicate_succ]
    unfold forEach
    rw [Rd.bind_ok e1, Rd.bind_ok e2]
    rfl

theorem UbAt.ints {n : Nat} {f : List Int32 → Rd α} {x : Place} {Q : List Int32 → Place → Prop} (h : ∀ l y, UbAt (f l) y (Q l y)) :
    UbAt (forEach inInt (List.replicate n 0) >>= f) x (∃ l y, TakesInts n x l y ∧ Q l y) := by
  intro st hs
  constructor
  · intro hu
    obtain ⟨l, y, hr⟩ := takesInts_total n x
    obtain ⟨st', e, hs'⟩ := forEach_inInt n hr hs
    rw [Rd.bind_ok e] at hu
    exact ⟨l, y, hr, (h l y st' hs').mp hu⟩
  · rintro ⟨l, y, hr, hq⟩
    obtain ⟨st', e, hs'⟩ := forEach_inInt n hr hs
    rw [Rd.bind_ok e]
    exact (h l y st' hs').mpr hq

/-! ## Tables -/

/-- Reading into an element of a vector. -/
structure Fills {τ : Type} (f : UInt64 → List τ → Rd (List τ)) (R : Place → Place → Prop) : Prop where
  inside : ∀ {i v x y st}, i.toNat < v.length → R x y → At x st → ∃ v' st', f i v st = .ok (v', st') ∧ v'.length = v.length ∧ At y st'
  outside : ∀ {i v} st, v.length ≤ i.toNat → f i v st = .ub
  total : ∀ x, ∃ y, R x y

theorem inDoubleAt_fills : Fills inDoubleAt TakesReal where
  inside := by
    intro i v x y st hi hr hs
    obtain ⟨a, st', e, hs'⟩ := (inDouble_passes v[i.toNat]).sound hr hs
    refine ⟨v.set i.toNat a, st', ?_, List.length_set, hs'⟩
    unfold inDoubleAt
    rw [List.getElem?_eq_getElem hi]
    simp only
    rw [Rd.bind_ok e]
    rfl
  outside := by
    intro i v st hi
    unfold inDoubleAt
    rw [List.getElem?_eq_none hi]
    rfl
  total := real_total

theorem inSizeAt_fills : Fills inSizeAt SkipsSize where
  inside := by
    intro i v x y st hi hr hs
    obtain ⟨a, st', e, hs'⟩ := (inSize_passes v[i.toNat]).sound hr hs
    refine ⟨v.set i.toNat a, st', ?_, List.length_set, hs'⟩
    unfold inSizeAt
    rw [List.getElem?_eq_getElem hi]
    simp only
    rw [Rd.bind_ok e]
    rfl
  outside := by
    intro i v st hi
    unfold inSizeAt
    rw [List.getElem?_eq_none hi]
    rfl
  total := size_total

theorem many_add {R : Place → Place → Prop} {a b : Nat} {x z : Place} : Many R (a + b) x z ↔ ∃ y, Many R a x y ∧ Many R b y z := by
  induction a generalizing x with
  | zero =>
    rw [Nat.zero_add]
    exact ⟨fun h => ⟨x, .zero, h⟩, fun ⟨y, h1, h2⟩ => by cases h1; exact h2⟩
  | succ a ih =>
    rw [Nat.succ_add]
    constructor
    · intro h
      cases h with
      | next h1 h2 => obtain ⟨y, h3, h4⟩ := ih.mp h2; exact ⟨y, .next h1 h3, h4⟩
    · rintro ⟨y, h1, h2⟩
      cases h1 with
      | next h3 h4 => exact .next h3 (ih.mpr ⟨y, h4, h2⟩)

theorem many_one {R : Place → Place → Prop} {x y : Place} : Many R 1 x y ↔ R x y :=
  ⟨fun h => by cases h with | next h1 h2 => cases h2; exact h1, fun h => .next h .zero⟩

section
variable {τ : Type} {f : UInt64 → List τ → Rd (List τ)} {R : Place → Place → Prop}

theorem cell_index {base : UInt64} {k l : Nat} (h : base.toNat + k ≤ l) (hl : l < 2 ^ 60) : (base + UInt64.ofNat k).toNat = base.toNat + k := by
  rw [UInt64.toNat_add, UInt64.toNat_ofNat']
  omega

theorem row_ok (hf : Fills f R) {base : UInt64} (n : Nat) {k : Nat} {v : List τ} (h : base.toNat + k + n ≤ v.length) (hl : v.length < 2 ^ 60) {x y : Place} {st : Stream}
    (hr : Many R n x y) (hs : At x st) : ∃ v' st', loopN (fun k v => f (base + UInt64.ofNat k) v) n k v st = .ok (v', st') ∧ v'.length = v.length ∧ At y st' := by
  induction n generalizing k v x st with
  | zero => cases hr; exact ⟨v, st, rfl, rfl, hs⟩
  | succ n ih =>
    cases hr with
    | next h1 h2 =>
      obtain ⟨v1, st1, e1, l1, hs1⟩ := hf.inside (i := base + UInt64.ofNat k) (v := v) (by rw [cell_index (l := v.length) (by omega) hl]; omega) h1 hs
      obtain ⟨v2, st2, e2, l2, hs2⟩ := ih (k := k + 1) (v := v1) (by omega) (by omega) h2 hs1
      refine ⟨v2, st2, ?_, by omega, hs2⟩
      unfold loopN
      rw [Rd.bind_ok e1, e2]

theorem row_ub (hf : Fills f R) {base : UInt64} (n : Nat) {k : Nat} {v : List τ} (h : base.toNat + k ≤ v.length) (h' : v.length < base.toNat + k + n) (hl : v.length < 2 ^ 60)
    {x : Place} {st : Stream} (hs : At x st) : loopN (fun k v => f (base + UInt64.ofNat k) v) n k v st = .ub := by
  induction n generalizing k v x st with
  | zero => omega
  | succ n ih =>
    unfold loopN
    have hi := cell_index (l := v.length) h hl
    by_cases hk : base.toNat + k = v.length
    · rw [Rd.bind_def, hf.outside (i := base + UInt64.ofNat k) (v := v) st (by omega)]
    · obtain ⟨y, hr⟩ := hf.total x
      obtain ⟨v1, st1, e1, l1, hs1⟩ := hf.inside (i := base + UInt64.ofNat k) (v := v) (by omega) hr hs
      rw [Rd.bind_ok e1]
      exact ih (by omega) (by omega) (by omega) hs1

theorem table_base {e : UInt64} {j l : Nat} (h : j * e.toNat ≤ l) (hl : l < 2 ^ 60) : (UInt64.ofNat j * e).toNat = j * e.toNat := by
  rw [UInt64.toNat_mul, UInt64.toNat_ofNat', Nat.mod_mul_mod, Nat.mod_eq_of_lt]
  omega

theorem table_ok (hf : Fills f R) {e : UInt64} {w : Nat} (hw : w = e.toNat) (n : Nat) {j : Nat} {v : List τ} (h : j * w + n * w ≤ v.length) (hl : v.length < 2 ^ 60)
    {x y : Place} {st : Stream} (hr : Many R (n * w) x y) (hs : At x st) :
    ∃ v' st', loopN (fun j v => loopN (fun k v => f (UInt64.ofNat j * e + UInt64.ofNat k) v) w 0 v) n j v st = .ok (v', st') ∧ v'.length = v.length ∧ At y st' := by
  induction n generalizing j v x st with
  | zero => rw [Nat.zero_mul] at hr; cases hr; exact ⟨v, st, rfl, rfl, hs⟩
  | succ n ih =>
    rw [Nat.succ_mul] at h hr
    rw [Nat.add_comm] at hr
    obtain ⟨z, h1, h2⟩ := many_add.mp hr
    have hb := table_base (e := e) (j := j) (l := v.length) (by rw [← hw]; omega) hl
    rw [← hw] at hb
    obtain ⟨v1, st1, e1, l1, hs1⟩ := row_ok hf (base := UInt64.ofNat j * e) w (k := 0) (v := v) (by omega) hl h1 hs
    obtain ⟨v2, st2, e2, l2, hs2⟩ := ih (j := j + 1) (v := v1) (by rw [Nat.succ_mul]; omega) (by omega) h2 hs1
    refine ⟨v2, st2, ?_, by omega, hs2⟩
    unfold loopN
    rw [Rd.bind_ok e1, e2]

theorem table_ub (hf : Fills f R) {e : UInt64} {w : Nat} (hw : w = e.toNat) (n : Nat) {j : Nat} {v : List τ} (h : j * w ≤ v.length) (h' : v.length < j * w + n * w)
    (hl : v.length < 2 ^ 60) {x : Place} {st : Stream} (hs : At x st) :
    loopN (fun j v => loopN (fun k v => f (UInt64.ofNat j * e + UInt64.ofNat k) v) w 0 v) n j v st = .ub := by
  induction n generalizing j v x st with
  | zero => omega
  | succ n ih =>
    rw [Nat.succ_mul] at h'
    have hb := table_base (e := e) (j := j) (l := v.length) (by rw [← hw]; omega) hl
    rw [← hw] at hb
    unfold loopN
    by_cases hk : j * w + w ≤ v.length
    · obtain ⟨y, hr⟩ := many_total hf.total w x
      obtain ⟨v1, st1, e1, l1, hs1⟩ := row_ok hf (base := UInt64.ofNat j * e) w (k := 0) (v := v) (by omega) hl hr hs
      rw [Rd.bind_ok e1]
      exact ih (by rw [Nat.succ_mul]; omega) (by rw [Nat.succ_mul]; omega) (by omega) hs1
    · rw [Rd.bind_def, row_ub hf (base := UInt64.ofNat j * e) w (k := 0) (v := v) (by omega) (by omega) hl hs]

theorem UbAt.table {cfg : Cfg} (hf : Fills f R) {e m : UInt64} {w n total : Nat} (hw : w = e.toNat) (hm : m.toNat = total % 2 ^ 64) (ht : total = n * w) {v : List τ} {d : τ}
    {K : List τ → Rd α} {x : Place} {P : Place → Prop} (h : ∀ v y, UbAt (K v) y (P y)) :
    UbAt (MshIO.resize cfg v m d >>= fun v => loopN (fun j v => loopN (fun k v => f (UInt64.ofNat j * e + UInt64.ofNat k) v) w 0 v) n 0 v >>= K) x
      (TableUndefined cfg R total x P) := by
  unfold TableUndefined
  rw [← hm]
  refine UbAt.resize fun hn => ?_
  have hl := resized_length v m.toNat d
  have hx := cfg.maxCount_lt
  generalize v.take m.toNat ++ List.replicate (m.toNat - v.length) d = u at hl ⊢
  intro st hs
  by_cases hb : 2 ^ 64 ≤ total
  · rw [Rd.bind_def, table_ub hf hw n (j := 0) (v := u) (by omega) (by have := Nat.mod_lt total (y := 2 ^ 64) (by decide); omega) (by omega) hs]
    exact ⟨fun _ => Or.inl hb, fun _ => rfl⟩
  · rw [Nat.mod_eq_of_lt (by omega)] at hm
    constructor
    · intro hu
      obtain ⟨y, hr⟩ := many_total hf.total total x
      obtain ⟨v1, st1, e1, l1, hs1⟩ := table_ok hf hw n (j := 0) (v := u) (by omega) (by omega) (ht ▸ hr) hs
      rw [Rd.bind_ok e1] at hu
      exact Or.inr ⟨y, hr, (h v1 y st1 hs1).mp hu⟩
    · rintro (hh | ⟨y, hr, hp⟩)
      · exact absurd hh hb
      · obtain ⟨v1, st1, e1, l1, hs1⟩ := table_ok hf hw n (j := 0) (v := u) (by omega) (by omega) (ht ▸ hr) hs
        rw [Rd.bind_ok e1]
        exact (h v1 y st1 hs1).mpr hp

end

/-- Reading the members of a list one after the other. -/
theorem UbAt.forEach {f : α → Rd α} (T : α → (Place → Prop) → Place → Prop)
    (h : ∀ b (K : α → Rd (List α)) Q x, (∀ b' y, UbAt (K b') y (Q y)) → UbAt (f b >>= K) x (T b Q x)) (P : List α → Place → Prop) (h0 : ∀ x, ¬ P [] x)
    (h1 : ∀ b bs x, T b (P bs) x ↔ P (b :: bs) x) : ∀ l x, UbAt (MshIO.forEach f l) x (P l x)
  | [], x => fun _ _ => ⟨(fun h => by cases h), fun h => absurd h (h0 x)⟩
  | b :: bs, x => by
    unfold MshIO.forEach
    refine (h b _ (P bs) x fun b' y => ?_).iff (h1 b bs x)
    exact (UbAt.forEach T h P h0 h1 bs y).last fun _ _ hh => by cases hh

end MshIO
