import Verif.Proofs.Throws
import Verif.Spec.Rejected

/-! # When reading a section ends with an exception of the library -/

namespace MshIO

variable {α β : Type} {ex : Exc}

/-- From the place `x` on, `m` throws `ex` exactly if `Q`. -/
def ThrowsAt (ex : Exc) (m : Rd α) (x : Place) (Q : Prop) : Prop := ∀ st, At x st → (m st = .throw ex ↔ Q)

theorem throw_bind {m : Rd α} {f : α → Rd β} {s : Stream} (h : ∀ a s', f a s' ≠ .throw ex) : (m >>= f) s = .throw ex ↔ m s = .throw ex := by
  rw [Rd.bind_def]
  cases hm : m s with
  | ok x => obtain ⟨a, t⟩ := x; exact ⟨fun h' => absurd h' (h a t), fun h => by cases h⟩
  | throw x => exact ⟨fun h => by injection h with h; rw [h], fun h => by injection h with h; rw [h]⟩
  | abort => exact ⟨(fun h => by cases h), fun h => by cases h⟩
  | hang => exact ⟨(fun h => by cases h), fun h => by cases h⟩
  | ub => exact ⟨(fun h => by cases h), fun h => by cases h⟩

theorem ThrowsAt.never {m : Rd α} {x : Place} (h : ∀ st, m st ≠ .throw ex) : ThrowsAt ex m x False := fun st _ => ⟨fun hu => h st hu, fun h => h.elim⟩

theorem ThrowsAt.within {m : Rd α} {x : Place} {T : List Exc} {ab : Bool} (h : WithinR T ab m) (hx : ex ∉ T) : ThrowsAt ex m x False := ThrowsAt.never fun st hu => by
  have := h.all st
  rw [hu] at this
  exact hx this

theorem ThrowsAt.throw (x : Place) : ThrowsAt ex (Rd.throw ex : Rd α) x True := fun _ _ => ⟨fun _ => trivial, fun _ => rfl⟩

theorem ThrowsAt.useVar {v : Option β} {f : β → Rd α} {x : Place} {Q : β → Prop} (h : ∀ n, v = some n → ThrowsAt ex (f n) x (Q n)) :
    ThrowsAt ex (MshIO.useVar v >>= f) x (∃ n ∈ v, Q n) := by
  intro st hs
  cases v with
  | none => exact ⟨(fun h => by cases h), fun ⟨n, hn, _⟩ => by cases hn⟩
  | some n =>
    have : MshIO.useVar (some n) st = .ok (n, st) := rfl
    rw [Rd.bind_ok this, h n rfl st hs]
    exact ⟨fun h => ⟨n, rfl, h⟩, fun ⟨m, hm, h⟩ => by cases hm; exact h⟩

theorem ThrowsAt.iff {m : Rd α} {x : Place} {Q Q' : Prop} (h : ThrowsAt ex m x Q) (e : Q ↔ Q') : ThrowsAt ex m x Q' := fun st hs => (h st hs).trans e

theorem ThrowsAt.yields {m : Rd α} {R : Place → α → Place → Prop} (hm : Yields m R) {f : α → Rd β} {x : Place} {Q : α → Place → Prop}
    (h : ∀ v y, R x v y → ThrowsAt ex (f v) y (Q v y)) : ThrowsAt ex (m >>= f) x (∃ v y, R x v y ∧ Q v y) := by
  intro st hs
  constructor
  · intro hu
    obtain ⟨v, y, hr⟩ := hm.total x
    obtain ⟨st', e, hs'⟩ := hm.sound hr hs.cur
    rw [Rd.bind_ok e] at hu
    exact ⟨v, y, hr, (h v y hr st' hs').mp hu⟩
  · rintro ⟨v, y, hr, hq⟩
    obtain ⟨st', e, hs'⟩ := hm.sound hr hs.cur
    rw [Rd.bind_ok e]
    exact (h v y hr st' hs').mpr hq

theorem ThrowsAt.passes {m : Rd α} {R : Place → Place → Prop} (hm : Passes m R) {f : α → Rd β} {x : Place} {Q : Place → Prop}
    (h : ∀ v y, ThrowsAt ex (f v) y (Q y)) : ThrowsAt ex (m >>= f) x (∃ y, R x y ∧ Q y) := by
  intro st hs
  constructor
  · intro hu
    obtain ⟨y, hr⟩ := hm.total x
    obtain ⟨v, st', e, hs'⟩ := hm.sound hr hs
    rw [Rd.bind_ok e] at hu
    exact ⟨y, hr, (h v y st' hs').mp hu⟩
  · rintro ⟨y, hr, hq⟩
    obtain ⟨v, st', e, hs'⟩ := hm.sound hr hs
    rw [Rd.bind_ok e]
    exact (h v y st' hs').mpr hq

theorem ThrowsAt.resize (he : ex ≠ .alloc) {cfg : Cfg} {v : List β} {n : UInt64} {d : β} {f : List β → Rd α} {x : Place} {Q : Prop}
    (h : n.toNat ≤ cfg.maxCount → ThrowsAt ex (f (v.take n.toNat ++ List.replicate (n.toNat - v.length) d)) x Q) : ThrowsAt ex (MshIO.resize cfg v n d >>= f) x (n.toNat ≤ cfg.maxCount ∧ Q) := by
  intro st hs
  by_cases hn : n.toNat ≤ cfg.maxCount
  · have : MshIO.resize cfg v n d st = .ok (v.take n.toNat ++ List.replicate (n.toNat - v.length) d, st) := by unfold MshIO.resize vecResize; rw [if_pos hn]; rfl
    rw [Rd.bind_ok this, h hn st hs]
    exact ⟨fun h => ⟨hn, h⟩, fun h => h.2⟩
  · have : MshIO.resize cfg v n d st = .throw .alloc := by unfold MshIO.resize vecResize; rw [if_neg hn]; rfl
    rw [Rd.bind_def, this]
    exact ⟨(fun h => by injection h with h; exact absurd h.symm he), fun h => absurd h.1 hn⟩

theorem ThrowsAt.assertGood {cfg : Cfg} {f : Unit → Rd α} {x : Place} {Q : Prop} (h : ThrowsAt ex (f ()) x Q) : ThrowsAt ex (MshIO.assertGood cfg >>= f) x ((cfg.asserts = true → x.Good) ∧ Q) := by
  intro st hs
  have hg := hs.good
  by_cases hc : cfg.asserts = true → x.Good
  · have : MshIO.assertGood cfg st = .ok ((), st) := by
      unfold MshIO.assertGood
      rw [if_neg]
      intro hh
      simp only [Bool.and_eq_true, Bool.not_eq_true'] at hh
      have := hg.mpr (hc hh.1)
      rw [this] at hh
      cases hh.2
    rw [Rd.bind_ok this, h st hs]
    exact ⟨fun h => ⟨hc, h⟩, fun h => h.2⟩
  · rw [Classical.not_imp] at hc
    have : MshIO.assertGood cfg st = .abort := by
      unfold MshIO.assertGood
      rw [if_pos]
      simp only [Bool.and_eq_true, Bool.not_eq_true']
      refine ⟨hc.1, ?_⟩
      rw [← Bool.not_eq_true]
      exact fun hh => hc.2 (hg.mp hh)
    rw [Rd.bind_def, this]
    exact ⟨(fun h => by cases h), fun h => absurd (h.1 hc.1) hc.2⟩

theorem ThrowsAt.lift {o : Outcome β} {b : β} (ho : o = .ok b) {f : β → Rd α} {x : Place} {Q : Prop} (h : ThrowsAt ex (f b) x Q) : ThrowsAt ex (Rd.lift o >>= f) x Q := by
  intro st hs
  rw [Rd.bind_ok (Rd.lift_ok ho st), h st hs]

theorem ThrowsAt.last {m : Rd α} {f : α → Rd β} {x : Place} {Q : Prop} (h : ThrowsAt ex m x Q) (hf : ∀ a s, f a s ≠ .throw ex) : ThrowsAt ex (m >>= f) x Q := by
  intro st hs
  rw [throw_bind hf]
  exact h st hs

theorem ThrowsAt.strings {γ : Type} {l : List Bytes} {n : Nat} (hl : l.length = n) {x : Place} {R : Place → γ → Place → Prop} {m : Rd γ} (hm : Yields m R) {Q : γ → Place → Prop} {k : List Bytes → γ → Rd α}
    (h : ∀ l v y, ThrowsAt ex (k l v) y (Q v y)) :
    ThrowsAt ex (forEach inQuoted l >>= fun l => m >>= k l) x (∃ y, Many TakesQuoted n x y ∧ ∃ v z, R y v z ∧ Q v z) := by
  subst hl
  intro st hs
  constructor
  · intro hu
    obtain ⟨y, hr⟩ := many_total takesQuoted_total l.length x
    obtain ⟨l', st', e, hc⟩ := forEach_inQuoted hr hs.cur
    obtain ⟨v, z, hr'⟩ := hm.total y
    obtain ⟨st2, e2, hs2⟩ := hm.sound hr' hc
    rw [Rd.bind_ok e, Rd.bind_ok e2] at hu
    exact ⟨y, hr, v, z, hr', (h l' v z st2 hs2).mp hu⟩
  · rintro ⟨y, hr, v, z, hr', hq⟩
    obtain ⟨l', st', e, hc⟩ := forEach_inQuoted hr hs.cur
    obtain ⟨st2, e2, hs2⟩ := hm.sound hr' hc
    rw [Rd.bind_ok e, Rd.bind_ok e2]
    exact (h l' v z st2 hs2).mpr hq

theorem ThrowsAt.eat {f : Unit → Rd α} {y : Place} {Q : Bytes → Prop} (h : ∀ d st, DataFrom y d → DataAt d st → (f () st = .throw ex ↔ Q d)) :
    ThrowsAt ex (eatWhiteSpace 1 >>= f) y (∃ d, DataFrom y d ∧ Q d) := by
  intro st hs
  constructor
  · intro hu
    obtain ⟨d, hd⟩ := dataFrom_exists y
    obtain ⟨st', e, hs'⟩ := eat_from hd hs
    rw [Rd.bind_ok e] at hu
    exact ⟨d, hd, (h d st' hd hs').mp hu⟩
  · rintro ⟨d, hd, hq⟩
    obtain ⟨st', e, hs'⟩ := eat_from hd hs
    rw [Rd.bind_ok e]
    exact (h d st' hd hs').mpr hq

theorem ThrowsAt.pushBack (he : ex ≠ .alloc) {cfg : Cfg} {v : List β} {b : β} {f : List β → Rd α} {x : Place} {Q : Prop} (h : ThrowsAt ex (f (v ++ [b])) x Q) :
    ThrowsAt ex (MshIO.pushBack cfg v b >>= f) x (v.length < cfg.maxCount ∧ Q) := by
  intro st hs
  by_cases hv : v.length < cfg.maxCount
  · rw [Rd.bind_ok (pushBack_ok hv b st), h st hs]
    exact ⟨fun h => ⟨hv, h⟩, fun h => h.2⟩
  · rw [Rd.bind_def, pushBack_throw hv b st]
    exact ⟨(fun h => by injection h with h; exact absurd h.symm he), fun h => absurd h.1 hv⟩

theorem ThrowsAt.counter (he : ex ≠ .alloc) {cfg : Cfg} {v : List β} {d : β} {K : List β → Rd α} {x : Place} {P : Nat → Place → Prop}
    (h : ∀ n y, n ≤ cfg.maxCount → ThrowsAt ex (K (v.take n ++ List.replicate (n - v.length) d)) y (P n y)) :
    ThrowsAt ex (extractSize >>= fun a => MshIO.useVar a >>= fun n => MshIO.resize cfg v n d >>= K) x (CounterRead cfg x P) := by
  refine (ThrowsAt.yields extractSize_yields fun _ y _ => ThrowsAt.useVar fun n _ => ThrowsAt.resize he fun hn => h n.toNat y hn).iff ?_
  constructor
  · rintro ⟨v, y, hv, n, rfl, h⟩
    exact ⟨n, y, hv, h⟩
  · rintro ⟨n, y, hv, h⟩
    exact ⟨some n, y, hv, n, rfl, h⟩

theorem forEach_keeps {f : α → Rd α} {l l' : List α} {s s' : Stream} (h : forEach f l s = .ok (l', s')) : l'.length = l.length := by
  induction l generalizing l' s with
  | nil => cases h; rfl
  | cons a l ih =>
    rw [forEach, Rd.bind_def] at h
    split at h
    · rename_i b s1 e1
      rw [Rd.bind_def] at h
      split at h
      · rename_i l2 s2 e2
        cases h
        rw [List.length_cons, List.length_cons, ih e2]
      all_goals cases h
    all_goals cases h

/-- Reading `int`s into a vector. -/
theorem ThrowsAt.ints {l : List Int32} {f : List Int32 → Rd α} {x : Place} {Q : Place → Prop} (h : ∀ l' y, l'.length = l.length → ThrowsAt ex (f l') y (Q y)) :
    ThrowsAt ex (forEach inInt l >>= f) x (∃ y, Many SkipsInt l.length x y ∧ Q y) := by
  have hm := forEach_passes inInt_passes int_total l
  intro st hs
  constructor
  · intro hu
    obtain ⟨y, hr⟩ := hm.total x
    obtain ⟨v, st', e, hs'⟩ := hm.sound hr hs
    rw [Rd.bind_ok e] at hu
    exact ⟨y, hr, (h v y (forEach_keeps e) st' hs').mp hu⟩
  · rintro ⟨y, hr, hq⟩
    obtain ⟨v, st', e, hs'⟩ := hm.sound hr hs
    rw [Rd.bind_ok e]
    exact (h v y (forEach_keeps e) st' hs').mpr hq

theorem ThrowsAt.table (he : ex ≠ .alloc) {τ : Type} {f : UInt64 → List τ → Rd (List τ)} {R : Place → Place → Prop} {cfg : Cfg} (hf : Fills f R) {e m : UInt64} {w n total : Nat}
    (hw : w = e.toNat) (hm : m.toNat = total % 2 ^ 64) (ht : total = n * w) {v : List τ} {d : τ} {K : List τ → Rd α} {x : Place} {P : Place → Prop} (h : ∀ v y, ThrowsAt ex (K v) y (P y)) :
    ThrowsAt ex (MshIO.resize cfg v m d >>= fun v => loopN (fun j v => loopN (fun k v => f (UInt64.ofNat j * e + UInt64.ofNat k) v) w 0 v) n 0 v >>= K) x
      (∃ y, total ≤ cfg.maxCount ∧ Many R total x y ∧ P y) := by
  have hx := cfg.maxCount_lt
  refine (ThrowsAt.resize (Q := total < 2 ^ 64 ∧ ∃ y, Many R total x y ∧ P y) he fun hn => ?_).iff ?_
  · have hl := resized_length v m.toNat d
    generalize v.take m.toNat ++ List.replicate (m.toNat - v.length) d = u at hl ⊢
    intro st hs
    by_cases hb : 2 ^ 64 ≤ total
    · rw [Rd.bind_def, table_ub hf hw n (j := 0) (v := u) (by omega) (by have := Nat.mod_lt total (y := 2 ^ 64) (by decide); omega) (by omega) hs]
      exact ⟨(fun h => by cases h), fun h => absurd h.1 (by omega)⟩
    · rw [Nat.mod_eq_of_lt (by omega)] at hm
      constructor
      · intro hu
        obtain ⟨y, hr⟩ := many_total hf.total total x
        obtain ⟨v1, st1, e1, l1, hs1⟩ := table_ok hf hw n (j := 0) (v := u) (by omega) (by omega) (ht ▸ hr) hs
        rw [Rd.bind_ok e1] at hu
        exact ⟨by omega, y, hr, (h v1 y st1 hs1).mp hu⟩
      · rintro ⟨-, y, hr, hp⟩
        obtain ⟨v1, st1, e1, l1, hs1⟩ := table_ok hf hw n (j := 0) (v := u) (by omega) (by omega) (ht ▸ hr) hs
        rw [Rd.bind_ok e1]
        exact (h v1 y st1 hs1).mpr hp
  · constructor
    · rintro ⟨h1, h2, y, h3, h4⟩
      rw [hm, Nat.mod_eq_of_lt h2] at h1
      exact ⟨y, h1, h3, h4⟩
    · rintro ⟨y, h1, h3, h4⟩
      rw [hm, Nat.mod_eq_of_lt (by omega)]
      exact ⟨h1, by omega, y, h3, h4⟩

/-- Reading the members of a list one after the other. -/
theorem ThrowsAt.forEach {f : α → Rd α} (T : α → (Place → Prop) → Place → Prop)
    (h : ∀ b (K : α → Rd (List α)) Q x, (∀ b' y, ThrowsAt ex (K b') y (Q y)) → ThrowsAt ex (f b >>= K) x (T b Q x)) (P : List α → Place → Prop) (h0 : ∀ x, ¬ P [] x)
    (h1 : ∀ b bs x, T b (P bs) x ↔ P (b :: bs) x) : ∀ l x, ThrowsAt ex (MshIO.forEach f l) x (P l x)
  | [], x => fun _ _ => ⟨(fun h => by cases h), fun h => absurd h (h0 x)⟩
  | b :: bs, x => by
    unfold MshIO.forEach
    refine (h b _ (P bs) x fun b' y => ?_).iff (h1 b bs x)
    exact (ThrowsAt.forEach T h P h0 h1 bs y).last fun _ _ hh => by cases hh

/-! ## Data sections -/

theorem throws_loadData {cfg : Cfg} {f : MeshFormat} (hv : f.version = b! "4.1" ∨ f.version = b! "2.2") {en : Bool} (x : Place) :
    ThrowsAt .invalidFormat (loadData cfg f en) x (CounterRead cfg x fun n x => ∃ y, Many TakesQuoted n x y ∧
      CounterRead cfg y fun n x => ∃ y, Many TakesReal n x y ∧
      CounterRead cfg y fun n x => n < 3 ∧ ∃ y, Many SkipsInt n x y ∧ (cfg.asserts = true → y.Good)) := by
  have he : Exc.invalidFormat ≠ .alloc := by decide
  have h1 : ∀ n k e, WithinR [.alloc] cfg.asserts (loadDataEntryAscii cfg n k e) := fun n k e => by unfold loadDataEntryAscii; within []
  have h2 : ∀ n k e, WithinR [.alloc] cfg.asserts (loadDataEntryBinary41 cfg n k e) := fun n k e => by unfold loadDataEntryBinary41; within []
  have h3 : ∀ n k e, WithinR [.alloc] cfg.asserts (loadDataEntryBinary22 cfg n k e) := fun n k e => by unfold loadDataEntryBinary22; within []
  simp only [loadData, loadDataHeader, Rd.bind_assoc, Rd.pure_bind]
  refine ThrowsAt.counter he fun n x _ => ?_
  simp only [List.take_nil, List.nil_append, List.length_nil, Nat.sub_zero]
  refine (ThrowsAt.strings (Q := fun v y => ∃ nr ∈ v, nr.toNat ≤ cfg.maxCount ∧ ∃ z, Many TakesReal nr.toNat y z ∧
      CounterRead cfg z fun n x => n < 3 ∧ ∃ y, Many SkipsInt n x y ∧ (cfg.asserts = true → y.Good)) List.length_replicate extractSize_yields
    fun strs v y => ThrowsAt.useVar fun nr _ => ThrowsAt.resize he fun _ => ThrowsAt.passes
    (forEach_many inDouble_passes real_total (resized_length ..)) fun reals y => ThrowsAt.counter he fun ni x _ => ?_).iff ?_
  · simp only [List.take_nil, List.nil_append, List.length_nil, Nat.sub_zero]
    refine (ThrowsAt.ints (Q := fun y => (cfg.asserts = true → y.Good) ∧ ni < 3) fun ints y hl => ThrowsAt.assertGood ?_).iff ?_
    · rw [List.length_replicate] at hl
      match ints with
      | [] => exact (ThrowsAt.throw y).iff ⟨fun _ => by simp at hl; omega, fun _ => trivial⟩
      | [_] => exact (ThrowsAt.throw y).iff ⟨fun _ => by simp at hl; omega, fun _ => trivial⟩
      | [_, _] => exact (ThrowsAt.throw y).iff ⟨fun _ => by simp at hl; omega, fun _ => trivial⟩
      | g :: k :: n :: more =>
        refine (ThrowsAt.within (T := [.alloc]) (ab := cfg.asserts) ?_ (by decide)).iff ⟨fun h => h.elim, fun h => by simp at hl; omega⟩
        rcases hv with hv | hv
        · simp only [if_pos hv]
          within [h1, h2, h3]
        · simp only [if_neg (show ¬ f.version = b! "4.1" by rw [hv]; decide), if_pos hv]
          within [h1, h2, h3]
    · rw [List.length_replicate]
      exact ⟨fun ⟨y, h1, h2, h3⟩ => ⟨h3, y, h1, h2⟩, fun ⟨h3, y, h1, h2⟩ => ⟨y, h1, h2, h3⟩⟩
  · constructor
    · rintro ⟨y, h, v, z, hz, n, rfl, h'⟩
      exact ⟨y, h, n, z, hz, h'⟩
    · rintro ⟨y, h, n, z, hz, h'⟩
      exact ⟨y, h, _, z, hz, n, rfl, h'⟩

/-! ## Elements of version 4.1 in text -/

theorem throws_elementBlock (cfg : Cfg) (b : ElementBlock) (K : ElementBlock → Rd α) (Q : Place → Prop) (x : Place) (hK : ∀ b' y, ThrowsAt .unsupportedFeature (K b') y (Q y)) :
    ThrowsAt .unsupportedFeature (loadElementBlockAscii41 cfg b >>= K) x (∃ x1 x2 t x3 v y, SkipsInt x x1 ∧ SkipsInt x1 x2 ∧ TakesInt x2 t x3 ∧ TakesSize x3 v y ∧
      (mshNodes (t.getD b.elementType) = none ∨ ∃ k ∈ mshNodes (t.getD b.elementType), ∃ z, (v.getD b.numElementsInBlock).toNat * (k + 1) ≤ cfg.maxCount ∧
        Many SkipsSize ((v.getD b.numElementsInBlock).toNat * (k + 1)) y z ∧ (cfg.asserts = true → z.Good) ∧ Q z)) := by
  simp only [loadElementBlockAscii41, Rd.bind_assoc]
  refine (ThrowsAt.passes (inInt_passes b.entityDim) fun _ x1 => ThrowsAt.passes (inInt_passes b.entityTag) fun _ x2 => ThrowsAt.yields (inInt_yields b.elementType) fun t x3 _ =>
    ThrowsAt.yields (inSize_yields b.numElementsInBlock) fun num y _ => (?_ : ThrowsAt _ _ y (mshNodes t = none ∨ ∃ k ∈ mshNodes t, ∃ z, num.toNat * (k + 1) ≤ cfg.maxCount ∧
        Many SkipsSize (num.toNat * (k + 1)) y z ∧ (cfg.asserts = true → z.Good) ∧ Q z))).iff ?_
  · cases hk : mshNodes t with
    | none =>
      intro st _
      rw [mshNodes_none hk]
      exact ⟨fun _ => Or.inl rfl, fun _ => rfl⟩
    | some k =>
      obtain ⟨hn, h56, -⟩ := nodesPerElement_of_mshNodes hk
      have hN : (UInt64.ofNat k).toNat = k := by rw [UInt64.toNat_ofNat']; omega
      have hN1 : (UInt64.ofNat k + 1).toNat = k + 1 := by rw [UInt64.toNat_add, hN]; show (k + 1) % 2 ^ 64 = _; omega
      refine (ThrowsAt.lift hn (ThrowsAt.table (w := (UInt64.ofNat k).toNat + 1) (total := num.toNat * (k + 1)) (by decide) inSizeAt_fills (by rw [hN1, hN]) (by rw [UInt64.toNat_mul, hN1])
        (by rw [hN]) fun v y => ThrowsAt.assertGood (hK _ y))).iff ?_
      exact ⟨fun h => Or.inr ⟨k, rfl, h⟩, fun h => by rcases h with h | ⟨_, e, h⟩ <;> [cases h; (cases e; exact h)]⟩
  · constructor
    · rintro ⟨x1, h1, x2, h2, _, x3, ⟨t, h3, rfl⟩, _, y, ⟨v, h4, rfl⟩, h5⟩
      exact ⟨x1, x2, t, x3, v, y, h1, h2, h3, h4, h5⟩
    · rintro ⟨x1, x2, t, x3, v, y, h1, h2, h3, h4, h5⟩
      exact ⟨x1, h1, x2, h2, _, x3, ⟨t, h3, rfl⟩, _, y, ⟨v, h4, rfl⟩, h5⟩

theorem throws_elementBlocks (cfg : Cfg) (l : List ElementBlock) (x : Place) :
    ThrowsAt .unsupportedFeature (forEach (loadElementBlockAscii41 cfg) l) x (ElementBlocksTextUnknown cfg l x) :=
  ThrowsAt.forEach (fun b Q x => ∃ x1 x2 t x3 v y, SkipsInt x x1 ∧ SkipsInt x1 x2 ∧ TakesInt x2 t x3 ∧ TakesSize x3 v y ∧
      (mshNodes (t.getD b.elementType) = none ∨ ∃ k ∈ mshNodes (t.getD b.elementType), ∃ z, (v.getD b.numElementsInBlock).toNat * (k + 1) ≤ cfg.maxCount ∧
        Many SkipsSize ((v.getD b.numElementsInBlock).toNat * (k + 1)) y z ∧ (cfg.asserts = true → z.Good) ∧ Q z))
    (throws_elementBlock cfg) (ElementBlocksTextUnknown cfg) (fun _ h => h) (fun _ _ _ => Iff.rfl) l x

theorem throws_elements41 (cfg : Cfg) (e : Elements) (x : Place) : ThrowsAt .unsupportedFeature (loadElementsAscii41 cfg e) x (Elements41TextRejected cfg e x) := by
  unfold loadElementsAscii41
  refine (ThrowsAt.yields (inSize_yields e.numEntityBlocks) fun v x1 _ => ThrowsAt.passes (inSize_passes _) fun _ x2 => ThrowsAt.passes (inSize_passes _) fun _ x3 =>
    ThrowsAt.passes (inSize_passes _) fun _ y => ThrowsAt.assertGood (ThrowsAt.resize (by decide) fun _ => (throws_elementBlocks cfg _ y).last fun _ _ h => by cases h)).iff ?_
  unfold Elements41TextRejected
  simp only [many_three]
  constructor
  · rintro ⟨_, x1, ⟨v, hv, rfl⟩, x2, h2, x3, h3, y, h4, h5, h6, h7⟩
    exact ⟨v, x1, y, hv, ⟨x2, x3, h2, h3, h4⟩, h5, h6, h7⟩
  · rintro ⟨v, x1, y, hv, ⟨x2, x3, h2, h3, h4⟩, h5, h6, h7⟩
    exact ⟨_, x1, ⟨v, hv, rfl⟩, x2, h2, x3, h3, y, h4, h5, h6, h7⟩

end MshIO
