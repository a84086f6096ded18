import Verif.Proofs.NumeralScan
import Mathlib.Tactic.FieldSimp

/-!
# A tidy numeral is determined by its value
-/

namespace MshIO

/-! ## Strings of digits -/

theorem digitsValue_cons (d : Fin 10) (t : List (Fin 10)) : digitsValue (d :: t) = d.val * 10 ^ t.length + digitsValue t := by
  rw [← List.singleton_append, digitsValue_append]; simp [digitsValue]

theorem digitsValue_lt : ∀ l : List (Fin 10), digitsValue l < 10 ^ l.length
  | [] => by simp [digitsValue]
  | d :: t => by
    have h := digitsValue_lt t
    have hd := d.isLt
    rw [digitsValue_cons, List.length_cons, pow_succ]
    nlinarith

theorem digitsValue_ge {d : Fin 10} (hd : d ≠ 0) (t : List (Fin 10)) : 10 ^ t.length ≤ digitsValue (d :: t) := by
  rw [digitsValue_cons]
  have : 1 ≤ d.val := Nat.pos_of_ne_zero fun h => hd (Fin.ext h)
  nlinarith [Nat.pow_pos (n := t.length) (show 0 < 10 by norm_num)]

theorem digitsValue_inj : ∀ {a b : List (Fin 10)}, a.length = b.length → digitsValue a = digitsValue b → a = b
  | [], [], _, _ => rfl
  | [], _ :: _, h, _ => by cases h
  | _ :: _, [], h, _ => by cases h
  | d :: a, e :: b, h, hv => by
    simp only [List.length_cons, Nat.add_right_cancel_iff] at h
    rw [digitsValue_cons, digitsValue_cons, h] at hv
    have ha := digitsValue_lt a
    have hb := digitsValue_lt b
    rw [h] at ha
    have hp : 0 < 10 ^ b.length := Nat.pow_pos (by norm_num)
    have hd : d.val = e.val := by
      have h1 := congrArg (· / 10 ^ b.length) hv
      simp only [Nat.mul_comm _ (10 ^ b.length), Nat.mul_add_div hp, Nat.div_eq_of_lt ha, Nat.div_eq_of_lt hb] at h1
      omega
    rw [hd] at hv
    rw [Fin.ext hd, digitsValue_inj h (by omega)]

/-- Digits without a superfluous zero in front. -/
theorem TidyInt.inj {a b : List (Fin 10)} (ha : TidyInt a) (hb : TidyInt b) (h : digitsValue a = digitsValue b) : a = b := by
  have key : ∀ {a b : List (Fin 10)}, TidyInt a → TidyInt b → digitsValue a = digitsValue b → a.length ≤ b.length := by
    intro a b ha hb h
    rcases ha with rfl | ⟨d, t, rfl, hd⟩
    · rcases hb with rfl | ⟨_, _, rfl, _⟩ <;> simp
    · have h1 := digitsValue_ge hd t
      have h2 := digitsValue_lt b
      rw [← h] at h2
      exact (Nat.pow_lt_pow_iff_right (by norm_num)).mp (lt_of_le_of_lt h1 h2)
  exact digitsValue_inj (le_antisymm (key ha hb h) (key hb ha h.symm)) h

theorem TidyInt.ne_nil {a : List (Fin 10)} (h : TidyInt a) : a ≠ [] := by
  rcases h with rfl | ⟨_, _, rfl, _⟩ <;> simp

/-! ## Fractions -/

/-- Integer and fraction part of a number are determined. -/
theorem parts_inj {a b : ℕ} {x y : ℚ} (hx : 0 ≤ x) (hx1 : x < 1) (hy : 0 ≤ y) (hy1 : y < 1) (h : (a : ℚ) + x = b + y) :
    a = b ∧ x = y := by
  have h1 : (a : ℚ) < b + 1 := by linarith
  have h2 : (b : ℚ) < a + 1 := by linarith
  have h1' : a < b + 1 := by exact_mod_cast h1
  have h2' : b < a + 1 := by exact_mod_cast h2
  obtain rfl : a = b := by omega
  exact ⟨rfl, by linarith⟩

theorem frac_bounds (l : List (Fin 10)) : 0 ≤ (digitsValue l : ℚ) / 10 ^ l.length ∧ (digitsValue l : ℚ) / 10 ^ l.length < 1 := by
  have hp : (0 : ℚ) < 10 ^ l.length := by positivity
  refine ⟨by positivity, ?_⟩
  rw [div_lt_one hp]
  exact_mod_cast digitsValue_lt l

/-- Two fractions, the second not longer. -/
theorem frac_inj_le {a b : List (Fin 10)} (ha : a = [] ∨ ∃ t d, a = t ++ [d] ∧ d ≠ 0) (hle : b.length ≤ a.length)
    (h : (digitsValue a : ℚ) / 10 ^ a.length = (digitsValue b : ℚ) / 10 ^ b.length) : a = b := by
  obtain ⟨k, hk⟩ := Nat.exists_eq_add_of_le hle
  have hp : (10 : ℚ) ^ b.length ≠ 0 := by positivity
  have hq : (10 : ℚ) ^ k ≠ 0 := by positivity
  have e : digitsValue a = digitsValue b * 10 ^ k := by
    have : (digitsValue a : ℚ) = digitsValue b * 10 ^ k := by
      rw [hk, pow_add] at h
      field_simp at h
      linarith
    exact_mod_cast this
  match k with
  | 0 => exact digitsValue_inj (by omega) (by simpa using e)
  | k + 1 =>
    rcases ha with rfl | ⟨t, d, rfl, hd⟩
    · simp at hk
    · exfalso
      have hd' : d.val ≠ 0 := fun hh => hd (Fin.ext hh)
      rw [digitsValue_append, pow_succ] at e
      have : digitsValue [d] = d.val := by simp [digitsValue]
      rw [this] at e
      simp only [List.length_singleton, pow_one] at e
      have := d.isLt
      have e' : digitsValue b * (10 ^ k * 10) % 10 = 0 := by rw [← Nat.mul_assoc]; exact Nat.mul_mod_left _ _
      omega

theorem frac_inj {a b : List (Fin 10)} (ha : a = [] ∨ ∃ t d, a = t ++ [d] ∧ d ≠ 0) (hb : b = [] ∨ ∃ t d, b = t ++ [d] ∧ d ≠ 0)
    (h : (digitsValue a : ℚ) / 10 ^ a.length = (digitsValue b : ℚ) / 10 ^ b.length) : a = b := by
  rcases Nat.le_total b.length a.length with hle | hle
  · exact frac_inj_le ha hle h
  · exact (frac_inj_le hb hle h.symm).symm

/-! ## Exponents -/

theorem Exponent.Tidy.inj {e f : Exponent} (he : e.Tidy) (hf : f.Tidy)
    (h : signValue e.sign * (digitsValue e.digits : ℤ) = signValue f.sign * (digitsValue f.digits : ℤ)) : e = f := by
  obtain ⟨eu, es, ed⟩ := e
  obtain ⟨fu, fs, fd⟩ := f
  obtain ⟨rfl, e2, e3, e4, e5⟩ := he
  obtain ⟨rfl, f2, f3, f4, f5⟩ := hf
  simp only at *
  obtain ⟨s, rfl⟩ := Option.ne_none_iff_exists'.mp e2
  obtain ⟨s', rfl⟩ := Option.ne_none_iff_exists'.mp f2
  have hsv : s = s' ∧ digitsValue ed = digitsValue fd := by
    cases s <;> cases s' <;> simp only [signValue, reduceCtorEq, false_implies, true_implies, Option.some.injEq] at h e3 f3 <;>
      first
        | exact ⟨rfl, by omega⟩
        | (exfalso; omega)
  obtain ⟨rfl, hv⟩ := hsv
  have key : ∀ {a b : List (Fin 10)}, (2 < a.length → ∃ d t, a = d :: t ∧ d ≠ 0) → 2 ≤ b.length → digitsValue a = digitsValue b →
      a.length ≤ b.length := by
    intro a b ha hb h
    by_cases h2 : 2 < a.length
    · obtain ⟨d, t, rfl, hd⟩ := ha h2
      have h1 := digitsValue_ge hd t
      have h2 := digitsValue_lt b
      rw [← h] at h2
      exact (Nat.pow_lt_pow_iff_right (by norm_num)).mp (lt_of_le_of_lt h1 h2)
    · omega
  rw [digitsValue_inj (le_antisymm (key e5 f4 hv) (key f5 e4 hv.symm)) hv]

/-! ## Numerals -/

/-- Digits in front of and behind the point, as a number. -/
theorem mantissa_bounds {n : Numeral} (h1 : n.int.length = 1) (h0 : n.int ≠ [0]) :
    (1 : ℚ) ≤ digitsValue n.int + digitsValue n.fracDigits / 10 ^ n.fracDigits.length ∧
    (digitsValue n.int : ℚ) + digitsValue n.fracDigits / 10 ^ n.fracDigits.length < 10 := by
  obtain ⟨d, hd⟩ := List.length_eq_one_iff.mp h1
  rw [hd] at h0 ⊢
  have hv : digitsValue [d] = d.val := by simp [digitsValue]
  obtain ⟨f1, f2⟩ := frac_bounds n.fracDigits
  have a1 : (1 : ℚ) ≤ d.val := by
    have : 1 ≤ d.val := Nat.pos_of_ne_zero fun h => h0 (by rw [Fin.ext (b := (0 : Fin 10)) h])
    exact_mod_cast this
  have a2 : (d.val : ℚ) ≤ 9 := by
    have : d.val ≤ 9 := by omega
    exact_mod_cast this
  rw [hv]
  constructor <;> linarith

theorem ten_lt_zpow {a b : ℚ} {x y : ℤ} (ha : 1 ≤ a) (hb : b < 10) (h : a * 10 ^ x = b * 10 ^ y) : x ≤ y := by
  by_contra hc
  have h10 : (0 : ℚ) < 10 ^ y := zpow_pos (by norm_num) _
  have h1 : (10 : ℚ) ^ (y + 1) ≤ 10 ^ x := zpow_le_zpow_right₀ (by norm_num) (by omega)
  rw [zpow_add_one₀ (by norm_num)] at h1
  have : (10 : ℚ) ^ y * 10 ≤ a * 10 ^ x := by nlinarith
  nlinarith

theorem mantissa_inj {a b : ℚ} {x y : ℤ} (ha : 1 ≤ a) (ha' : a < 10) (hb : 1 ≤ b) (hb' : b < 10)
    (h : a * 10 ^ x = b * 10 ^ y) : a = b ∧ x = y := by
  have e := le_antisymm (ten_lt_zpow ha hb' h) (ten_lt_zpow hb ha' h.symm)
  subst e
  exact ⟨mul_right_cancel₀ (zpow_ne_zero _ (by norm_num)) h, rfl⟩

theorem frac_getD_inj {f g : Option (List (Fin 10))} (hf : ∀ a ∈ f, a ≠ []) (hg : ∀ a ∈ g, a ≠ [])
    (h : f.getD [] = g.getD []) : f = g := by
  cases f <;> cases g <;> simp_all

/-- A tidy numeral is determined by its sign, its value and whether it has an exponent. -/
theorem Numeral.Tidy.inj {n m : Numeral} (hn : n.Tidy) (hm : m.Tidy) (hs : n.sign = m.sign) (hv : n.size = m.size)
    (he : n.exp = none ↔ m.exp = none) : n = m := by
  have fr : ∀ {n : Numeral}, n.Tidy → n.fracDigits = [] ∨ ∃ t d, n.fracDigits = t ++ [d] ∧ d ≠ 0 := by
    intro n hn
    unfold Numeral.fracDigits
    cases hf : n.frac with
    | none => exact Or.inl rfl
    | some f => exact Or.inr (hn.frac f hf)
  have fne : ∀ {n : Numeral}, n.Tidy → ∀ a ∈ n.frac, a ≠ [] := by
    intro n hn a ha
    obtain ⟨t, d, rfl, _⟩ := hn.frac a ha
    simp
  -- the parts agree once the mantissas do
  have parts : (digitsValue n.int + digitsValue n.fracDigits / 10 ^ n.fracDigits.length : ℚ) =
      digitsValue m.int + digitsValue m.fracDigits / 10 ^ m.fracDigits.length → n.int = m.int ∧ n.frac = m.frac := by
    intro h
    obtain ⟨h1, h2⟩ := parts_inj (frac_bounds _).1 (frac_bounds _).2 (frac_bounds _).1 (frac_bounds _).2 h
    exact ⟨hn.int.inj hm.int h1, frac_getD_inj (fne hn) (fne hm) (frac_inj (fr hn) (fr hm) h2)⟩
  have final : n.int = m.int ∧ n.frac = m.frac → n.exp = m.exp → n = m := by
    rintro ⟨h1, h2⟩ h3
    cases n; cases m; simp_all
  unfold Numeral.size at hv
  cases hne : n.exp with
  | none =>
    have hme := he.mp hne
    refine final (parts ?_) (by rw [hne, hme])
    unfold Numeral.power at hv
    rw [hne, hme] at hv
    simpa using hv
  | some e =>
    cases hme : m.exp with
    | none => rw [he.mpr hme] at hne; cases hne
    | some f =>
      obtain ⟨a1, a2, a3⟩ := hn.exp e hne
      obtain ⟨b1, b2, b3⟩ := hm.exp f hme
      obtain ⟨m1, m2⟩ := mantissa_bounds a1 a2
      obtain ⟨m3, m4⟩ := mantissa_bounds b1 b2
      obtain ⟨hM, hx⟩ := mantissa_inj m1 m2 m3 m4 hv
      refine final (parts hM) ?_
      unfold Numeral.power at hx
      rw [hne, hme] at hx
      rw [hne, hme, a3.inj b3 hx]

/-! ## The nearest decimal -/

/-- A decimal in the middle is nearer than both. -/
theorem mid_closer {a b q : ℚ} (hne : a ≠ b) (h : |a - q| = |b - q|) : |(a + b) / 2 - q| < |a - q| := by
  have hq : (a + b) / 2 - q = 0 := by
    rcases abs_eq_abs.mp h with hh | hh
    · exact absurd (by linarith) hne
    · linarith
  rw [hq, abs_zero, abs_pos]
  intro hh
  rw [hh, abs_zero] at h
  have := abs_eq_zero.mp h.symm
  exact hne (by linarith)

theorem NearestDecimal.val_le {p : ℕ} {q : ℚ} {D D' : ℕ} {x x' : ℤ} (h : NearestDecimal p q D x)
    (h' : NearestDecimal p q D' x') (hx : x ≤ x') : (D : ℚ) * 10 ^ x = D' * 10 ^ x' := by
  by_contra hne
  have hd := le_antisymm (h.closest D' x' h'.high) (h'.closest D x h.high)
  obtain ⟨E, hE, e⟩ := h.even D' x' h'.low h'.high (fun hh => hne hh.symm) hd.symm
  obtain ⟨E', hE', e'⟩ := h'.even D x h.low h.high hne hd
  obtain ⟨k, hk⟩ := Int.eq_ofNat_of_zero_le (show 0 ≤ x' - x by omega)
  have ten : (10 : ℚ) ≠ 0 := by norm_num
  have hx' : (10 : ℚ) ^ x' = 10 ^ k * 10 ^ x := by
    rw [show x' = (k : ℤ) + x by omega, zpow_add₀ ten, zpow_natCast]
  have hpos : (10 : ℚ) ^ x ≠ 0 := zpow_ne_zero _ ten
  have hD : D = E * 10 ^ k := by
    have : (D : ℚ) = E * 10 ^ k := by
      rw [hx', ← mul_assoc] at e
      exact mul_right_cancel₀ hpos e
    exact_mod_cast this
  have hE1 : E < 10 ^ p := by
    have : E ≤ D := by rw [hD]; exact Nat.le_mul_of_pos_right _ (Nat.pow_pos (by norm_num))
    exact lt_of_le_of_lt this h.high
  -- the last digit of the second is even
  have hD' : D' % 2 = 0 := by
    match k with
    | 0 =>
      have : (D' : ℚ) = E' := by
        rw [hx', pow_zero, one_mul] at e'
        exact mul_right_cancel₀ hpos e'
      have : D' = E' := by exact_mod_cast this
      omega
    | k + 1 =>
      -- the first has fewer digits, so the distance from the second is not more than one unit of it
      obtain ⟨E1, hE1', e1⟩ := h'.even D x h.low h.high hne hd
      by_contra hodd
      -- compare with the neighbour below
      have hlow : E < D' := by
        have h1 := h'.low
        have h2 : E * 10 ^ (k + 1) < 10 ^ p := by rw [← hD]; exact h.high
        have h3 : E * 10 ^ (k + 1) = E * 10 ^ k * 10 := by rw [pow_succ]; ring
        have h4 : E ≤ E * 10 ^ k := Nat.le_mul_of_pos_right _ (Nat.pow_pos (by norm_num))
        have hp : 1 ≤ p := by
          by_contra hp0
          have : p = 0 := by omega
          subst this
          have := h.high; have := h.low
          simp at *
          omega
        have h5 : 10 ^ p = 10 * 10 ^ (p - 1) := by rw [← pow_succ']; congr 1; omega
        omega
      -- `D'` is not adjacent to `E` with the middle between them nearer
      by_cases hadj : D' = E + 1
      · -- then the number `10 * E + 5` one place lower is nearer
        have hp : (10 * E + 5) < 10 ^ p := by
          have h2 : E * 10 ^ (k + 1) < 10 ^ p := by rw [← hD]; exact h.high
          have h3 : E * 10 ^ (k + 1) = E * 10 ^ k * 10 := by rw [pow_succ]; ring
          have h4 : E ≤ E * 10 ^ k := Nat.le_mul_of_pos_right _ (Nat.pow_pos (by norm_num))
          have hp : 1 ≤ p := by
            by_contra hp0
            have : p = 0 := by omega
            subst this
            have := h.high; have := h.low
            simp at *
            omega
          have h5 : 10 ^ p = 10 * 10 ^ (p - 1) := by rw [← pow_succ']; congr 1; omega
          omega
        have hc := h.closest (10 * E + 5) (x' - 1) hp
        have hm := mid_closer hne hd
        have : (((10 * E + 5 : ℕ) : ℚ)) * 10 ^ (x' - 1) = (D * 10 ^ x + D' * 10 ^ x') / 2 := by
          rw [e, hadj, zpow_sub_one₀ ten]
          push_cast
          ring
        rw [this] at hc
        exact absurd hc (not_le.mpr hm)
      · -- some number in between is nearer
        have hlt : E + 1 < D' := by omega
        have hc := h.closest (E + 1) x' (by have := h'.high; omega)
        have hc' := h'.closest (E + 1) x' (by have := h'.high; omega)
        have hpos' : (0 : ℚ) < 10 ^ x' := zpow_pos (by norm_num) _
        have b1 : (D : ℚ) * 10 ^ x < ((E + 1 : ℕ) : ℚ) * 10 ^ x' := by
          rw [e]; exact mul_lt_mul_of_pos_right (by push_cast; linarith) hpos'
        have b2 : ((E + 1 : ℕ) : ℚ) * 10 ^ x' < D' * 10 ^ x' :=
          mul_lt_mul_of_pos_right (by exact_mod_cast hlt) hpos'
        have hmid : D * 10 ^ x + D' * 10 ^ x' = 2 * q := by
          rcases abs_eq_abs.mp hd with hh | hh
          · exact absurd (by linarith) hne
          · linarith
        have c1 : |(D : ℚ) * 10 ^ x - q| = q - D * 10 ^ x := by rw [abs_of_nonpos (by linarith)]; ring
        rw [c1] at hc
        rcases abs_cases (((E + 1 : ℕ) : ℚ) * 10 ^ x' - q) with ⟨h1, _⟩ | ⟨h1, _⟩ <;> rw [h1] at hc <;> linarith
  have hm := mid_closer hne hd
  have hc := h.closest ((E + D') / 2) x' (by have := h'.high; omega)
  have : (((E + D') / 2 : ℕ) : ℚ) * 10 ^ x' = (D * 10 ^ x + D' * 10 ^ x') / 2 := by
    have h2 : 2 * ((E + D') / 2) = E + D' := by omega
    have h2' : (2 : ℚ) * (((E + D') / 2 : ℕ) : ℚ) = E + D' := by exact_mod_cast h2
    rw [e, show (((E + D') / 2 : ℕ) : ℚ) = (E + D') / 2 by linarith]
    ring
  rw [this] at hc
  exact absurd hc (not_le.mpr hm)

/-- There is only one nearest decimal. -/
theorem NearestDecimal.unique {p : ℕ} (hp : 1 ≤ p) {q : ℚ} {D D' : ℕ} {x x' : ℤ} (h : NearestDecimal p q D x)
    (h' : NearestDecimal p q D' x') : D = D' ∧ x = x' := by
  have hv : (D : ℚ) * 10 ^ x = D' * 10 ^ x' := by
    rcases Int.le_total x x' with hx | hx
    · exact h.val_le h' hx
    · exact (h'.val_le h hx).symm
  have ten : (10 : ℚ) ≠ 0 := by norm_num
  have key : ∀ {D D' : ℕ} {x x' : ℤ}, 10 ^ (p - 1) ≤ D → D' < 10 ^ p → (D : ℚ) * 10 ^ x = D' * 10 ^ x' → x ≤ x' := by
    intro D D' x x' h1 h2 hv
    have g : (0 : ℚ) < 10 ^ (p - 1) := by positivity
    refine ten_lt_zpow (a := D / 10 ^ (p - 1)) (b := D' / 10 ^ (p - 1)) ?_ ?_ ?_
    · rw [le_div_iff₀ g, one_mul]; exact_mod_cast h1
    · rw [div_lt_iff₀ g, ← pow_succ', show p - 1 + 1 = p by omega]; exact_mod_cast h2
    · rw [div_mul_eq_mul_div, div_mul_eq_mul_div, hv]
  have e := le_antisymm (key h.low h'.high hv) (key h'.low h.high hv.symm)
  subst e
  exact ⟨by exact_mod_cast mul_right_cancel₀ (zpow_ne_zero _ ten) hv, rfl⟩

end MshIO
