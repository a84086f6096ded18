import Verif.Proofs.DblRound

/-!
# Accuracy of decimal text
-/

namespace MshIO

/-! ## Uniqueness and monotonicity of significant digits -/

theorem pow10_lt {l m : ℕ} {y : ℚ} (h1 : (10 : ℚ) ^ l ≤ y) (h2 : y < 10 ^ (m + 1)) : l ≤ m := by
  have : (10 : ℚ) ^ l < 10 ^ (m + 1) := lt_of_le_of_lt h1 h2
  have := (pow_lt_pow_iff_right₀ (by norm_num : (1 : ℚ) < 10)).mp this
  omega

theorem IsSig.unique {p : ℕ} {y : ℚ} {D L D' L' : ℕ} (h : IsSig p y D L)
    (h' : IsSig p y D' L') : D = D' ∧ L = L' := by
  obtain ⟨l, d, a1, a2, a3, a4⟩ := h
  obtain ⟨l', d', b1, b2, b3, b4⟩ := h'
  have hl : l = l' := le_antisymm (pow10_lt a1 b2) (pow10_lt b1 a2)
  subst hl
  have hd := a3.unique b3
  subst hd
  omega

theorem IsSig.mono {p : ℕ} (hp : 1 ≤ p) {y y' : ℚ} {D L D' L' : ℕ} (h : IsSig p y D L)
    (h' : IsSig p y' D' L') (hy : y ≤ y') : decVal p D L ≤ decVal p D' L' := by
  obtain ⟨l, d, a1, a2, a3, a4, a5, a6, _⟩ := h.out hp
  obtain ⟨l', d', b1, b2, b3, b4, b5, b6, _⟩ := h'.out hp
  have hll : l ≤ l' := pow10_lt a1 (lt_of_le_of_lt hy b2)
  rw [a6, b6]
  have hq : (0 : ℚ) < 10 ^ (p - 1) := by positivity
  rw [div_le_div_iff_of_pos_right hq]
  rcases Nat.eq_or_lt_of_le hll with e | e
  · subst e
    have hl : (0 : ℚ) < 10 ^ l := by positivity
    have : d ≤ d' := a3.mono b3 (by
      rw [div_le_div_iff_of_pos_right hl]
      exact mul_le_mul_of_nonneg_right hy hq.le)
    have : (d : ℚ) ≤ d' := by exact_mod_cast this
    exact mul_le_mul_of_nonneg_right this hl.le
  · have h1 : d * 10 ^ l ≤ d' * 10 ^ l' := by
      calc d * 10 ^ l ≤ 10 ^ p * 10 ^ l := Nat.mul_le_mul_right _ a5
        _ = 10 ^ (p - 1) * 10 ^ (l + 1) := by rw [← pow_add, ← pow_add]; congr 1; omega
        _ ≤ d' * 10 ^ l' := Nat.mul_le_mul b4 (Nat.pow_le_pow_right (by omega) e)
    exact_mod_cast h1

/-- Rounding to `p` digits moves a number by at most half a unit of the last digit. -/
theorem IsSig.err {p : ℕ} (hp : 1 ≤ p) {y : ℚ} {D L : ℕ} (h : IsSig p y D L) :
    ∃ l : ℕ, (10 : ℚ) ^ l ≤ y ∧ y < 10 ^ (l + 1) ∧ |decVal p D L - y| ≤ 10 ^ l / 10 ^ (p - 1) / 2 := by
  obtain ⟨l, d, a1, a2, a3, a4, a5, a6, _⟩ := h.out hp
  refine ⟨l, a1, a2, ?_⟩
  have hq : (0 : ℚ) < 10 ^ (p - 1) := by positivity
  have hl : (0 : ℚ) < 10 ^ l := by positivity
  have e1 := a3.up
  have e2 := a3.down
  rw [div_le_iff₀ hl] at e1
  rw [le_div_iff₀ hl] at e2
  rw [a6, abs_le]
  constructor
  · rw [neg_le_sub_iff_le_add, ← sub_le_iff_le_add, le_div_iff₀ hq]
    have : 10 ^ l / 10 ^ (p - 1) / 2 * 10 ^ (p - 1) = (10 : ℚ) ^ l / 2 := by field_simp
    rw [sub_mul, this]; linarith
  · rw [sub_le_iff_le_add, div_le_iff₀ hq, add_mul]
    have : 10 ^ l / 10 ^ (p - 1) / 2 * 10 ^ (p - 1) = (10 : ℚ) ^ l / 2 := by field_simp
    rw [this]; linarith

theorem IsSig.relErr {p : ℕ} (hp : 1 ≤ p) {y : ℚ} {D L : ℕ} (h : IsSig p y D L) :
    |decVal p D L - y| * (2 * 10 ^ (p - 1)) ≤ y := by
  obtain ⟨l, h1, h2, h3⟩ := h.err hp
  have hq : (0 : ℚ) < 10 ^ (p - 1) := by positivity
  calc |decVal p D L - y| * (2 * 10 ^ (p - 1)) ≤ 10 ^ l / 10 ^ (p - 1) / 2 * (2 * 10 ^ (p - 1)) :=
        mul_le_mul_of_nonneg_right h3 (by positivity)
    _ = 10 ^ l := by field_simp
    _ ≤ y := h1

/-- A number with at most `p` significant digits is unchanged. -/
theorem IsSig.exact {p : ℕ} (hp : 1 ≤ p) {y : ℚ} {D L : ℕ} (h : IsSig p y D L) {N k : ℕ}
    (hN : N < 10 ^ p) {j : ℕ} (hy : y * 10 ^ j = N * 10 ^ k) : decVal p D L = y := by
  obtain ⟨l, d, a1, a2, a3, a4, a5, a6, _⟩ := h.out hp
  have hq : (0 : ℚ) < 10 ^ (p - 1) := by positivity
  have hl : (0 : ℚ) < 10 ^ l := by positivity
  have hj : (0 : ℚ) < 10 ^ j := by positivity
  have hlt : l + j < p + k := by
    have h1 : (10 : ℚ) ^ (l + j) < 10 ^ (p + k) := by
      rw [pow_add, pow_add]
      calc (10 : ℚ) ^ l * 10 ^ j ≤ y * 10 ^ j := mul_le_mul_of_nonneg_right a1 hj.le
        _ = N * 10 ^ k := hy
        _ < 10 ^ p * 10 ^ k := mul_lt_mul_of_pos_right (by exact_mod_cast hN) (by positivity)
    exact (pow_lt_pow_iff_right₀ (by norm_num : (1 : ℚ) < 10)).mp h1
  have hnat : y * 10 ^ (p - 1) / 10 ^ l = ((N * 10 ^ (k + (p - 1) - (l + j)) : ℕ) : ℚ) := by
    rw [div_eq_iff hl.ne']
    apply mul_right_cancel₀ hj.ne'
    push_cast
    calc y * 10 ^ (p - 1) * 10 ^ j = y * 10 ^ j * 10 ^ (p - 1) := by ring
      _ = N * 10 ^ k * 10 ^ (p - 1) := by rw [hy]
      _ = N * (10 ^ (k + (p - 1) - (l + j)) * 10 ^ (l + j)) := by
          rw [← pow_add, mul_assoc, ← pow_add]; congr 2; omega
      _ = _ := by rw [pow_add]; ring
  rw [hnat] at a3
  have hd := a3.unique (isRne_nat _)
  rw [a6, hd, ← hnat, div_mul_cancel₀ _ hl.ne', mul_div_assoc, div_self hq.ne', mul_one]

/-- A number close enough to a `p`-digit number has the same `p` digits. -/
theorem isSig_near {p : ℕ} (hp : 1 ≤ p) {y y' : ℚ} {D L : ℕ} (h : IsSig p y D L) (h1 : 1 ≤ y')
    (hc : |y' - decVal p D L| * (2 * 10 ^ p) < decVal p D L) : IsSig p y' D L := by
  obtain ⟨l, d, a1, a2, a3, a4, a5, a6, a7, a8, a9, a10⟩ := h.out hp
  have hq : (0 : ℚ) < 10 ^ (p - 1) := by positivity
  have hpp : (10 : ℚ) ^ p = 10 * 10 ^ (p - 1) := by rw [← pow_succ']; congr 1; omega
  have hL : (0 : ℚ) < 10 ^ L := by positivity
  set Q : ℚ := 10 ^ (p - 1) with hQ
  set X : ℚ := 10 ^ L with hX
  have hD1 : Q ≤ D := by rw [hQ]; exact_mod_cast a7
  have hD2 : (D : ℚ) + 1 ≤ 10 * Q := by rw [← hpp]; exact_mod_cast a8
  have ht : decVal p D L = D * X / Q := rfl
  rw [ht, hpp] at hc
  set t : ℚ := D * X / Q with htt
  have htQ : t * Q = D * X := by rw [htt, div_mul_cancel₀ _ hq.ne']
  -- distance below half a unit of the last digit
  have hlt1 : |y' - t| * Q < X / 2 := by
    have e0 : |y' - t| * (2 * (10 * Q)) * Q < t * Q := mul_lt_mul_of_pos_right hc hq
    rw [htQ] at e0
    have e1 : |y' - t| * Q * (20 * Q) < X / 2 * (20 * Q) := by
      have : (D : ℚ) * X ≤ 10 * Q * X := mul_le_mul_of_nonneg_right (by linarith) hL.le
      nlinarith
    exact lt_of_mul_lt_mul_right e1 (by positivity)
  have hab := abs_lt.mp (show |(y' - t) * Q| < X / 2 by rw [abs_mul, abs_of_pos hq]; exact hlt1)
  have hb1 : D * X - X / 2 < y' * Q := by have := hab.1; rw [sub_mul, htQ] at this; linarith
  have hb2 : y' * Q < D * X + X / 2 := by have := hab.2; rw [sub_mul, htQ] at this; linarith
  by_cases hge : X ≤ y'
  · refine ⟨⟨L, D, hge, ?_, ?_, Or.inr ⟨a8, rfl, rfl⟩⟩⟩
    · rw [pow_succ, ← hX]
      have : y' * Q < X * 10 * Q := by nlinarith
      exact lt_of_mul_lt_mul_right this hq.le
    · rw [← hQ, ← hX]
      apply isRne_of_lt
      · rw [div_lt_iff₀ hL]; linarith
      · rw [lt_div_iff₀ hL]; linarith
  · have hlt : y' < X := not_le.mp hge
    -- only possible just below a power of ten
    have hDQ : (D : ℚ) = Q := by
      have h2 : D * X < (Q + 1 / 2) * X := by nlinarith
      have h3 : (D : ℚ) < Q + 1 / 2 := lt_of_mul_lt_mul_right h2 hL.le
      have h4 : (D : ℚ) < Q + 1 := by linarith
      have h5 : D < 10 ^ (p - 1) + 1 := by
        have : (D : ℚ) < ((10 ^ (p - 1) + 1 : ℕ) : ℚ) := by push_cast; exact h4
        exact_mod_cast this
      have : D = 10 ^ (p - 1) := by omega
      rw [this, hQ]; push_cast; rfl
    have hDn : D = 10 ^ (p - 1) := by
      have : (D : ℚ) = ((10 ^ (p - 1) : ℕ) : ℚ) := by rw [hDQ, hQ]; push_cast; rfl
      exact_mod_cast this
    have htX : t = X := by rw [htt, hDQ]; field_simp
    have hL1 : 1 ≤ L := by
      by_contra hz
      have : L = 0 := by omega
      rw [this, pow_zero] at hX
      linarith
    obtain ⟨K, rfl⟩ : ∃ K, L = K + 1 := ⟨L - 1, by omega⟩
    have hK : (0 : ℚ) < 10 ^ K := by positivity
    set Y : ℚ := 10 ^ K with hY
    have hXY : X = 10 * Y := by rw [hX, hY, pow_succ]; ring
    rw [htX] at hc hlt1
    rw [abs_of_neg (by linarith)] at hc
    have hQ1 : 1 ≤ Q := by rw [hQ]; exact one_le_pow₀ (by norm_num)
    have hnear : (X - y') * Q < Y / 2 := by nlinarith
    refine ⟨⟨K, 10 ^ p, ?_, ?_, ?_, Or.inl ⟨rfl, hDn, rfl⟩⟩⟩
    · rw [← hY]
      have : Y * Q ≤ y' * Q := by nlinarith
      exact le_of_mul_le_mul_right this hq
    · rw [← hX]; exact hlt
    · rw [← hQ, ← hY]
      apply isRne_of_lt
      · push_cast; rw [hpp, div_lt_iff₀ hK]; nlinarith
      · push_cast; rw [hpp, lt_div_iff₀ hK]; nlinarith

/-! ## In units of `2^-1074` -/

theorem scaledOf_back {A B : ℕ} (hA : 0 < A) (hB : 0 < B) (v : ℕ) :
    (v : ℚ) = scaledOf A B v * ((B : ℚ) / A) := by
  unfold scaledOf
  have h1 : (A : ℚ) ≠ 0 := by exact_mod_cast hA.ne'
  have h2 : (B : ℚ) ≠ 0 := by exact_mod_cast hB.ne'
  field_simp

/-- The scale between units of `10^-324` and units of `2^-1074`. -/
theorem exists_scale : ∃ c : ℚ, 0 < c ∧ c ≤ 1 ∧ c * 10 ^ 324 = 2 ^ 1074 ∧
    (∀ v : ℕ, (v : ℚ) = scaled v * c) ∧
    ∀ P v, v ≠ 0 → textUnits P v =
      decVal (max P 1) (sigDigits (max P 1) v).1 (sigDigits (max P 1) v).2 * c := by
  have hA : 0 < 10 ^ 324 := Nat.pow_pos (by decide)
  have hB : 0 < 2 ^ 1074 := Nat.two_pow_pos 1074
  refine ⟨((2 ^ 1074 : ℕ) : ℚ) / ((10 ^ 324 : ℕ) : ℚ), ?_, ?_, ?_, ?_, ?_⟩
  · exact div_pos (Nat.cast_pos.mpr hB) (Nat.cast_pos.mpr hA)
  · rw [div_le_one (Nat.cast_pos.mpr hA)]
    exact Nat.cast_le.mpr two_le_ten
  · rw [Nat.cast_pow, Nat.cast_pow, Nat.cast_ofNat, Nat.cast_ofNat]
    exact div_mul_cancel₀ _ (pow_ne_zero _ (by norm_num))
  · intro v
    exact scaledOf_back hA hB v
  · intro P v hv
    unfold textUnits
    rw [if_neg hv, Nat.cast_pow, Nat.cast_pow, Nat.cast_ofNat, Nat.cast_ofNat]
    exact div_mul_comm' _ _ _
where
  div_mul_comm' (a b c : ℚ) : a / b * c = a * (c / b) := by ring

/-- Relative error of the text. -/
theorem textUnits_err (P : ℕ) {v : ℕ} (hv : v ≠ 0) :
    |textUnits P v - v| * (2 * 10 ^ (max P 1 - 1)) ≤ v := by
  obtain ⟨c, hc, _, _, h1, h2⟩ := exists_scale
  have hs := isSig_sigDigits (p := max P 1) (by omega) (Nat.pos_of_ne_zero hv)
  have := hs.relErr (by omega)
  rw [h2 P v hv]
  conv_lhs => rw [h1 v]
  conv_rhs => rw [h1 v]
  rw [← sub_mul, abs_mul, abs_of_pos hc]
  nlinarith

theorem textUnits_mono (P : ℕ) {v w : ℕ} (hv : v ≠ 0) (h : v ≤ w) : textUnits P v ≤ textUnits P w := by
  obtain ⟨c, hc, _, _, h1, h2⟩ := exists_scale
  rw [h2 P v hv, h2 P w (by omega)]
  refine mul_le_mul_of_nonneg_right ?_ hc.le
  refine (isSig_sigDigits (p := max P 1) (by omega) (Nat.pos_of_ne_zero hv)).mono (by omega)
    (isSig_sigDigits (by omega) (by omega)) ?_
  have : (v : ℚ) ≤ w := by exact_mod_cast h
  rw [h1 v, h1 w] at this
  exact le_of_mul_le_mul_right this hc

/-- If the text of a double is closer to it than half the gap to either neighbour, it is recovered. -/
theorem isMag_of_close {x : ℚ} {b m : ℕ} (h : IsMag x m)
    (hup : x - Double.unitsOfMag b < 2 ^ binade b / 2)
    (hdown : b ≠ 0 → (Double.unitsOfMag b : ℚ) - x < 2 ^ binade (b - 1) / 2) : m = b := by
  apply le_antisymm
  · apply h.le_of_lt_mid
    rw [units_succ]; push_cast; linarith
  · by_cases hb : b = 0
    · omega
    · obtain ⟨a, rfl⟩ : ∃ a, b = a + 1 := ⟨b - 1, by omega⟩
      have hd := hdown hb
      apply h.gt_of_mid_lt
      rw [Nat.add_sub_cancel] at hd
      have e := units_succ a
      have e' : (Double.unitsOfMag (a + 1) : ℚ) = Double.unitsOfMag a + 2 ^ binade a := by
        rw [e]; push_cast; ring
      linarith

theorem units_lt_binade (b : ℕ) : (Double.unitsOfMag b : ℚ) < 2 ^ 53 * 2 ^ binade b := by
  obtain ⟨k, r, e, hk, h1, h2⟩ := mag_split b
  rw [← hk, e, unitsOfMag_add h1.le h2]
  have : r * 2 ^ k < 2 ^ 53 * 2 ^ k := Nat.mul_lt_mul_of_pos_right h1 (Nat.two_pow_pos k)
  exact_mod_cast this

theorem units_le_binade_pred {b : ℕ} (hb : b ≠ 0) :
    (Double.unitsOfMag b : ℚ) ≤ 2 ^ 53 * 2 ^ binade (b - 1) := by
  obtain ⟨a, rfl⟩ : ∃ a, b = a + 1 := ⟨b - 1, by omega⟩
  obtain ⟨k, r, e, hk, h1, h2⟩ := mag_split a
  rw [units_succ, Nat.add_sub_cancel, ← hk]
  conv_lhs => rw [e, unitsOfMag_add h1.le h2]
  have : r * 2 ^ k + 2 ^ k ≤ 2 ^ 53 * 2 ^ k := by
    rw [← Nat.succ_mul]; exact Nat.mul_le_mul_right _ h1
  exact_mod_cast this

theorem units_ne_zero {d : Double} (h : d.mag ≠ 0) : d.units ≠ 0 := by
  have := units_lt (Nat.pos_of_ne_zero h)
  unfold Double.units; omega

theorem units_zero {d : Double} (h : d.units = 0) : d.mag = 0 := by
  by_contra hc; exact units_ne_zero hc h

/-- With 17 digits or more every finite double is recovered. -/
theorem isMag_17 {P : ℕ} (hP : 17 ≤ P) (d : Double) : IsMag (textUnits P d.units) d.mag := by
  by_cases hv : d.units = 0
  · unfold textUnits
    rw [if_pos hv, units_zero hv]
    simpa [Double.unitsOfMag] using isMag_units 0
  · have hex : ∃ m, IsMag (textUnits P d.units) m := by
      obtain ⟨f0, hf0, _, _, _, hval0, _⟩ :=
        scan_fmtUnits P false (Nat.pos_of_ne_zero hv) (rest := []) (Or.inl rfl)
      have := isMag_magOfDec (natOfDigits (f0.ip ++ f0.fp)) f0.exp10
      rw [hval0] at this
      unfold textUnits
      rw [if_neg hv]
      exact ⟨_, this⟩
    obtain ⟨m, hm⟩ := hex
    have herr := textUnits_err P hv
    have hbig : (10 : ℚ) ^ 16 ≤ 10 ^ (max P 1 - 1) := pow_le_pow_right₀ (by norm_num) (by omega)
    set u := textUnits P d.units with hu
    clear_value u
    have hv' : d.units = Double.unitsOfMag d.mag := rfl
    rw [hv'] at herr
    set w : ℚ := (Double.unitsOfMag d.mag : ℚ) with hw
    have hmain : |u - w| * (2 * 10 ^ 16) ≤ w := by
      refine le_trans (mul_le_mul_of_nonneg_left ?_ (abs_nonneg _)) herr
      linarith
    clear herr hbig
    have h1 := units_lt_binade d.mag
    have ha := abs_le.mp (le_refl |u - w|)
    have hm0 : d.mag ≠ 0 := by
      intro h0
      apply hv
      rw [hv', h0]; rfl
    have h2 := units_le_binade_pred hm0
    rw [← hw] at h1 h2
    have hp : (0 : ℚ) < 2 ^ binade (d.mag - 1) := pow_pos (by norm_num) _
    have := isMag_of_close (b := d.mag) hm (by rw [← hw]; linarith) (fun _ => by rw [← hw]; linarith)
    rw [← this]; exact hm

theorem printable_17 {P : ℕ} (hP : 17 ≤ P) {d : Double} (hd : d.isFinite = true) :
    Printable (.general P) d ∧ reread (.general P) d = d := by
  obtain ⟨h1, h2⟩ := printable_iff hd (isMag_17 hP d)
  have hlt : d.mag < Double.infMag := by simpa [Double.isFinite] using hd
  exact ⟨h1.mpr hlt, (h2 hlt).trans d.ofSignMag_self⟩

theorem exists_isMag (P : ℕ) {v : ℕ} (hv : v ≠ 0) : ∃ m, IsMag (textUnits P v) m := by
  obtain ⟨f0, hf0, _, _, _, hval0, _⟩ :=
    scan_fmtUnits P false (Nat.pos_of_ne_zero hv) (rest := []) (Or.inl rfl)
  have := isMag_magOfDec (natOfDigits (f0.ip ++ f0.fp)) f0.exp10
  rw [hval0] at this
  unfold textUnits
  rw [if_neg hv]
  exact ⟨_, this⟩

theorem printable_zero {P : ℕ} {d : Double} (h : d.units = 0) : Printable (.general P) d ∧ reread (.general P) d = d := by
  have hm : IsMag (textUnits P d.units) d.mag := by
    unfold textUnits
    rw [if_pos h, units_zero h]
    simpa [Double.unitsOfMag] using isMag_units 0
  have hf : d.isFinite = true := by
    unfold Double.isFinite; rw [units_zero h]; decide
  obtain ⟨h1, h2⟩ := printable_iff hf hm
  have hlt : d.mag < Double.infMag := by rw [units_zero h]; decide
  exact ⟨h1.mpr hlt, (h2 hlt).trans d.ofSignMag_self⟩

/-- If a double's text can be read, so can the text of every smaller one. -/
theorem Printable.mono {P : ℕ} {d e : Double} (he : Printable (.general P) e) (h : d.mag ≤ e.mag) :
    Printable (.general P) d := by
  have hfe := he.finite
  have hf : d.isFinite = true := by
    simp only [Double.isFinite, decide_eq_true_eq] at hfe ⊢; omega
  by_cases hv : d.units = 0
  · exact (printable_zero hv).1
  · obtain ⟨m, hm⟩ := exists_isMag P hv
    have hle : d.units ≤ e.units := units_le_iff.mpr h
    obtain ⟨hme, hlt, _⟩ := he.out
    refine (printable_iff hf hm).1.mpr (lt_of_le_of_lt ?_ hlt)
    exact hm.mono hme (textUnits_mono P hv hle)

/-- The largest finite double can be read back from its default text. -/
theorem printable_max6 : Printable (.general 6) ⟨0x7fefffffffffffff⟩ := by
  unfold Printable; decide +kernel

/-- With the default stream precision the text of every finite double can be read back. -/
theorem printable_default {d : Double} (hd : d.isFinite = true) : Printable (.general 6) d := by
  refine printable_max6.mono ?_
  have hlt : d.mag < Double.infMag := by simpa [Double.isFinite] using hd
  have e : Double.infMag = 2047 * 2 ^ 52 := rfl
  have : (Double.mk 0x7fefffffffffffff).mag = 2047 * 2 ^ 52 - 1 := by decide +kernel
  omega

end MshIO
