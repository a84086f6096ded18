import Verif.Proofs.DblAcc

/-!
# Values of reread doubles
-/

namespace MshIO

theorem abs_div_pow (x : ℚ) (n : ℕ) : |x / 2 ^ n| = |x| / 2 ^ n := by
  rw [abs_div, abs_of_pos (show (0 : ℚ) < 2 ^ n from pow_pos (by norm_num) n)]

theorem Double.abs_val (d : Double) : |d.val| = (d.units : ℚ) / 2 ^ 1074 := by
  unfold Double.val
  rw [abs_div_pow]
  congr 1
  cases d.neg <;> simp

theorem Double.abs_val_sub {d e : Double} (h : e.neg = d.neg) :
    |e.val - d.val| = |(e.units : ℚ) - d.units| / 2 ^ 1074 := by
  unfold Double.val
  rw [← sub_div, abs_div_pow]
  congr 1
  rw [h]
  cases d.neg
  · simp
  · simp only [if_true]; rw [← abs_neg]; congr 1; ring

/-- The scale factor in the other direction. -/
theorem scale_val {c y : ℚ} (hc : 0 < c) (h : c * 10 ^ 324 = 2 ^ 1074) : y * c / 2 ^ 1074 = y / 10 ^ 324 := by
  rw [← h]
  generalize ((10 : ℚ) ^ 324) = A
  rw [mul_comm y c, mul_div_mul_left _ _ hc.ne']

/-- Exponent of a positive rational. -/
theorem exp_unique {x : ℚ} {e f : ℤ} (h1 : (10 : ℚ) ^ e ≤ x) (h2 : x < 10 ^ (f + 1)) : e ≤ f := by
  have := (zpow_lt_zpow_iff_right₀ (by norm_num : (1 : ℚ) < 10)).mp (lt_of_le_of_lt h1 h2)
  omega

/-- The text is within half a unit of its last digit. -/
theorem textUnits_abs (P : ℕ) {v : ℕ} (hv : v ≠ 0) {e : ℤ} (h1 : (10 : ℚ) ^ e ≤ (v : ℚ) / 2 ^ 1074)
    (h2 : (v : ℚ) / 2 ^ 1074 < 10 ^ (e + 1)) :
    |textUnits P v - v| / 2 ^ 1074 ≤ 10 ^ (e + 1 - (max P 1 : ℕ)) / 2 := by
  obtain ⟨c, hc, _, hcs, s1, s2⟩ := exists_scale
  have hs := isSig_sigDigits (p := max P 1) (by omega) (Nat.pos_of_ne_zero hv)
  obtain ⟨l, l1, l2, l3⟩ := hs.err (by omega)
  rw [s2 P v hv]
  rw [s1 v] at h1 h2 ⊢
  rw [← sub_mul, abs_mul, abs_of_pos hc, scale_val hc hcs]
  rw [scale_val hc hcs] at h1 h2
  clear s1 s2 hs hcs
  revert h1 h2 l1 l2 l3
  generalize decVal (max P 1) (sigDigits (max P 1) v).1 (sigDigits (max P 1) v).2 = t
  generalize scaled v = y
  intro h2 h1 l1 l2 l3
  have hz : ((10 : ℚ) ^ (324 : ℕ)) = 10 ^ (324 : ℤ) := (zpow_natCast _ _).symm
  rw [hz] at h1 h2 ⊢
  have hA : (0 : ℚ) < 10 ^ (324 : ℤ) := zpow_pos (by norm_num) _
  rw [le_div_iff₀ hA, ← zpow_add₀ (by norm_num)] at h1
  rw [div_lt_iff₀ hA, ← zpow_add₀ (by norm_num)] at h2
  have hl : (l : ℤ) = e + 324 := by
    apply le_antisymm
    · refine exp_unique (x := y) ?_ ?_
      · rw [zpow_natCast]; exact l1
      · rw [show e + 324 + 1 = e + 1 + 324 by omega]; exact h2
    · refine exp_unique (x := y) h1 ?_
      rw [show ((l : ℤ) + 1) = ((l + 1 : ℕ) : ℤ) by push_cast; ring, zpow_natCast]; exact l2
  rw [div_le_iff₀ hA]
  refine le_trans l3 (le_of_eq ?_)
  have e1 : (10 : ℚ) ^ l = 10 ^ (e + 324) := by rw [← hl, zpow_natCast]
  have e2 : (10 : ℚ) ^ (max P 1 - 1) = 10 ^ (((max P 1 : ℕ) : ℤ) - 1) := by
    rw [← zpow_natCast]; congr 1; omega
  rw [e1, e2, ← zpow_sub₀ (by norm_num), div_mul_eq_mul_div, ← zpow_add₀ (by norm_num)]
  congr 2; omega

/-- The nearest double is within half a unit in its last place. -/
theorem IsMag.ulp {x : ℚ} (hx : 0 ≤ x) {m : ℕ} (h : IsMag x m) :
    |(Double.unitsOfMag m : ℚ) - x| ≤ 2 ^ binade m / 2 := by
  obtain ⟨b, b1, b2⟩ := exists_floor_mag x hx
  obtain ⟨e1, e2⟩ := h.err b1 b2
  have hbm : b ≤ m := (isMag_units b).mono h b1
  have : (2 : ℚ) ^ binade b ≤ 2 ^ binade m := by
    refine pow_le_pow_right₀ (by norm_num) ?_
    unfold binade
    have := Nat.div_le_div_right (c := 2 ^ 52) hbm
    omega
  rw [abs_le]
  constructor <;> linarith

theorem textUnits_nonneg (P v : ℕ) : 0 ≤ textUnits P v := by
  by_cases hv : v = 0
  · unfold textUnits; rw [if_pos hv]
  · have := textUnits_err P hv
    have h1 : (1 : ℚ) ≤ 10 ^ (max P 1 - 1) := one_le_pow₀ (by norm_num)
    have h2 := neg_abs_le (textUnits P v - v)
    have h3 := abs_nonneg (textUnits P v - v)
    nlinarith

/-- Numbers with at most `P` significant digits are read back exactly. -/
theorem isMag_exact {P : ℕ} {d : Double} {N j k : ℕ} (hN : N < 10 ^ max P 1)
    (hd : |d.val| * 10 ^ j = N * 10 ^ k) : IsMag (textUnits P d.units) d.mag := by
  by_cases hv : d.units = 0
  · unfold textUnits
    rw [if_pos hv, units_zero hv]
    simpa [Double.unitsOfMag] using isMag_units 0
  · obtain ⟨c, hc, _, hcs, s1, s2⟩ := exists_scale
    have hs := isSig_sigDigits (p := max P 1) (by omega) (Nat.pos_of_ne_zero hv)
    have : textUnits P d.units = d.units := by
      suffices hx : decVal (max P 1) (sigDigits (max P 1) d.units).1 (sigDigits (max P 1) d.units).2 =
          scaled d.units by
        rw [s2 P _ hv, hx]; exact (s1 _).symm
      refine hs.exact (by omega) hN (j := j) (k := k + 324) ?_
      rw [Double.abs_val, s1 d.units, scale_val hc hcs] at hd
      revert hd
      generalize scaled d.units = y
      intro hd
      rw [pow_add, ← mul_assoc, ← hd]
      have : ((10 : ℚ) ^ 324) ≠ 0 := pow_ne_zero _ (by norm_num)
      revert this
      generalize ((10 : ℚ) ^ 324) = A
      intro hA
      field_simp
    rw [this]
    exact isMag_units _

theorem printable_exact {P : ℕ} {d : Double} (hf : d.isFinite = true) {N j k : ℕ} (hN : N < 10 ^ max P 1)
    (hd : |d.val| * 10 ^ j = N * 10 ^ k) : Printable (.general P) d ∧ reread (.general P) d = d := by
  obtain ⟨h1, h2⟩ := printable_iff hf (isMag_exact hN hd)
  have hlt : d.mag < Double.infMag := by simpa [Double.isFinite] using hf
  exact ⟨h1.mpr hlt, (h2 hlt).trans d.ofSignMag_self⟩

/-- Reprinting the reread value gives the same digits. -/
theorem sigDigits_reread {P : ℕ} (hP : P ≤ 15) {v : ℕ} (hv : 2 ^ 52 ≤ v) {m : ℕ}
    (hm : IsMag (textUnits P v) m) :
    sigDigits (max P 1) (Double.unitsOfMag m) = sigDigits (max P 1) v ∧ Double.unitsOfMag m ≠ 0 := by
  have hv0 : v ≠ 0 := by have := Nat.two_pow_pos 52; omega
  have herr := textUnits_err P hv0
  have h0 := textUnits_nonneg P v
  have h1 : (1 : ℚ) ≤ 10 ^ (max P 1 - 1) := one_le_pow₀ (by norm_num)
  have hp15 : (10 : ℚ) ^ max P 1 ≤ 10 ^ 15 := pow_le_pow_right₀ (by norm_num) (by omega)
  have hv' : (2 : ℚ) ^ 52 ≤ v := by exact_mod_cast hv
  have hclose : |(Double.unitsOfMag m : ℚ) - textUnits P v| * (2 * 10 ^ max P 1) < textUnits P v := by
    obtain ⟨b, b1, b2⟩ := exists_floor_mag _ h0
    obtain ⟨e1, e2⟩ := hm.err b1 b2
    have hab : |(Double.unitsOfMag m : ℚ) - textUnits P v| ≤ 2 ^ binade b / 2 := by
      rw [abs_le]; constructor <;> linarith
    have hhalf : (v : ℚ) / 2 ≤ textUnits P v := by
      have h2 := neg_abs_le (textUnits P v - v)
      have h3 := abs_nonneg (textUnits P v - v)
      nlinarith
    have hbig : (2 : ℚ) ^ binade b * 10 ^ 15 < textUnits P v := by
      obtain ⟨k, r, e, hk, c1, c2⟩ := mag_split b
      rw [← hk]
      rcases c2 with c2 | c2
      · rw [c2]
        have : (10 : ℚ) ^ 15 < 2 ^ 52 / 2 := by norm_num
        linarith
      · rw [e, unitsOfMag_add c1.le (Or.inr c2)] at b1
        have hr : (2 : ℚ) ^ 52 ≤ r := by exact_mod_cast c2
        have hpos : (0 : ℚ) < 2 ^ k := pow_pos (by norm_num) _
        push_cast at b1
        have : (10 : ℚ) ^ 15 < 2 ^ 52 := by norm_num
        nlinarith
    have hpos : (0 : ℚ) < 2 ^ binade b := pow_pos (by norm_num) _
    have hpp : (0 : ℚ) < 10 ^ max P 1 := pow_pos (by norm_num) _
    calc |(Double.unitsOfMag m : ℚ) - textUnits P v| * (2 * 10 ^ max P 1)
        ≤ 2 ^ binade b / 2 * (2 * 10 ^ max P 1) := mul_le_mul_of_nonneg_right hab (by linarith)
      _ = 2 ^ binade b * 10 ^ max P 1 := by ring
      _ ≤ 2 ^ binade b * 10 ^ 15 := mul_le_mul_of_nonneg_left hp15 hpos.le
      _ < _ := hbig
  have hne : Double.unitsOfMag m ≠ 0 := by
    intro hz
    rw [hz, Nat.cast_zero, zero_sub, abs_neg, abs_of_nonneg h0] at hclose
    have : (1 : ℚ) ≤ 10 ^ max P 1 := one_le_pow₀ (by norm_num)
    nlinarith
  refine ⟨?_, hne⟩
  obtain ⟨c, hc, hc1, _, s1, s2⟩ := exists_scale
  have hs := isSig_sigDigits (p := max P 1) (by omega) (Nat.pos_of_ne_zero hv0)
  have hs' := isSig_sigDigits (p := max P 1) (by omega) (Nat.pos_of_ne_zero hne)
  have hge : 1 ≤ scaled (Double.unitsOfMag m) := by
    have a1 : (1 : ℚ) ≤ Double.unitsOfMag m := by exact_mod_cast Nat.pos_of_ne_zero hne
    rw [s1] at a1
    by_contra hlt
    rw [not_le] at hlt
    have := mul_lt_mul_of_pos_right hlt hc
    rw [one_mul] at this
    exact absurd (lt_of_lt_of_le this hc1) (not_lt.mpr a1)
  rw [s2 P v hv0, s1 (Double.unitsOfMag m), ← sub_mul, abs_mul, abs_of_pos hc, mul_right_comm] at hclose
  have hclose' := lt_of_mul_lt_mul_right hclose hc.le
  have := isSig_near (by omega) hs hge hclose'
  obtain ⟨a1, a2⟩ := hs'.unique this
  exact Prod.ext a1 a2

/-- Print, parse, print is print. -/
theorem fmtDouble_reread {P : ℕ} (hP : P ≤ 15) {d : Double} (h : Printable (.general P) d)
    (hn : d.units = 0 ∨ 2 ^ 52 ≤ d.units) : fmtDouble (.general P) (reread (.general P) d) = fmtDouble (.general P) d := by
  rcases hn with hn | hn
  · rw [(printable_zero hn).2]
  · obtain ⟨hm, hlt, hneg⟩ := h.out
    obtain ⟨e1, e2⟩ := sigDigits_reread hP hn hm
    have hf : (reread (.general P) d).isFinite = true := by simpa [Double.isFinite] using hlt
    have hv0 : d.units ≠ 0 := by have := Nat.two_pow_pos 52; omega
    have e2' : (reread (.general P) d).units ≠ 0 := e2
    have e1' : sigDigits (max P 1) (reread (.general P) d).units = sigDigits (max P 1) d.units := e1
    have e3 : fmtUnits P (reread (.general P) d).units = fmtUnits P d.units := by
      unfold fmtUnits
      rw [if_neg e2', if_neg hv0, e1']
    rw [fmtDouble_general P hf, fmtDouble_general P h.finite, hneg, e3]

end MshIO
