import Verif.Proofs.DblVal

/-!
# C05 – C08: doubles stored as text

`reread (.general P) d` is what `load_msh` gets for a double `d` that `save_msh` printed on a stream with
precision `P` (that files behave this way is C02 and C04); `Printable (.general P) d` says that the text is
accepted, i.e. that `d` is finite and rounding it to `P` digits does not leave the range of doubles.
-/

namespace MshIO

/-- When is a text accepted?  Always with the default precision 6. -/
theorem C05_default_always_readable (d : Double) (h : d.isFinite = true) : Printable (.general 6) d :=
  printable_default h

/-- Only finite doubles have a readable text. -/
theorem C05_readable_finite (P : Nat) (d : Double) (h : Printable (.general P) d) : d.isFinite = true := h.finite

/-- Every double up to `10^308` has a readable text, at every precision. -/
theorem C05_readable_of_le (P : Nat) (d : Double) (hf : d.isFinite = true)
    (h : |d.val| ≤ 10 ^ 308) : Printable (.general P) d := by
  by_cases hv : d.units = 0
  · exact (printable_zero hv).1
  · obtain ⟨m, hm⟩ := exists_isMag P hv
    refine (printable_iff hf hm).1.mpr ?_
    obtain ⟨c, hc, _, hcs, s1, s2⟩ := exists_scale
    rw [Double.abs_val, s1 d.units, scale_val hc hcs] at h
    have hs := isSig_sigDigits (p := max P 1) (by omega) (Nat.pos_of_ne_zero hv)
    have hA : (0 : ℚ) < 10 ^ 324 := pow_pos (by norm_num) _
    rw [div_le_iff₀ hA, ← pow_add] at h
    have hten : IsSig (max P 1) (10 ^ 632) (10 ^ (max P 1 - 1)) 632 := by
      refine ⟨⟨632, 10 ^ (max P 1 - 1), le_refl _, ?_, ?_, Or.inr ⟨?_, rfl, rfl⟩⟩⟩
      · exact pow_lt_pow_right₀ (by norm_num) (by omega)
      · have hB : (0 : ℚ) < 10 ^ 632 := pow_pos (by norm_num) _
        revert hB
        generalize ((10 : ℚ) ^ 632) = B
        intro hB
        rw [mul_div_assoc, mul_div_left_comm, div_self hB.ne', mul_one]
        have := isRne_nat (10 ^ (max P 1 - 1))
        rw [Nat.cast_pow, Nat.cast_ofNat] at this
        exact this
      · exact Nat.pow_lt_pow_right (by omega) (by omega)
    have hle := hs.mono (by omega) hten h
    have hdec : decVal (max P 1) (10 ^ (max P 1 - 1)) 632 = 10 ^ 632 := by
      unfold decVal
      generalize ((10 : ℚ) ^ 632) = B
      rw [Nat.cast_pow, Nat.cast_ofNat, mul_comm, mul_div_assoc, div_self (pow_ne_zero _ (by norm_num)),
        mul_one]
    rw [hdec] at hle
    have hcap : textUnits P d.units ≤ (Double.unitsOfMag (Double.infMag - 1) : ℚ) := by
      rw [s2 P _ hv]
      refine le_trans (mul_le_mul_of_nonneg_right hle hc.le) ?_
      have e : (10 : ℚ) ^ 632 * c = 10 ^ 308 * 2 ^ 1074 := by
        rw [← hcs, show 632 = 308 + 324 from rfl, pow_add]
        generalize ((10 : ℚ) ^ 308) = X
        generalize ((10 : ℚ) ^ 324) = Y
        ring
      rw [e]
      have hn : 10 ^ 308 * 2 ^ 1074 ≤ Double.unitsOfMag (Double.infMag - 1) := by decide +kernel
      have := (Nat.cast_le (α := ℚ)).mpr hn
      rw [Nat.cast_mul, Nat.cast_pow, Nat.cast_pow, Nat.cast_ofNat, Nat.cast_ofNat] at this
      exact this
    have := hm.mono (isMag_units _) hcap
    have hp : 0 < Double.infMag := by decide
    omega

/-- **C05** The double read back differs from the original by at most half a unit in the `P`-th
significant decimal digit plus half a unit in the last binary place.  `e` is the decimal exponent of
`d`. -/
theorem C05_text_error (P : Nat) (hP : 1 ≤ P) (d : Double) (h : Printable (.general P) d) (e : ℤ)
    (he : 10 ^ e ≤ |d.val|) (he' : |d.val| < 10 ^ (e + 1)) :
    |(reread (.general P) d).val - d.val| ≤ 10 ^ (e + 1 - P) / 2 + (reread (.general P) d).ulp / 2 := by
  obtain ⟨hm, hlt, hneg⟩ := h.out
  have hv : d.units ≠ 0 := by
    intro h0
    rw [Double.abs_val, h0, Nat.cast_zero, zero_div] at he
    exact absurd he (not_le.mpr (zpow_pos (by norm_num) _))
  rw [Double.abs_val] at he he'
  have h1 := textUnits_abs P hv he he'
  rw [show ((max P 1 : ℕ) : ℤ) = (P : ℤ) by rw [max_eq_left hP]] at h1
  have h2 := hm.ulp (textUnits_nonneg P _)
  rw [Double.abs_val_sub hneg]
  have hu : (reread (.general P) d).ulp = 2 ^ binade (reread (.general P) d).mag / 2 ^ 1074 := rfl
  rw [hu]
  have hu2 : ((reread (.general P) d).units : ℚ) = (Double.unitsOfMag (reread (.general P) d).mag : ℚ) := rfl
  rw [hu2]
  have hC : (0 : ℚ) < 2 ^ 1074 := pow_pos (by norm_num) _
  revert h1 h2 hC
  generalize ((2 : ℚ) ^ 1074) = C
  generalize ((Double.unitsOfMag (reread (.general P) d).mag : ℕ) : ℚ) = a
  generalize textUnits P d.units = t
  generalize ((d.units : ℕ) : ℚ) = v
  generalize (2 : ℚ) ^ binade (reread (.general P) d).mag = u
  intro h1 h2 hC
  have h3 : |a - v| ≤ |a - t| + |t - v| := abs_sub_le _ _ _
  have h4 : |a - v| / C ≤ (|a - t| + |t - v|) / C := by
    rw [div_le_div_iff_of_pos_right hC]; exact h3
  rw [add_div] at h4
  have h5 : |a - t| / C ≤ u / C / 2 := by
    rw [div_right_comm, div_le_div_iff_of_pos_right hC]; exact h2
  linarith

/-- The error is also at most one unit in the `P`-th significant digit, because the original is itself
a double and the nearest double to the text is chosen. -/
theorem C05_text_error_unit (P : Nat) (hP : 1 ≤ P) (d : Double) (h : Printable (.general P) d) (e : ℤ)
    (he : 10 ^ e ≤ |d.val|) (he' : |d.val| < 10 ^ (e + 1)) :
    |(reread (.general P) d).val - d.val| ≤ 10 ^ (e + 1 - P) := by
  obtain ⟨hm, hlt, hneg⟩ := h.out
  have hv : d.units ≠ 0 := by
    intro h0
    rw [Double.abs_val, h0, Nat.cast_zero, zero_div] at he
    exact absurd he (not_le.mpr (zpow_pos (by norm_num) _))
  rw [Double.abs_val] at he he'
  have h1 := textUnits_abs P hv he he'
  rw [show ((max P 1 : ℕ) : ℤ) = (P : ℤ) by rw [max_eq_left hP]] at h1
  have h2 := hm.nearest d.mag
  rw [Double.abs_val_sub hneg]
  have hu2 : ((reread (.general P) d).units : ℚ) = (Double.unitsOfMag (reread (.general P) d).mag : ℚ) := rfl
  have hu3 : ((d.units : ℕ) : ℚ) = (Double.unitsOfMag d.mag : ℚ) := rfl
  rw [hu3] at h1
  rw [hu2, hu3]
  have hC : (0 : ℚ) < 2 ^ 1074 := pow_pos (by norm_num) _
  revert h1 h2 hC
  generalize ((2 : ℚ) ^ 1074) = C
  generalize ((Double.unitsOfMag (reread (.general P) d).mag : ℕ) : ℚ) = a
  generalize textUnits P d.units = t
  generalize ((Double.unitsOfMag d.mag : ℕ) : ℚ) = v
  intro h1 h2 hC
  have h3 : |a - v| ≤ |a - t| + |t - v| := abs_sub_le _ _ _
  rw [abs_sub_comm v t] at h2
  have h4 : |a - v| / C ≤ (|t - v| + |t - v|) / C := by
    rw [div_le_div_iff_of_pos_right hC]; linarith
  rw [add_div] at h4
  linarith

/-- The sign survives, and zeros (with their sign) survive unchanged. -/
theorem C05_sign_and_zero (P : Nat) (d : Double) :
    (Printable (.general P) d → (reread (.general P) d).neg = d.neg) ∧
    (d.val = 0 → d.isFinite = true → Printable (.general P) d ∧ reread (.general P) d = d) := by
  refine ⟨fun h => h.out.2.2, fun h hf => printable_zero ?_⟩
  have := d.abs_val
  rw [h, abs_zero, eq_comm, div_eq_zero_iff] at this
  rcases this with h | h
  · exact_mod_cast h
  · exact absurd h (pow_ne_zero _ (by norm_num))

/-- Witness: `π` at the default precision comes back as `3.14159`, which is not `π`. -/
example : Printable (.general 6) ⟨0x400921FB54442D18⟩ ∧ reread (.general 6) ⟨0x400921FB54442D18⟩ = ⟨0x400921F9F01B866E⟩ ∧
    fmtDouble (.general 6) ⟨0x400921FB54442D18⟩ = b! "3.14159" := by
  unfold Printable reread
  exact ⟨by decide +kernel, by decide +kernel, by decide +kernel⟩

/-- **C06** Printing the reread value at the same precision gives the same text, for every double of
normal magnitude (and zero) and every precision up to 15. -/
theorem C06_second_generation (P : Nat) (hP : P ≤ 15) (d : Double) (h : Printable (.general P) d)
    (hn : d.val = 0 ∨ 1 / 2 ^ 1022 ≤ |d.val|) :
    fmtDouble (.general P) (reread (.general P) d) = fmtDouble (.general P) d := by
  refine fmtDouble_reread hP h ?_
  rcases hn with hn | hn
  · left
    have := d.abs_val
    rw [hn, abs_zero, eq_comm, div_eq_zero_iff] at this
    rcases this with h | h
    · exact_mod_cast h
    · exact absurd h (pow_ne_zero _ (by norm_num))
  · right
    rw [Double.abs_val, show 1074 = 52 + 1022 from rfl, pow_add, ← div_div,
      div_le_div_iff_of_pos_right (pow_pos (by norm_num) _),
      le_div_iff₀ (pow_pos (by norm_num) _), one_mul] at hn
    exact_mod_cast hn

/-- At 17 digits and more the reread value is the original, so the text is stable as well. -/
theorem C06_second_generation_17 (P : Nat) (hP : 17 ≤ P) (d : Double) (hf : d.isFinite = true) :
    fmtDouble (.general P) (reread (.general P) d) = fmtDouble (.general P) d := by rw [(printable_17 hP hf).2]

/-- The restriction to normal magnitudes is needed: the subnormal `202403 * 2^-1074` prints as
`1e-318`, which is read as a number that prints as `9.99999e-319`. -/
theorem C06_subnormal_counterexample : ∃ d : Double, Printable (.general 6) d ∧
    fmtDouble (.general 6) d = b! "1e-318" ∧ fmtDouble (.general 6) (reread (.general 6) d) ≠ fmtDouble (.general 6) d :=
  ⟨⟨202403⟩, by unfold Printable; decide +kernel, by decide +kernel, by unfold reread; decide +kernel⟩

/-- Witness: one tenth is of normal magnitude. -/
example : Printable (.general 6) ⟨0x3FB999999999999A⟩ ∧ (1 : ℚ) / 2 ^ 1022 ≤ |(⟨0x3FB999999999999A⟩ : Double).val| := by
  refine ⟨by unfold Printable; decide +kernel, ?_⟩
  have h : 2 ^ 52 ≤ (⟨0x3FB999999999999A⟩ : Double).units := by decide +kernel
  rw [Double.abs_val, show 1074 = 52 + 1022 from rfl, pow_add, ← div_div,
      div_le_div_iff_of_pos_right (pow_pos (by norm_num) _),
      le_div_iff₀ (pow_pos (by norm_num) _), one_mul]
  exact_mod_cast h

/-- **C07** With a stream precision of at least 17 every finite double survives bit for bit. -/
theorem C07_lossless (P : Nat) (hP : 17 ≤ P) (d : Double) (hf : d.isFinite = true) :
    Printable (.general P) d ∧ reread (.general P) d = d := printable_17 hP hf

/-- The same, as a property of the format. -/
theorem C07_lossless_general (P : Nat) (hP : 17 ≤ P) : (Fmt.general P).Lossless := fun _ hf => printable_17 hP hf

/-- 16 digits are not enough, for example for 1.5692035049097488. -/
theorem C07_sixteen_not_enough : ∃ d : Double, d.isFinite = true ∧ reread (.general 16) d ≠ d :=
  ⟨⟨0x3FF91B752265B1F5⟩, by decide +kernel, by unfold reread; decide +kernel⟩

/-- **C08** A double holding an integer of absolute value below `10^P` survives at precision `P`. -/
theorem C08_integers (P : Nat) (hP : 1 ≤ P) (d : Double) (hf : d.isFinite = true) (n : Nat)
    (hn : n < 10 ^ P) (hd : |d.val| = n) : Printable (.general P) d ∧ reread (.general P) d = d := by
  refine printable_exact hf (N := n) (j := 0) (k := 0) (by rw [max_eq_left hP]; exact hn) ?_
  rw [hd, pow_zero]

/-- In particular integers below a million survive at the default precision. -/
theorem C08_integers_default (d : Double) (hf : d.isFinite = true) (n : Nat) (hn : n < 1000000)
    (hd : |d.val| = n) : Printable (.general 6) d ∧ reread (.general 6) d = d :=
  C08_integers 6 (by decide) d hf n hn hd

/-- More generally every double with at most `P` significant decimal digits, i.e. of the form
`±N * 10^(k-j)` with `N < 10^P`, survives at precision `P`. -/
theorem C08_short_decimals (P : Nat) (hP : 1 ≤ P) (d : Double) (hf : d.isFinite = true) (N j k : Nat)
    (hN : N < 10 ^ P) (hd : |d.val| * 10 ^ j = N * 10 ^ k) : Printable (.general P) d ∧ reread (.general P) d = d :=
  printable_exact hf (by rw [max_eq_left hP]; exact hN) hd

/-- The bound is sharp: `1000001` does not survive at precision 6. -/
theorem C08_sharp : ∃ d : Double, d.isFinite = true ∧ fmtDouble (.general 7) d = b! "1000001" ∧ reread (.general 6) d ≠ d :=
  ⟨⟨0x412E848200000000⟩, by decide +kernel, by decide +kernel, by unfold reread; decide +kernel⟩

/-- Witness: the double `-999999`. -/
example : (⟨0xC12E847E00000000⟩ : Double).isFinite = true ∧
    |(⟨0xC12E847E00000000⟩ : Double).val| = (999999 : Nat) := by
  refine ⟨by decide +kernel, ?_⟩
  have h : (⟨0xC12E847E00000000⟩ : Double).units = 999999 * 2 ^ 1074 := by decide +kernel
  rw [Double.abs_val, h, Nat.cast_mul, Nat.cast_pow, Nat.cast_ofNat]
  exact mul_div_cancel_right₀ _ (pow_ne_zero _ (by norm_num))

end MshIO
