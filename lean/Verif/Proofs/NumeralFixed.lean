import Verif.Proofs.NumeralText
import Verif.Proofs.NumeralUnique

/-!
# The numerals that `std::fixed` and `std::scientific` print
-/

namespace MshIO

theorem signText_printed (d : Double) : signText (printedSign d) = if d.neg then b! "-" else [] := by
  unfold printedSign; cases d.neg <;> rfl

/-- The digits of an integer. -/
theorem decNat_tidy (N : ℕ) : ∃ l, decNat N = digitsText l ∧ digitsValue l = N ∧ TidyInt l := by
  obtain ⟨l, hl⟩ := exists_digits (decNat_digits N)
  refine ⟨l, hl, by rw [← natOfDigits_digitsText, ← hl, natOfDigits_decNat], ?_⟩
  by_cases h0 : N = 0
  · subst h0
    left
    have h1 : digitsValue l = 0 := by rw [← natOfDigits_digitsText, ← hl, natOfDigits_decNat]
    have h2 : l.length = 1 := by rw [← digitsText_length, ← hl, decNat_lt (by norm_num)]; rfl
    exact digitsValue_inj (by simp [h2]) (by rw [h1]; rfl)
  · obtain ⟨c, r, hcr, hc⟩ := decNat_head N h0
    rw [hl] at hcr
    exact Or.inr (head_ne_zero hcr hc)

theorem TidyInt.length_le {l : List (Fin 10)} (h : TidyInt l) {p : ℕ} (hp : 1 ≤ p) (hv : digitsValue l < 10 ^ p) :
    l.length ≤ p := by
  rcases h with rfl | ⟨d, t, rfl, hd⟩
  · simpa using hp
  · have h1 := digitsValue_ge hd t
    exact (Nat.pow_lt_pow_iff_right (by norm_num)).mp (lt_of_le_of_lt h1 hv)

theorem digitsText_replicate (k : ℕ) : digitsText (List.replicate k 0) = List.replicate k 48 := by
  unfold digitsText; rw [List.map_replicate]; rfl

theorem digitsValue_zeros (k : ℕ) (l : List (Fin 10)) : digitsValue (List.replicate k 0 ++ l) = digitsValue l := by
  rw [digitsValue_append, ← natOfDigits_digitsText (List.replicate k 0), digitsText_replicate, natOfDigits_replicate]
  omega

/-- The zero-padded digits of a number below `10^p`. -/
theorem padZeros_digits {p N : ℕ} (hp : 1 ≤ p) (hN : N < 10 ^ p) :
    ∃ l, padZeros p (decNat N) = digitsText l ∧ l.length = p ∧ digitsValue l = N := by
  obtain ⟨l, hl, hv, ht⟩ := decNat_tidy N
  have hle := ht.length_le hp (by rw [hv]; exact hN)
  refine ⟨List.replicate (p - l.length) 0 ++ l, ?_, ?_, ?_⟩
  · unfold padZeros
    rw [hl, digitsText_length, digitsText_append, digitsText_replicate]
  · rw [List.length_append, List.length_replicate]; omega
  · rw [digitsValue_zeros, hv]

theorem fmtFixed_numeral (P : ℕ) (d : Double) :
    ∃ n : Numeral, n.Proper ∧ n.text = fmtFixed P d ∧ n.sign = printedSign d ∧ TidyInt n.int ∧ PlacesOf P n.frac ∧
      n.exp = none ∧ n.size = (rne (d.units * 10 ^ P) (2 ^ 1074) : ℚ) / 10 ^ P := by
  unfold fmtFixed
  generalize rne (d.units * 10 ^ P) (2 ^ 1074) = N
  obtain ⟨i, hi, hiv, hit⟩ := decNat_tidy (N / 10 ^ P)
  have hp : 0 < 10 ^ P := Nat.pow_pos (by norm_num)
  by_cases hP : P = 0
  · refine ⟨⟨printedSign d, i, none, none⟩, ⟨Or.inl hit.ne_nil, fun e he => by cases he⟩, ?_, rfl, hit, ?_, rfl, ?_⟩
    · unfold Numeral.text
      simp only [signText_printed, if_pos hP, hi]
      simp [fracText]
    · unfold PlacesOf; rw [if_pos hP]
    · subst hP
      simp only [Numeral.size, Numeral.fracDigits, Numeral.power, Option.getD_none, hiv, pow_zero, Nat.div_one]
      simp [digitsValue]
  · obtain ⟨f, hf, hfl, hfv⟩ := padZeros_digits (N := N % 10 ^ P) (p := P) (by omega) (Nat.mod_lt _ hp)
    refine ⟨⟨printedSign d, i, some f, none⟩, ⟨Or.inl hit.ne_nil, fun e he => by cases he⟩, ?_, rfl, hit, ?_, rfl, ?_⟩
    · unfold Numeral.text
      simp only [signText_printed, if_neg hP, hi, hf]
      have : fracText (digitsText f) = b! "." ++ digitsText f := by
        unfold fracText
        rw [digitsText_isEmpty]
        have : f.isEmpty = false := by cases f <;> simp_all
        rw [this]; rfl
      rw [this]
      simp
    · unfold PlacesOf; rw [if_neg hP]; exact ⟨f, rfl, hfl⟩
    · simp only [Numeral.size, Numeral.fracDigits, Numeral.power, Option.getD_some, hiv, hfl, hfv, zpow_zero, mul_one]
      have hd : (N : ℚ) = 10 ^ P * (N / 10 ^ P : ℕ) + (N % 10 ^ P : ℕ) := by
        exact_mod_cast (Nat.div_add_mod N (10 ^ P)).symm
      have hq : (10 : ℚ) ^ P ≠ 0 := by positivity
      rw [eq_div_iff hq, add_mul, div_mul_cancel₀ _ hq, hd, mul_comm]

/-- `n` digits after one digit. -/
theorem one_digit {l : List (Fin 10)} {p : ℕ} (h : l.length = p + 1) :
    ∃ d t, l = d :: t ∧ t.length = p := by
  cases l with
  | nil => cases h
  | cons d t => exact ⟨d, t, rfl, by simpa using h⟩

theorem fracText_places (t : List (Fin 10)) (P : ℕ) (h : t.length = P) :
    ∃ f, PlacesOf P f ∧ f.getD [] = t ∧
      fracText (digitsText t) = match f with | none => [] | some f => b! "." ++ digitsText f := by
  refine ⟨fracOf t, ?_, getD_fracOf t, fracText_fracOf t⟩
  unfold PlacesOf fracOf
  by_cases hP : P = 0
  · rw [if_pos hP, if_pos (List.eq_nil_of_length_eq_zero (by omega))]
  · rw [if_neg hP, if_neg (by rintro rfl; simp at h; omega)]
    exact ⟨t, rfl, h⟩

theorem fmtScientific_numeral (P : ℕ) (d : Double) :
    ∃ n : Numeral, n.Proper ∧ n.text = fmtScientific P d ∧ n.sign = printedSign d ∧ n.int.length = 1 ∧ PlacesOf P n.frac ∧
      (∃ e, n.exp = some e ∧ e.Tidy) ∧ (d.units = 0 → n.size = 0 ∧ n.power = 0) ∧
      (d.units ≠ 0 → n.int ≠ [0] ∧
        n.size = (sigDigits (P + 1) d.units).1 * 10 ^ (((sigDigits (P + 1) d.units).2 : ℤ) - 324 - P)) := by
  unfold fmtScientific
  by_cases hu : d.units = 0
  · rw [if_pos hu]
    obtain ⟨e, he1, he2, he3⟩ := expText_numeral 0
    obtain ⟨f, hf1, hf2, hf3⟩ := fracText_places (List.replicate P 0) P (by simp)
    refine ⟨⟨printedSign d, [0], f, some e⟩, ⟨Or.inl (by simp), ?_⟩, ?_, rfl, rfl, hf1, ⟨e, rfl, he1⟩, fun _ => ⟨?_, he3⟩,
      fun hh => absurd hu hh⟩
    · intro e' he' h0
      cases he'
      have := he1.two
      rw [h0] at this
      simp at this
    · unfold Numeral.text
      rw [signText_printed, he2, ← digitsText_replicate, hf3]
      simp [digitsText]
      cases f <;> rfl
    · have hv : digitsValue (List.replicate P 0) = 0 := by
        have := digitsValue_zeros P []
        rw [List.append_nil] at this
        rw [this]; rfl
      simp only [Numeral.size, Numeral.fracDigits, hf2, hv]
      simp [digitsValue]
  · rw [if_neg hu]
    have hp : 1 ≤ P + 1 := by omega
    obtain ⟨_, _, _, _, _, _, _, _, hD1, hD2, _, _⟩ := (isSig_sigDigits hp (Nat.pos_of_ne_zero hu)).out hp
    generalize sigDigits (P + 1) d.units = sd at *
    obtain ⟨D, L⟩ := sd
    simp only [Nat.add_sub_cancel] at hD1 hD2 ⊢
    have hlen := decNat_length D P hD1 hD2
    obtain ⟨l, hl, hlv, hlt⟩ := decNat_tidy D
    rw [hl, digitsText_length] at hlen
    obtain ⟨c, t, rfl, htl⟩ := one_digit hlen
    obtain ⟨e, he1, he2, he3⟩ := expText_numeral ((L : ℤ) - 324)
    obtain ⟨f, hf1, hf2, hf3⟩ := fracText_places t P htl
    have hc : c ≠ 0 := by
      rcases hlt with h | ⟨d', t', h, h'⟩
      · cases h
        rw [← hlv] at hD1
        have : 0 < 10 ^ P := Nat.pow_pos (by norm_num)
        simp [digitsValue] at hD1
      · cases h; exact h'
    refine ⟨⟨printedSign d, [c], f, some e⟩, ⟨Or.inl (by simp), ?_⟩, ?_, rfl, rfl, hf1, ⟨e, rfl, he1⟩, fun hh => absurd hh hu,
      fun _ => ⟨by simpa using hc, ?_⟩⟩
    · intro e' he' h0
      cases he'
      have := he1.two
      rw [h0] at this
      simp at this
    · unfold Numeral.text
      rw [signText_printed, he2, hl]
      have h1 : (digitsText (c :: t)).take 1 = digitsText [c] := rfl
      have h2 : (digitsText (c :: t)).drop 1 = digitsText t := rfl
      rw [h1, h2, hf3]
      simp only [List.append_assoc]
      cases f <;> rfl
    · simp only [Numeral.size, Numeral.fracDigits, hf2, Numeral.power, he3]
      rw [← hlv, digitsValue_cons c t, show digitsValue [c] = c.val by simp [digitsValue], htl, zpow_sub₀ (by norm_num : (10 : ℚ) ≠ 0) _ (P : ℤ), zpow_natCast]
      have hq : (10 : ℚ) ^ P ≠ 0 := by positivity
      push_cast
      generalize (10 : ℚ) ^ ((L : ℤ) - 324) = X
      field_simp

end MshIO
