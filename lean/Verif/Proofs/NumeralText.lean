import Verif.Proofs.NumeralScan

/-!
# The text of a double is a numeral
-/

namespace MshIO

/-! ## Rounding to digits -/

theorem IsRne.near {Y : ℚ} {d : ℕ} (h : IsRne Y d) : |(d : ℚ) - Y| ≤ 1 / 2 := by
  rw [abs_le]; have := h.up; have := h.down; constructor <;> linarith

theorem IsRne.closest {Y : ℚ} {d : ℕ} (h : IsRne Y d) (n : ℕ) : |(d : ℚ) - Y| ≤ |(n : ℚ) - Y| := by
  by_cases hn : n = d
  · rw [hn]
  · have h1 := h.near
    rcases Nat.lt_or_gt_of_ne hn with hlt | hgt
    · have : (n : ℚ) + 1 ≤ d := by exact_mod_cast hlt
      rw [abs_le] at h1
      rw [abs_of_nonpos (a := (n : ℚ) - Y) (by linarith), abs_le]
      constructor <;> linarith
    · have : (d : ℚ) + 1 ≤ n := by exact_mod_cast hgt
      rw [abs_le] at h1
      rw [abs_of_nonneg (a := (n : ℚ) - Y) (by linarith), abs_le]
      constructor <;> linarith

theorem IsRne.tie {Y : ℚ} {d n : ℕ} (h : IsRne Y d) (hn : n ≠ d) (he : |(n : ℚ) - Y| = |(d : ℚ) - Y|) :
    d % 2 = 0 ∧ (n = d + 1 ∨ d = n + 1) := by
  have h1 := h.near
  have hq : (n : ℚ) ≠ d := by exact_mod_cast hn
  have hmid : (n : ℚ) + d = 2 * Y := by
    rcases abs_eq_abs.mp he with hh | hh
    · exact absurd (by linarith) hq
    · linarith
  rw [abs_le] at h1
  rcases Nat.lt_or_gt_of_ne hn with hlt | hgt
  · have h2 : (n : ℚ) + 1 ≤ d := by exact_mod_cast hlt
    have h3 : (d : ℚ) ≤ n + 1 := by linarith
    have h4 : d = n + 1 := by have : d ≤ n + 1 := by exact_mod_cast h3
                              omega
    refine ⟨h.tieDown ?_, Or.inr h4⟩
    rw [h4] at hmid ⊢
    push_cast at hmid ⊢
    linarith
  · have h2 : (d : ℚ) + 1 ≤ n := by exact_mod_cast hgt
    have h3 : (n : ℚ) ≤ d + 1 := by linarith
    have h4 : n = d + 1 := by have : n ≤ d + 1 := by exact_mod_cast h3
                              omega
    refine ⟨h.tieUp ?_, Or.inl h4⟩
    rw [h4] at hmid
    push_cast at hmid
    linarith

/-- A decimal of at most `p` digits is a whole number or below `10^(p-1)`. -/
theorem decimal_cases {p : ℕ} (hp : 1 ≤ p) (D' : ℕ) (j : ℤ) (hD : D' < 10 ^ p) :
    (∃ k : ℕ, j = k ∧ (D' : ℚ) * 10 ^ j = (D' * 10 ^ k : ℕ)) ∨ (j < 0 ∧ (D' : ℚ) * 10 ^ j < 10 ^ (p - 1)) := by
  rcases Int.lt_or_le j 0 with hj | hj
  · right
    refine ⟨hj, ?_⟩
    have h1 : (10 : ℚ) ^ j ≤ 10 ^ (-1 : ℤ) := zpow_le_zpow_right₀ (by norm_num) (by omega)
    have h2 : (D' : ℚ) < 10 ^ p := by exact_mod_cast hD
    have h3 : (D' : ℚ) * 10 ^ j ≤ D' * 10 ^ (-1 : ℤ) := mul_le_mul_of_nonneg_left h1 (by positivity)
    have h4 : (10 : ℚ) ^ p = 10 ^ (p - 1) * 10 := by rw [← pow_succ]; congr 1; omega
    have h5 : (10 : ℚ) ^ (-1 : ℤ) = 1 / 10 := by norm_num
    rw [h5] at h3
    rw [h4] at h2
    linarith
  · left
    obtain ⟨k, rfl⟩ := Int.eq_ofNat_of_zero_le hj
    exact ⟨k, rfl, by push_cast; rw [zpow_natCast]⟩

theorem rne_closest {p : ℕ} (hp : 1 ≤ p) {Y : ℚ} {d : ℕ} (h : IsRne Y d) (lo : (10 : ℚ) ^ (p - 1) ≤ Y)
    (D' : ℕ) (j : ℤ) (hD : D' < 10 ^ p) : |(d : ℚ) - Y| ≤ |(D' : ℚ) * 10 ^ j - Y| := by
  rcases decimal_cases hp D' j hD with ⟨k, _, e⟩ | ⟨_, hlt⟩
  · rw [e]; exact h.closest _
  · refine (h.closest (10 ^ (p - 1))).trans ?_
    push_cast
    rw [abs_of_nonpos (by linarith), abs_of_nonpos (by linarith)]
    linarith

theorem rne_even {p : ℕ} (hp : 1 ≤ p) {Y : ℚ} {d : ℕ} (h : IsRne Y d) (lo : (10 : ℚ) ^ (p - 1) ≤ Y)
    (D' : ℕ) (j : ℤ) (hD0 : 10 ^ (p - 1) ≤ D') (hD : D' < 10 ^ p) (hne : (D' : ℚ) * 10 ^ j ≠ d)
    (he : |(D' : ℚ) * 10 ^ j - Y| = |(d : ℚ) - Y|) : j = 0 ∧ d % 2 = 0 := by
  rcases decimal_cases hp D' j hD with ⟨k, rfl, e⟩ | ⟨_, hlt⟩
  · rw [e] at he hne
    have hne' : D' * 10 ^ k ≠ d := by exact_mod_cast hne
    obtain ⟨h1, h2⟩ := h.tie hne' he
    refine ⟨?_, h1⟩
    cases k with
    | zero => rfl
    | succ k =>
      rw [pow_succ, ← mul_assoc] at h2
      omega
  · have h1 := h.closest (10 ^ (p - 1))
    push_cast at h1
    rw [← he, abs_of_nonpos (by linarith), abs_of_nonpos (by linarith)] at h1
    linarith

/-- The digits the model computes are those of the nearest decimal. -/
theorem IsSig.nearestDecimal {p : ℕ} (hp : 1 ≤ p) {y : ℚ} {D L : ℕ} (h : IsSig p y D L) (N : ℕ) :
    NearestDecimal p (y / 10 ^ N) D ((L : ℤ) - N - (p - 1 : ℕ)) := by
  obtain ⟨l, d, a1, a2, a3, a4, a5, a6, a7, a8, _, _⟩ := h.out hp
  have ten : (10 : ℚ) ≠ 0 := by norm_num
  set e : ℤ := (l : ℤ) - N - (p - 1 : ℕ) with hedef
  set Y : ℚ := y * 10 ^ (p - 1) / 10 ^ l with hY
  have hp0 : (0 : ℚ) < 10 ^ e := zpow_pos (by norm_num) _
  have hYlo : (10 : ℚ) ^ (p - 1) ≤ Y := by
    rw [hY, le_div_iff₀ (by positivity), mul_comm]
    exact mul_le_mul_of_nonneg_right a1 (by positivity)
  -- everything in units of `10^e`
  have hee : (10 : ℚ) ^ e = 10 ^ l / 10 ^ N / 10 ^ (p - 1) := by
    rw [hedef, zpow_sub₀ ten, zpow_sub₀ ten, zpow_natCast, zpow_natCast, zpow_natCast]
  have hq : y / 10 ^ N = Y * 10 ^ e := by
    rw [hee, hY]
    have h1 : (10 : ℚ) ^ l ≠ 0 := pow_ne_zero _ ten
    have h2 : (10 : ℚ) ^ (p - 1) ≠ 0 := pow_ne_zero _ ten
    have h3 : (10 : ℚ) ^ N ≠ 0 := pow_ne_zero _ ten
    generalize (10 : ℚ) ^ l = A at *
    generalize (10 : ℚ) ^ (p - 1) = B at *
    generalize (10 : ℚ) ^ N = C at *
    field_simp
  have hD : (D : ℚ) * 10 ^ ((L : ℤ) - N - (p - 1 : ℕ)) = d * 10 ^ e := by
    have : decVal p D L / 10 ^ N = (D : ℚ) * 10 ^ ((L : ℤ) - N - (p - 1 : ℕ)) := by
      unfold decVal
      rw [zpow_sub₀ ten, zpow_sub₀ ten, zpow_natCast, zpow_natCast, zpow_natCast]
      generalize (10 : ℚ) ^ N = C at *
      generalize (10 : ℚ) ^ L = A at *
      generalize (10 : ℚ) ^ (p - 1) = B at *
      rw [div_div, div_div, mul_div_assoc, mul_comm B C]
    rw [← this, a6, hee]
    generalize (10 : ℚ) ^ N = C at *
    generalize (10 : ℚ) ^ l = A at *
    generalize (10 : ℚ) ^ (p - 1) = B at *
    rw [div_div, div_div, mul_div_assoc, mul_comm B C]
  have hx : ∀ (D' : ℕ) (x' : ℤ), (D' : ℚ) * 10 ^ x' = (D' * 10 ^ (x' - e)) * 10 ^ e := by
    intro D' x'
    rw [mul_assoc, ← zpow_add₀ ten]
    congr 2
    omega
  have hdist : ∀ z : ℚ, |z * 10 ^ e - Y * 10 ^ e| = |z - Y| * 10 ^ e := by
    intro z
    rw [← sub_mul, abs_mul, abs_of_pos hp0]
  refine ⟨a7, a8, ?_, ?_⟩
  · intro D' x' hD'
    rw [hD, hq, hx D' x', hdist, hdist]
    exact mul_le_mul_of_nonneg_right (rne_closest hp a3 hYlo D' _ hD') hp0.le
  · intro D' x' hD0 hD' hne heq
    rw [hD] at hne heq ⊢
    rw [hq, hx D' x', hdist, hdist, mul_left_inj' hp0.ne'] at heq
    rw [hx D' x', ne_eq, mul_left_inj' hp0.ne'] at hne
    obtain ⟨h1, h2⟩ := rne_even hp a3 hYlo D' _ hD0 hD' hne heq
    exact ⟨d, h2, by rw [show x' = e by omega]⟩

/-! ## Lists of digits -/

theorem exists_digits : ∀ {ds : Bytes}, (∀ c ∈ ds, isDigit c = true) → ∃ l : List (Fin 10), ds = digitsText l
  | [], _ => ⟨[], rfl⟩
  | c :: ds, h => by
    obtain ⟨l, e⟩ := exists_digits (ds := ds) fun c hc => h c (List.mem_cons_of_mem _ hc)
    have hc := (isDigit_iff c).mp (h c (by simp))
    refine ⟨⟨c.toNat - 48, by omega⟩ :: l, ?_⟩
    rw [e]
    show c :: _ = UInt8.ofNat (48 + (c.toNat - 48)) :: _
    rw [show 48 + (c.toNat - 48) = c.toNat by omega, UInt8.ofNat_toNat]
    rfl

theorem digit_eq_zero (d : Fin 10) : (UInt8.ofNat (48 + d.val) == 48) = (d == 0) := by
  revert d; decide

/-- Without zeros at the end. -/
def strip (l : List (Fin 10)) : List (Fin 10) := (l.reverse.dropWhile (· == 0)).reverse

theorem stripZeros_digitsText (l : List (Fin 10)) : stripZeros (digitsText l) = digitsText (strip l) := by
  unfold stripZeros strip digitsText
  rw [← List.map_reverse, List.dropWhile_map, ← List.map_reverse]
  congr 3
  funext d
  exact digit_eq_zero d

theorem strip_tidy (l : List (Fin 10)) : strip l = [] ∨ ∃ t d, strip l = t ++ [d] ∧ d ≠ 0 := by
  unfold strip
  cases h : l.reverse.dropWhile (· == 0) with
  | nil => exact Or.inl rfl
  | cons d t =>
    right
    refine ⟨t.reverse, d, by simp, ?_⟩
    have := List.head?_dropWhile_not (p := fun x : Fin 10 => x == 0) (l := l.reverse)
    rw [h] at this
    simpa using this

/-- The digits after the point as the model prints them. -/
def fracOf (f : List (Fin 10)) : Option (List (Fin 10)) := if f = [] then none else some f

theorem fracText_fracOf (f : List (Fin 10)) :
    fracText (digitsText f) = match fracOf f with | none => [] | some f => b! "." ++ digitsText f := by
  unfold fracText fracOf
  cases f with
  | nil => rfl
  | cons d t => rfl

theorem getD_fracOf (f : List (Fin 10)) : (fracOf f).getD [] = f := by
  unfold fracOf
  split
  · rename_i h; rw [h]; rfl
  · rfl

theorem fracOf_tidy (l : List (Fin 10)) : ∀ f ∈ fracOf (strip l), ∃ t d, f = t ++ [d] ∧ d ≠ 0 := by
  intro f hf
  unfold fracOf at hf
  split at hf
  · cases hf
  · rename_i h
    cases hf
    exact (strip_tidy l).resolve_left h

theorem strip_digits_value (a b : List (Fin 10)) :
    (digitsValue a : ℚ) + digitsValue (strip b) / 10 ^ (strip b).length =
      digitsValue (a ++ b) * 10 ^ (-(b.length : ℤ)) := by
  have h := strip_value (digitsText a) (digitsText b)
  rw [stripZeros_digitsText, ← digitsText_append, ← digitsText_append, natOfDigits_digitsText, natOfDigits_digitsText,
    digitsText_length, digitsText_length] at h
  rw [← h, digitsValue_append, zpow_neg, zpow_natCast]
  push_cast
  have : (10 : ℚ) ^ (strip b).length ≠ 0 := pow_ne_zero _ (by norm_num)
  field_simp

theorem decNat_two (n : ℕ) (h : 10 ≤ n) : 2 ≤ (decNat n).length := by
  rw [decNat_ge h, List.length_append]
  have := List.length_pos_of_ne_nil (decNat_ne_nil (n / 10))
  simp; omega

theorem head_ne_zero {l : List (Fin 10)} {c : UInt8} {r : Bytes} (h : digitsText l = c :: r) (hc : c ≠ 48) :
    ∃ d t, l = d :: t ∧ d ≠ 0 := by
  cases l with
  | nil => cases h
  | cons d t =>
    refine ⟨d, t, rfl, ?_⟩
    rintro rfl
    injection h with h1 _
    exact hc h1.symm

theorem signed_neg {X : ℤ} (h : X < 0) : -1 * (X.natAbs : ℤ) = X := by omega
theorem signed_pos {X : ℤ} (h : ¬ X < 0) : 1 * (X.natAbs : ℤ) = X := by omega

/-! ## The text -/

/-- The exponent field is a tidy exponent. -/
theorem expText_numeral (X : ℤ) : ∃ e : Exponent, e.Tidy ∧ 101 :: expText X = e.text ∧
    signValue e.sign * (digitsValue e.digits : ℤ) = X := by
  obtain ⟨ed, e1, e2, e3, e4⟩ : ∃ ed : List (Fin 10),
      (if X.natAbs < 10 then 48 :: decNat X.natAbs else decNat X.natAbs) = digitsText ed ∧
      digitsValue ed = X.natAbs ∧ 2 ≤ ed.length ∧ (2 < ed.length → ∃ d t, ed = d :: t ∧ d ≠ 0) := by
    obtain ⟨g, hg⟩ := exists_digits (decNat_digits X.natAbs)
    have hgv : digitsValue g = X.natAbs := by rw [← natOfDigits_digitsText, ← hg, natOfDigits_decNat]
    by_cases h10 : X.natAbs < 10
    · rw [if_pos h10, hg]
      have hgl : g.length = 1 := by
        rw [← digitsText_length, ← hg, decNat_lt h10]; rfl
      refine ⟨0 :: g, rfl, ?_, by simp [hgl], fun hh => by simp [hgl] at hh⟩
      rw [← List.singleton_append, digitsValue_append, hgv]
      show 0 * _ + _ = _
      omega
    · rw [if_neg h10, hg]
      refine ⟨g, rfl, hgv, ?_, fun _ => ?_⟩
      · rw [← digitsText_length, ← hg]; exact decNat_two _ (by omega)
      · obtain ⟨c', r', hcr', hc'⟩ := decNat_head X.natAbs (by omega)
        rw [hg] at hcr'
        exact head_ne_zero hcr' hc'
  refine ⟨⟨false, some (decide (X < 0)), ed⟩, ⟨rfl, by simp, ?_, e3, e4⟩, ?_, ?_⟩
  · intro hh
    have hX : X < 0 := by simpa using hh
    simp only [e2]
    omega
  · unfold expText Exponent.text
    rw [e1]
    by_cases hneg : X < 0
    · rw [show decide (X < 0) = true by simpa using hneg, if_pos hneg]; rfl
    · rw [show decide (X < 0) = false by simpa using hneg, if_neg hneg]; rfl
  · simp only [e2]
    by_cases hneg : X < 0
    · rw [show decide (X < 0) = true by simpa using hneg]; exact signed_neg hneg
    · rw [show decide (X < 0) = false by simpa using hneg]; exact signed_pos hneg

theorem fmtUnits_numeral (P : ℕ) {v : ℕ} (hv : 0 < v) (s : Bool) :
    ∃ n : Numeral, n.Proper ∧ n.Tidy ∧ n.sign = (if s then some true else none) ∧
      n.text = signText n.sign ++ fmtUnits P v ∧
      n.size = (sigDigits (max P 1) v).1 * 10 ^ (((sigDigits (max P 1) v).2 : ℤ) - 324 - (max P 1 - 1 : ℕ)) ∧
      (n.exp = none ↔ -4 ≤ ((sigDigits (max P 1) v).2 : ℤ) - 324 ∧ ((sigDigits (max P 1) v).2 : ℤ) - 324 < (max P 1 : ℕ)) ∧
      ∀ e ∈ n.exp, n.power = ((sigDigits (max P 1) v).2 : ℤ) - 324 := by
  have hp : 1 ≤ max P 1 := by omega
  obtain ⟨_, _, _, _, _, _, _, _, hD1, hD2, _, _⟩ := (isSig_sigDigits hp hv).out hp
  unfold fmtUnits
  rw [if_neg (show ¬ v = 0 by omega)]
  generalize sigDigits (max P 1) v = sd at *
  obtain ⟨D, L⟩ := sd
  simp only at hD1 hD2 ⊢
  generalize max P 1 = p at *
  obtain ⟨p, rfl⟩ : ∃ p', p = p' + 1 := ⟨p - 1, by omega⟩
  simp only [Nat.add_sub_cancel] at hD1 ⊢
  have hlen := decNat_length D p hD1 hD2
  have hN := natOfDigits_decNat D
  have hD0 : D ≠ 0 := by
    have : 0 < 10 ^ p := Nat.pow_pos (by norm_num)
    omega
  obtain ⟨c, r, hcr, hc⟩ := decNat_head D hD0
  obtain ⟨l, hl⟩ := exists_digits (decNat_digits D)
  rw [hl] at hlen hN hcr ⊢
  rw [digitsText_length] at hlen
  rw [natOfDigits_digitsText] at hN
  obtain ⟨d, t, hdt, hd0⟩ := head_ne_zero hcr hc
  have ten : (10 : ℚ) ≠ 0 := by norm_num
  have hsg : (if s then some true else none : Option Bool) ≠ some false := by cases s <;> simp
  have htake : ∀ k, (digitsText l).take k = digitsText (l.take k) := fun k => by
    unfold digitsText; rw [List.map_take]
  have hdrop : ∀ k, (digitsText l).drop k = digitsText (l.drop k) := fun k => by
    unfold digitsText; rw [List.map_drop]
  have hsplit : ∀ k, digitsValue (l.take k ++ l.drop k) = D := by
    intro k; rw [List.take_append_drop]; exact hN
  generalize (L : ℤ) - 324 = X
  by_cases hx : -4 ≤ X ∧ X < ((p + 1 : ℕ) : ℤ)
  · rw [if_pos hx]
    by_cases hx0 : 0 ≤ X
    · rw [if_pos hx0]
      obtain ⟨x, rfl⟩ := Int.eq_ofNat_of_zero_le hx0
      rw [Int.toNat_natCast]
      have hxl : x < p + 1 := by have := hx.2; exact_mod_cast this
      refine ⟨⟨if s then some true else none, l.take (x + 1), fracOf (strip (l.drop (x + 1))), none⟩,
        ⟨Or.inl ?_, fun e he => by cases he⟩, ⟨hsg, Or.inr ?_, fracOf_tidy _, fun e he => by cases he⟩, rfl, ?_, ?_, ?_,
        fun e he => by cases he⟩
      · rw [hdt]; simp
      · exact ⟨d, t.take x, by rw [hdt]; rfl, hd0⟩
      · rw [htake, hdrop, stripZeros_digitsText, fracText_fracOf]
        unfold Numeral.text
        simp only [List.append_nil, List.append_assoc]
        rfl
      · unfold Numeral.size Numeral.fracDigits
        simp only [getD_fracOf, Numeral.power]
        rw [strip_digits_value, hsplit, List.length_drop, hlen, zpow_zero, mul_one]
        exact ten_congr (by omega)
      · exact ⟨fun _ => hx, fun _ => rfl⟩
    · rw [if_neg hx0]
      obtain ⟨k, hk1, hk2⟩ : ∃ k : ℕ, (-X).toNat - 1 = k ∧ X = -(k : ℤ) - 1 := ⟨_, rfl, by omega⟩
      rw [hk1]
      have hrep : List.replicate k (48 : UInt8) ++ digitsText l = digitsText (List.replicate k 0 ++ l) := by
        rw [digitsText_append]
        congr 1
        unfold digitsText
        rw [List.map_replicate]
        rfl
      rw [hrep, stripZeros_digitsText, fracText_fracOf]
      refine ⟨⟨if s then some true else none, [0], fracOf (strip (List.replicate k 0 ++ l)), none⟩,
        ⟨Or.inl (by simp), fun e he => by cases he⟩, ⟨hsg, Or.inl rfl, fracOf_tidy _, fun e he => by cases he⟩, rfl, ?_, ?_, ?_,
        fun e he => by cases he⟩
      · unfold Numeral.text
        simp only [List.append_nil, List.append_assoc]
        rfl
      · unfold Numeral.size Numeral.fracDigits
        simp only [getD_fracOf, Numeral.power]
        have h0 : digitsValue ([0] ++ (List.replicate k 0 ++ l)) = D := by
          rw [← List.append_assoc, digitsValue_append, hN]
          have : digitsValue ([0] ++ List.replicate k 0) = 0 := by
            rw [← natOfDigits_digitsText, digitsText_append]
            have : digitsText (List.replicate k 0) = List.replicate k 48 := by
              unfold digitsText; rw [List.map_replicate]; rfl
            rw [this, natOfDigits_append, natOfDigits_replicate]
            show 0 * _ + 0 = 0
            omega
          rw [this, Nat.zero_mul, Nat.zero_add]
        rw [strip_digits_value, h0, List.length_append, List.length_replicate, hlen, zpow_zero, mul_one]
        refine ten_congr ?_
        rw [hk2]; push_cast; ring
      · exact ⟨fun _ => hx, fun _ => rfl⟩
  · rw [if_neg hx]
    obtain ⟨ex, he1, he2, hpow⟩ := expText_numeral X
    refine ⟨⟨if s then some true else none, l.take 1, fracOf (strip (l.drop 1)), some ex⟩,
      ⟨Or.inl ?_, ?_⟩, ⟨hsg, Or.inr ?_, fracOf_tidy _, ?_⟩, rfl, ?_, ?_, ?_, ?_⟩
    · rw [hdt]; simp
    · intro e he
      cases he
      intro h0
      have := he1.two
      rw [h0] at this
      simp at this
    · exact ⟨d, [], by rw [hdt]; rfl, hd0⟩
    · intro e he
      cases he
      refine ⟨by rw [hdt]; rfl, ?_, he1⟩
      rw [hdt]; simpa using hd0
    · rw [htake, hdrop, stripZeros_digitsText, fracText_fracOf, he2]
      unfold Numeral.text
      simp only [List.append_assoc]
      rfl
    · unfold Numeral.size Numeral.fracDigits
      simp only [getD_fracOf, Numeral.power]
      rw [strip_digits_value, hsplit, List.length_drop, hlen, hpow, mul_assoc, ← zpow_add₀ ten]
      refine ten_congr ?_
      simp only [Nat.add_sub_cancel]
      ring
    · constructor
      · intro hh; cases hh
      · intro hh; exact absurd hh hx
    · intro e he
      exact hpow

theorem decVal_scaled (p D L : ℕ) :
    decVal p D L / 10 ^ 324 * 2 ^ 1074 = (D : ℚ) * 10 ^ ((L : ℤ) - 324 - (p - 1 : ℕ)) * 2 ^ 1074 := by
  congr 1
  unfold decVal
  rw [zpow_sub₀ (by norm_num), zpow_sub₀ (by norm_num), zpow_natCast, zpow_natCast]
  rw [show ((324 : ℤ)) = ((324 : ℕ) : ℤ) from rfl, zpow_natCast]
  generalize (10 : ℚ) ^ 324 = A
  rw [div_div, div_div, mul_div_assoc, mul_comm A]

/-- `%g` prints a tidy numeral: the digits of the nearest decimal. -/
theorem fmtGeneral_numeral (P : ℕ) (d : Double) :
    ∃ n : Numeral, n.Proper ∧ n.Tidy ∧ n.sign = (if d.neg then some true else none) ∧ n.text = fmtGeneral P d ∧
      n.size = (if d.units = 0 then 0 else ((sigDigits (max P 1) d.units).1 : ℚ) *
        10 ^ (((sigDigits (max P 1) d.units).2 : ℤ) - 324 - (max P 1 - 1 : ℕ))) ∧
      (n.exp = none ↔ d.units = 0 ∨ -4 ≤ ((sigDigits (max P 1) d.units).2 : ℤ) - 324 ∧
        ((sigDigits (max P 1) d.units).2 : ℤ) - 324 < (max P 1 : ℕ)) := by
  have hsign : signText (if d.neg then some true else none) = if d.neg then [45] else [] := by cases d.neg <;> rfl
  by_cases hv : d.units = 0
  · refine ⟨⟨if d.neg then some true else none, [0], none, none⟩, ⟨Or.inl (by simp), fun e he => by cases he⟩,
      ⟨by cases d.neg <;> simp, Or.inl rfl, (fun f hf => by cases hf), (fun e he => by cases he)⟩, rfl, ?_, ?_, ?_⟩
    · unfold Numeral.text fmtGeneral
      rw [hsign, hv, show fmtUnits P 0 = [48] by unfold fmtUnits; rw [if_pos rfl]]
      simp [digitsText]
    · rw [if_pos hv]
      simp [Numeral.size, Numeral.fracDigits, digitsValue]
    · exact ⟨fun _ => Or.inl hv, fun _ => rfl⟩
  · obtain ⟨n, h1, h2, h3, h4, h5, h6, _⟩ := fmtUnits_numeral P (Nat.pos_of_ne_zero hv) d.neg
    refine ⟨n, h1, h2, h3, ?_, by rw [if_neg hv]; exact h5, ?_⟩
    · rw [h4, h3, hsign]; rfl
    · rw [h6]; simp [hv]

end MshIO
