import Verif.Proofs.Round
import Verif.Proofs.Loops
import Verif.Spec.Decimal

/-!
# Text of doubles: what is printed, and how it is scanned
-/

namespace MshIO

/-! ## Decimal logarithm and significant digits -/

theorem log10Aux_spec : ∀ (fuel n : ℕ), 1 ≤ n → n ≤ fuel →
    10 ^ log10Aux fuel n ≤ n ∧ n < 10 ^ (log10Aux fuel n + 1) := by
  intro fuel
  induction fuel with
  | zero => intro n h1 h2; omega
  | succ fuel ih =>
    intro n h1 h2
    unfold log10Aux
    by_cases h : n < 10
    · rw [if_pos h]; simp; omega
    · rw [if_neg h]
      obtain ⟨e1, e2⟩ := ih (n / 10) (by omega) (by omega)
      rw [pow_succ, pow_succ]
      omega

theorem log10_spec {n : ℕ} (h : 1 ≤ n) : 10 ^ log10 n ≤ n ∧ n < 10 ^ (log10 n + 1) :=
  log10Aux_spec n n h le_rfl

/-- `(D, L)`: the `p` significant digits of `y`, correctly rounded, stand for
`D * 10^L / 10^(p-1)`. -/
structure IsSig (p : ℕ) (y : ℚ) (D L : ℕ) : Prop where
  ex : ∃ l d, (10 : ℚ) ^ l ≤ y ∧ y < 10 ^ (l + 1) ∧ IsRne (y * 10 ^ (p - 1) / 10 ^ l) d ∧
    ((d = 10 ^ p ∧ D = 10 ^ (p - 1) ∧ L = l + 1) ∨ (d < 10 ^ p ∧ D = d ∧ L = l))

/-- The number described by digits `D` with leading position `L`. -/
def decVal (p D L : ℕ) : ℚ := D * 10 ^ L / 10 ^ (p - 1)

theorem IsSig.out {p : ℕ} (hp : 1 ≤ p) {y : ℚ} {D L : ℕ} (h : IsSig p y D L) :
    ∃ l d : ℕ, (10 : ℚ) ^ l ≤ y ∧ y < 10 ^ (l + 1) ∧ IsRne (y * 10 ^ (p - 1) / 10 ^ l) d ∧
      10 ^ (p - 1) ≤ d ∧ d ≤ 10 ^ p ∧ decVal p D L = d * 10 ^ l / 10 ^ (p - 1) ∧
      10 ^ (p - 1) ≤ D ∧ D < 10 ^ p ∧ l ≤ L ∧ L ≤ l + 1 := by
  obtain ⟨l, d, h1, h2, h3, h4⟩ := h
  have hl : (0 : ℚ) < 10 ^ l := by positivity
  have hq : (0 : ℚ) < 10 ^ (p - 1) := by positivity
  have hpp : (10 : ℕ) ^ p = 10 * 10 ^ (p - 1) := by
    rw [← pow_succ']; congr 1; omega
  have b1 : 10 ^ (p - 1) ≤ d := by
    refine (isRne_nat (10 ^ (p - 1))).mono h3 ?_
    rw [le_div_iff₀ hl]; push_cast; nlinarith
  have b2 : d ≤ 10 ^ p := by
    refine h3.mono (isRne_nat (10 ^ p)) ?_
    rw [div_le_iff₀ hl, hpp]; push_cast
    rw [pow_succ] at h2; nlinarith
  refine ⟨l, d, h1, h2, h3, b1, b2, ?_, ?_⟩
  · rcases h4 with ⟨e1, e2, e3⟩ | ⟨e1, e2, e3⟩
    · subst e1 e2 e3
      unfold decVal
      rw [hpp]; push_cast
      field_simp
      ring
    · subst e2 e3; rfl
  · have : 0 < 10 ^ (p - 1) := by positivity
    rcases h4 with ⟨e1, e2, e3⟩ | ⟨e1, e2, e3⟩ <;> refine ⟨?_, ?_, ?_, ?_⟩ <;> omega

theorem isSig_sigDigitsOf {p v A B : ℕ} (hp : 1 ≤ p) (hB : 0 < B) (hge : 1 ≤ v * A / B) :
    IsSig p ((v : ℚ) * A / B) (sigDigitsOf A B p v).1 (sigDigitsOf A B p v).2 := by
  obtain ⟨e1, e2⟩ := log10_spec hge
  set l := log10 (v * A / B) with hl
  have hr := isRne_rne (v * (A * 10 ^ (p - 1))) (b := B * 10 ^ l) (by positivity)
  set d := rne (v * (A * 10 ^ (p - 1))) (B * 10 ^ l) with hd
  have hs : sigDigitsOf A B p v = if d = 10 ^ p then (10 ^ (p - 1), l + 1) else (d, l) := rfl
  rw [hs]
  have h2 : (0 : ℚ) < B := by exact_mod_cast hB
  have a1 : (10 : ℚ) ^ l ≤ v * A / B := by
    rw [le_div_iff₀ h2]
    have := le_trans (Nat.mul_le_mul_right B e1) (Nat.div_mul_le_self _ _)
    exact_mod_cast this
  have a2 : (v : ℚ) * A / B < 10 ^ (l + 1) := by
    rw [div_lt_iff₀ h2]
    have h3 : v * A < B * (v * A / B + 1) := Nat.lt_mul_div_succ _ hB
    have : v * A < 10 ^ (l + 1) * B := by
      refine lt_of_lt_of_le h3 ?_
      rw [Nat.mul_comm]
      exact Nat.mul_le_mul_right _ e2
    exact_mod_cast this
  have a3 : IsRne ((v : ℚ) * A / B * 10 ^ (p - 1) / 10 ^ l) d := by
    convert hr using 1
    push_cast
    field_simp
  have hle : d ≤ 10 ^ p := by
    refine a3.mono (isRne_nat (10 ^ p)) ?_
    have hpp : (10 : ℕ) ^ p = 10 * 10 ^ (p - 1) := by rw [← pow_succ']; congr 1; omega
    rw [div_le_iff₀ (by positivity), hpp]; push_cast
    rw [pow_succ] at a2
    have hq : (0 : ℚ) < 10 ^ (p - 1) := by positivity
    nlinarith
  refine ⟨⟨l, d, a1, a2, a3, ?_⟩⟩
  by_cases h : d = 10 ^ p
  · left; simp [h]
  · right; simp only [h, if_false, and_true]; omega

/-- A double in units of `10^-324`. -/
def scaledOf (A B v : ℕ) : ℚ := (v : ℚ) * A / B

/-- A double in units of `10^-324`. -/
def scaled (v : ℕ) : ℚ := scaledOf (10 ^ 324) (2 ^ 1074) v

theorem two_le_ten : 2 ^ 1074 ≤ 10 ^ 324 := by decide +kernel

theorem isSig_of {p v A B : ℕ} (hp : 1 ≤ p) (hB : 0 < B) (hv : 0 < v) (hAB : B ≤ A) :
    IsSig p (scaledOf A B v) (sigDigitsOf A B p v).1 (sigDigitsOf A B p v).2 := by
  refine isSig_sigDigitsOf hp hB ?_
  rw [Nat.one_le_div_iff hB]
  exact le_trans hAB (Nat.le_mul_of_pos_left _ hv)

theorem isSig_sigDigits {p : ℕ} (hp : 1 ≤ p) {v : ℕ} (hv : 0 < v) :
    IsSig p (scaled v) (sigDigits p v).1 (sigDigits p v).2 :=
  isSig_of hp (Nat.two_pow_pos 1074) hv two_le_ten

/-! ## Scanning -/

/-- What may follow a number. -/
def Stop (rest : Bytes) : Prop := rest = [] ∨ WsHead rest

theorem Stop.head {rest : Bytes} (h : Stop rest) : ∀ c r, rest = c :: r →
    isDigit c = false ∧ c ≠ 46 ∧ c ≠ 101 ∧ c ≠ 69 := by
  intro c r e
  rcases h with h | ⟨c', r', e', hc⟩
  · rw [h] at e; cases e
  · rw [e'] at e; cases e
    refine ⟨isDigit_of_isSpace hc, ?_, ?_, ?_⟩ <;> (rintro rfl; revert hc; decide)

theorem scanFrac_text {fp rest : Bytes} (hf : ∀ c ∈ fp, isDigit c = true)
    (hr : ∀ c r, rest = c :: r → isDigit c = false ∧ c ≠ 46) :
    scanFrac (fracText fp ++ rest) = (fp, rest) := by
  unfold fracText
  cases fp with
  | nil =>
    simp only [List.isEmpty_nil, if_true, List.nil_append]
    cases rest with
    | nil => rfl
    | cons c r =>
      have := (hr c r rfl).2
      unfold scanFrac
      split
      · rename_i h; cases h; exact absurd rfl this
      · rfl
  | cons a fp =>
    obtain ⟨t1, t2⟩ := takeWhile_digits hf fun c r e => (hr c r e).1
    show ((a :: fp ++ rest).takeWhile isDigit, (a :: fp ++ rest).dropWhile isDigit) = _
    rw [t1, t2]

theorem scanSign_text (neg : Bool) {c : UInt8} (hc : isDigit c = true) (r : Bytes) :
    scanSign ((if neg then [45] else []) ++ c :: r) = (neg, c :: r) := by
  cases neg with
  | true => rfl
  | false => exact scanSign_digit hc

theorem not_digit_frac {fp rest : Bytes} (hr : ∀ c r, rest = c :: r → isDigit c = false) :
    ∀ c r, fracText fp ++ rest = c :: r → isDigit c = false := by
  intro c r e
  unfold fracText at e
  cases fp with
  | nil => exact hr c r e
  | cons a fp =>
    simp at e
    rw [← e.1]; decide

theorem scanFloat_fixed (neg : Bool) {ip fp rest : Bytes} (h0 : ip ≠ []) (hi : ∀ c ∈ ip, isDigit c = true)
    (hf : ∀ c ∈ fp, isDigit c = true) (hr : Stop rest) :
    scanFloat ((if neg then [45] else []) ++ (ip ++ (fracText fp ++ rest))) =
      { neg, ip, fp, sci := false, eneg := false, ed := [], rest } := by
  obtain ⟨t1, t2⟩ := takeWhile_digits hi (not_digit_frac (fp := fp) fun c r e => (hr.head c r e).1)
  have t3 := scanFrac_text hf fun c r e => ⟨(hr.head c r e).1, (hr.head c r e).2.1⟩
  obtain ⟨c, ip', rfl⟩ := List.exists_cons_of_ne_nil h0
  unfold scanFloat
  rw [List.cons_append, scanSign_text neg (hi c (by simp))]
  rw [List.cons_append] at t1 t2
  simp only [t1, t2, t3]
  cases rest with
  | nil => rfl
  | cons a r =>
    obtain ⟨_, _, h3, h4⟩ := hr.head a r rfl
    simp [h3, h4]

theorem scanFloat_sci (neg : Bool) {ip fp ed rest : Bytes} (eneg : Bool) (h0 : ip ≠ [])
    (hi : ∀ c ∈ ip, isDigit c = true) (hf : ∀ c ∈ fp, isDigit c = true)
    (he : ∀ c ∈ ed, isDigit c = true) (hr : Stop rest) :
    scanFloat ((if neg then [45] else []) ++ (ip ++ (fracText fp ++
      (101 :: (if eneg then 45 else 43) :: (ed ++ rest))))) =
      { neg, ip, fp, sci := true, eneg, ed, rest } := by
  have hE : ∀ c r, (101 :: (if eneg then (45 : UInt8) else 43) :: (ed ++ rest)) = c :: r →
      isDigit c = false ∧ c ≠ 46 := by
    intro c r e; cases e; decide
  obtain ⟨t1, t2⟩ := takeWhile_digits hi (not_digit_frac (fp := fp) fun c r e => (hE c r e).1)
  have t3 := scanFrac_text hf hE
  obtain ⟨t4, t5⟩ := takeWhile_digits he fun c r e => (hr.head c r e).1
  obtain ⟨c, ip', rfl⟩ := List.exists_cons_of_ne_nil h0
  unfold scanFloat
  rw [List.cons_append, scanSign_text neg (hi c (by simp))]
  rw [List.cons_append] at t1 t2
  simp only [t1, t2, t3]
  have : scanSign ((if eneg then (45 : UInt8) else 43) :: (ed ++ rest)) = (eneg, ed ++ rest) := by
    cases eneg <;> rfl
  simp [this, t4, t5]

/-! ## Values of scanned numbers -/

theorem isMag_magOfDec (m : ℕ) (e : ℤ) : IsMag ((m : ℚ) * 10 ^ e * 2 ^ 1074) (magOfDec m e) := by
  unfold magOfDec
  by_cases h : 0 ≤ e
  · rw [if_pos h]
    have := isMag_magOfRat (m * 10 ^ e.toNat) (den := 1) (by norm_num)
    convert this using 2
    obtain ⟨n, rfl⟩ := Int.eq_ofNat_of_zero_le h
    push_cast
    simp
  · rw [if_neg h]
    have := isMag_magOfRat m (den := 10 ^ (-e).toNat) (by positivity)
    convert this using 2
    obtain ⟨n, hn⟩ := Int.eq_ofNat_of_zero_le (show 0 ≤ -e by omega)
    have : e = -(n : ℤ) := by omega
    subst this
    push_cast
    simp [zpow_neg, div_eq_mul_inv]

theorem natOfDigits_replicate (k : ℕ) : natOfDigits (List.replicate k 48) = 0 := by
  induction k with
  | zero => rfl
  | succ k ih =>
    rw [List.replicate_succ, ← List.singleton_append, natOfDigits_append, ih,
      show natOfDigits [48] = 0 from rfl]
    omega

theorem stripZeros_append (ds : Bytes) : ∃ z, ds = stripZeros ds ++ List.replicate z 48 := by
  unfold stripZeros
  refine ⟨(ds.reverse.takeWhile (· == 48)).length, ?_⟩
  have h1 : ds.reverse.takeWhile (· == 48) = List.replicate (ds.reverse.takeWhile (· == 48)).length 48 := by
    rw [List.eq_replicate_iff]
    refine ⟨rfl, fun b hb => ?_⟩
    have := List.all_eq_true.mp (List.all_takeWhile (p := (· == 48)) (l := ds.reverse)) b hb
    simpa using this
  have h2 := List.takeWhile_append_dropWhile (p := (· == 48)) (l := ds.reverse)
  have h3 := congrArg List.reverse h2
  rw [List.reverse_append, List.reverse_reverse] at h3
  conv => lhs; rw [← h3]
  rw [h1, List.reverse_replicate, List.length_replicate]

theorem stripZeros_digits {ds : Bytes} (h : ∀ c ∈ ds, isDigit c = true) :
    ∀ c ∈ stripZeros ds, isDigit c = true := by
  intro c hc
  obtain ⟨z, e⟩ := stripZeros_append ds
  exact h c (by rw [e]; exact List.mem_append_left _ hc)

theorem strip_value (a b : Bytes) :
    (natOfDigits (a ++ stripZeros b) : ℚ) * 10 ^ (-((stripZeros b).length : ℤ)) =
      natOfDigits (a ++ b) * 10 ^ (-(b.length : ℤ)) := by
  obtain ⟨z, e⟩ := stripZeros_append b
  have e1 : natOfDigits (a ++ b) = natOfDigits (a ++ stripZeros b) * 10 ^ z := by
    conv => lhs; rw [e, ← List.append_assoc, natOfDigits_append, natOfDigits_replicate,
      List.length_replicate, Nat.add_zero]
  have e2 : b.length = (stripZeros b).length + z := by
    conv => lhs; rw [e, List.length_append, List.length_replicate]
  rw [e1, e2]
  push_cast
  rw [neg_add, zpow_add₀ (by norm_num), zpow_neg _ (z : ℤ), zpow_natCast]
  field_simp

theorem natOfDigits_zero_cons (ds : Bytes) : natOfDigits (48 :: ds) = natOfDigits ds := by
  rw [← List.singleton_append, natOfDigits_append]
  show 0 * _ + _ = _
  omega

theorem ten_congr {a b : ℤ} (h : a = b) {D : ℚ} : D * 10 ^ a = D * 10 ^ b := by rw [h]

/-- The printed text of a positive number: after scanning, the literal stands for `decVal / 10^324`. -/
theorem scan_fmtUnits (P : ℕ) (neg : Bool) {v : ℕ} (hv : 0 < v) {rest : Bytes} (hr : Stop rest) :
    ∃ f : FloatScan, scanFloat ((if neg then [45] else []) ++ (fmtUnits P v ++ rest)) = f ∧ f.neg = neg ∧
      f.rest = rest ∧ ((f.ip.isEmpty && f.fp.isEmpty) || (f.sci && f.ed.isEmpty)) = false ∧
      (natOfDigits (f.ip ++ f.fp) : ℚ) * 10 ^ f.exp10 =
        decVal (max P 1) (sigDigits (max P 1) v).1 (sigDigits (max P 1) v).2 / 10 ^ 324 ∧
      ∃ c t, fmtUnits P v = c :: t ∧ isDigit c = true := by
  have hp : 1 ≤ max P 1 := by omega
  obtain ⟨_, _, _, _, _, _, _, _, hD1, hD2, _, _⟩ := (isSig_sigDigits hp hv).out hp
  unfold fmtUnits
  rw [if_neg (show ¬ v = 0 by omega)]
  generalize hs : sigDigits (max P 1) v = s at *
  obtain ⟨D, L⟩ := s
  simp only at hD1 hD2 ⊢
  generalize hpe : max P 1 = p at *
  obtain ⟨p, rfl⟩ : ∃ p', p = p' + 1 := ⟨p - 1, by omega⟩
  simp only [Nat.add_sub_cancel] at hD1
  have hlen := decNat_length D p hD1 hD2
  have hdig := decNat_digits D
  have hN := natOfDigits_decNat D
  generalize decNat D = ds at *
  have hval : decVal (p + 1) D L / 10 ^ 324 = (D : ℚ) * 10 ^ ((L : ℤ) - 324 - p) := by
    unfold decVal
    rw [zpow_sub₀ (by norm_num), zpow_sub₀ (by norm_num), zpow_natCast, zpow_natCast, Nat.add_sub_cancel]
    rw [show ((324 : ℤ)) = ((324 : ℕ) : ℤ) from rfl, zpow_natCast]
    generalize (10 : ℚ) ^ 324 = A
    rw [div_div, div_div, mul_div_assoc, mul_comm A]
  rw [hval]
  clear hval
  generalize (L : ℤ) - 324 = X
  have hsplit : ∀ k, natOfDigits (ds.take k ++ ds.drop k) = D := by
    intro k; rw [List.take_append_drop]; exact hN
  have hcons : ∃ c t, ds = c :: t := by
    cases ds with
    | nil => simp at hlen
    | cons c t => exact ⟨c, t, rfl⟩
  obtain ⟨c, t, hct⟩ := hcons
  have hcd : isDigit c = true := hdig c (by rw [hct]; simp)
  have ten : (10 : ℚ) ≠ 0 := by norm_num
  by_cases hx : -4 ≤ X ∧ X < ((p + 1 : ℕ) : ℤ)
  · rw [if_pos hx]
    by_cases hx0 : 0 ≤ X
    · rw [if_pos hx0]
      obtain ⟨x, hxe⟩ := Int.eq_ofNat_of_zero_le hx0
      rw [hxe, Int.toNat_natCast]
      rw [hxe] at hx
      have hxl : x < p + 1 := by have := hx.2; exact_mod_cast this
      refine ⟨{ neg := neg, ip := ds.take (x + 1), fp := stripZeros (ds.drop (x + 1)), sci := false,
                eneg := false, ed := [], rest := rest }, ?_, rfl, rfl, ?_, ?_, ?_⟩
      · rw [List.append_assoc]
        refine scanFloat_fixed neg ?_ (fun c hc => hdig c (List.mem_of_mem_take hc))
          (stripZeros_digits fun c hc => hdig c (List.mem_of_mem_drop hc)) hr
        rw [hct]; simp
      · rw [hct]; simp
      · simp only [FloatScan.exp10, natOfDigits, List.foldl_nil, Bool.false_eq_true, if_false]
        rw [Nat.cast_zero, zero_sub]
        have := strip_value (ds.take (x + 1)) (ds.drop (x + 1))
        unfold natOfDigits at this hsplit
        rw [this, hsplit, List.length_drop, hlen]
        exact ten_congr (by omega)
      · rw [hct]; exact ⟨c, _, rfl, hcd⟩
    · rw [if_neg hx0]
      have hk : ∃ k : ℕ, (-X).toNat - 1 = k ∧ X = -(k : ℤ) - 1 := by
        refine ⟨_, rfl, ?_⟩
        omega
      obtain ⟨k, hk1, hk2⟩ := hk
      rw [hk1, hk2]
      have hall : ∀ c ∈ List.replicate k 48 ++ ds, isDigit c = true := by
        intro c hc
        rcases List.mem_append.mp hc with h | h
        · rw [List.eq_of_mem_replicate h]; decide
        · exact hdig c h
      refine ⟨{ neg := neg, ip := [48], fp := stripZeros (List.replicate k 48 ++ ds), sci := false,
                eneg := false, ed := [], rest := rest }, ?_, rfl, rfl, rfl, ?_, ?_⟩
      · exact scanFloat_fixed neg (ip := [48]) (by simp) (by decide) (stripZeros_digits hall) hr
      · simp only [FloatScan.exp10, Bool.false_eq_true, if_false]
        rw [show (natOfDigits [] : ℤ) = 0 from rfl, zero_sub, strip_value, List.singleton_append,
          natOfDigits_zero_cons, natOfDigits_append, natOfDigits_replicate, hN, List.length_append,
          List.length_replicate, hlen]
        simp only [Nat.zero_mul, Nat.zero_add]
        exact ten_congr (by push_cast; ring)
      · exact ⟨48, _, rfl, by decide⟩
  · rw [if_neg hx]
    have hed : ∀ n : ℕ, (∀ c ∈ (if n < 10 then 48 :: decNat n else decNat n), isDigit c = true) ∧
        natOfDigits (if n < 10 then 48 :: decNat n else decNat n) = n ∧
        (if n < 10 then 48 :: decNat n else decNat n).isEmpty = false := by
      intro n
      split
      · refine ⟨?_, by rw [natOfDigits_zero_cons, natOfDigits_decNat], rfl⟩
        intro c hc
        rcases List.mem_cons.mp hc with h | h
        · rw [h]; decide
        · exact decNat_digits n c h
      · refine ⟨decNat_digits n, natOfDigits_decNat n, ?_⟩
        have := decNat_ne_nil n
        cases hh : decNat n with
        | nil => exact absurd hh this
        | cons a b => rfl
    obtain ⟨he1, he2, he3⟩ := hed X.natAbs
    unfold expText
    generalize (if X.natAbs < 10 then 48 :: decNat X.natAbs else decNat X.natAbs) = ed at *
    have hsg : (if X < 0 then (45 : UInt8) else 43) = if decide (X < 0) then 45 else 43 := by
      simp
    rw [hsg]
    refine ⟨{ neg := neg, ip := ds.take 1, fp := stripZeros (ds.drop 1), sci := true,
              eneg := decide (X < 0), ed := ed, rest := rest }, ?_, rfl, rfl, ?_, ?_, ?_⟩
    · rw [List.append_assoc, List.append_assoc]
      refine scanFloat_sci neg (decide (X < 0)) ?_ (fun c hc => hdig c (List.mem_of_mem_take hc))
        (stripZeros_digits fun c hc => hdig c (List.mem_of_mem_drop hc)) he1 hr
      rw [hct]; simp
    · rw [hct, he3]; simp
    · simp only [FloatScan.exp10, he2]
      have e1 : (if decide (X < 0) = true then -((X.natAbs : ℕ) : ℤ)
          else ((X.natAbs : ℕ) : ℤ)) = X := by
        split
        · rename_i h; simp at h; omega
        · rename_i h; simp at h; omega
      rw [e1, sub_eq_add_neg, zpow_add₀ ten, mul_comm ((10 : ℚ) ^ X), ← mul_assoc, strip_value,
        hsplit, List.length_drop, hlen, mul_assoc, ← zpow_add₀ ten]
      exact ten_congr (by simp only [Nat.add_sub_cancel]; ring)
    · rw [hct]; exact ⟨c, _, rfl, hcd⟩

end MshIO
