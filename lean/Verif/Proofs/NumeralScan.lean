import Verif.Spec.Numeral
import Verif.Proofs.DblText

/-!
# Scanning a numeral
-/

namespace MshIO

/-! ## Digits -/

theorem digitsText_append (a b : List (Fin 10)) : digitsText (a ++ b) = digitsText a ++ digitsText b :=
  List.map_append

theorem digitsText_length (l : List (Fin 10)) : (digitsText l).length = l.length := List.length_map _

theorem digitsText_isEmpty (l : List (Fin 10)) : (digitsText l).isEmpty = l.isEmpty := by cases l <;> rfl

theorem natOfDigits_digitsText (l : List (Fin 10)) : natOfDigits (digitsText l) = digitsValue l := by
  unfold natOfDigits digitsText digitsValue
  rw [List.foldl_map]
  congr 1
  funext a d
  rw [digit_toNat d.isLt]
  omega

theorem digitsValue_append (a b : List (Fin 10)) :
    digitsValue (a ++ b) = digitsValue a * 10 ^ b.length + digitsValue b := by
  rw [← natOfDigits_digitsText, digitsText_append, natOfDigits_append, natOfDigits_digitsText,
    natOfDigits_digitsText, digitsText_length]

/-! ## Scanning -/

/-- The bytes of the fraction part. -/
def Numeral.fracText (n : Numeral) : Bytes := match n.frac with | none => [] | some f => b! "." ++ digitsText f
/-- The bytes of the exponent part. -/
def Numeral.expText (n : Numeral) : Bytes := match n.exp with | none => [] | some e => e.text

theorem Numeral.text_eq (n : Numeral) : n.text = signText n.sign ++ (digitsText n.int ++ (n.fracText ++ n.expText)) := by
  unfold Numeral.text Numeral.fracText Numeral.expText
  rw [List.append_assoc, List.append_assoc]
  rfl

/-- What scanning a numeral gives. -/
def Numeral.scan (n : Numeral) (rest : Bytes) : FloatScan :=
  { neg := n.sign == some true, ip := digitsText n.int, fp := digitsText n.fracDigits, sci := n.exp.isSome,
    eneg := match n.exp with | none => false | some e => e.sign == some true,
    ed := match n.exp with | none => [] | some e => digitsText e.digits, rest }

theorem scanSign_sign (s : Option Bool) {c : UInt8} (h1 : c ≠ 45) (h2 : c ≠ 43) (r : Bytes) :
    scanSign (signText s ++ c :: r) = (s == some true, c :: r) := by
  match s with
  | some true => rfl
  | some false => rfl
  | none =>
    show scanSign (c :: r) = (false, c :: r)
    unfold scanSign
    split
    · rename_i h; injection h with h _; exact absurd h h1
    · rename_i h; injection h with h _; exact absurd h h2
    · rfl

theorem digit_not_sign {c : UInt8} (h : isDigit c = true) : c ≠ 45 ∧ c ≠ 43 := by
  constructor <;> rintro rfl <;> revert h <;> decide

theorem expText_head (n : Numeral) {rest : Bytes} (hr : Stop rest) :
    ∀ c r, n.expText ++ rest = c :: r → isDigit c = false ∧ c ≠ 46 := by
  intro c r e
  unfold Numeral.expText at e
  split at e
  · rw [List.nil_append] at e
    obtain ⟨h1, h2, _⟩ := hr.head c r e
    exact ⟨h1, h2⟩
  · rename_i x _
    unfold Exponent.text at e
    split at e <;> (simp only [List.cons_append, List.nil_append, List.append_assoc] at e; cases e; decide)

theorem scanFloat_numeral (n : Numeral) (h : n.Proper) {rest : Bytes} (hr : Stop rest) :
    scanFloat (n.text ++ rest) = n.scan rest := by
  have hE := expText_head n hr
  -- fraction
  have hF : scanFrac (n.fracText ++ (n.expText ++ rest)) = (digitsText n.fracDigits, n.expText ++ rest) := by
    unfold Numeral.fracText Numeral.fracDigits
    cases n.frac with
    | none =>
      show scanFrac (n.expText ++ rest) = ([], n.expText ++ rest)
      generalize hb : n.expText ++ rest = b at hE
      unfold scanFrac
      split
      · exact absurd rfl (hE _ _ rfl).2
      · rfl
    | some f =>
      show scanFrac (46 :: (digitsText f ++ (n.expText ++ rest))) = _
      obtain ⟨t1, t2⟩ := takeWhile_digits (digitsText_digits f) fun c r e => (hE c r e).1
      show ((digitsText f ++ (n.expText ++ rest)).takeWhile isDigit, (digitsText f ++ (n.expText ++ rest)).dropWhile isDigit) = _
      rw [t1, t2]
      rfl
  have hF0 : ∀ c r, n.fracText ++ (n.expText ++ rest) = c :: r → isDigit c = false := by
    intro c r e
    unfold Numeral.fracText at e
    split at e
    · exact (hE c r e).1
    · cases e; decide
  obtain ⟨t1, t2⟩ := takeWhile_digits (digitsText_digits n.int) hF0
  -- sign
  have hS : scanSign (n.text ++ rest) = (n.sign == some true, digitsText n.int ++ (n.fracText ++ (n.expText ++ rest))) := by
    rw [n.text_eq, List.append_assoc, List.append_assoc, List.append_assoc]
    cases hi : n.int with
    | cons d t =>
      obtain ⟨h1, h2⟩ := digit_not_sign (isDigit_ofNat d.isLt)
      exact scanSign_sign n.sign h1 h2 _
    | nil =>
      have hf := h.1.resolve_left (by rw [hi]; simp)
      unfold Numeral.fracDigits at hf
      unfold Numeral.fracText
      cases hn : n.frac with
      | none => rw [hn] at hf; exact absurd rfl hf
      | some f => exact scanSign_sign n.sign (by decide) (by decide) _
  unfold scanFloat
  rw [hS]
  simp only [t1, t2, hF]
  unfold Numeral.scan
  cases he : n.exp with
  | none =>
    have : n.expText = [] := by unfold Numeral.expText; rw [he]
    rw [this, List.nil_append]
    cases rest with
    | nil => rfl
    | cons c r =>
      obtain ⟨_, _, h3, h4⟩ := hr.head c r rfl
      simp [h3, h4]
  | some x =>
    have hx : n.expText = (if x.upper then b! "E" else b! "e") ++ signText x.sign ++ digitsText x.digits := by
      unfold Numeral.expText; rw [he]; rfl
    have hd : x.digits ≠ [] := h.2 x (by rw [he]; rfl)
    have hs : scanSign (signText x.sign ++ (digitsText x.digits ++ rest)) =
        (x.sign == some true, digitsText x.digits ++ rest) := by
      obtain ⟨d, t, e⟩ := List.exists_cons_of_ne_nil hd
      rw [e]
      obtain ⟨h1, h2⟩ := digit_not_sign (isDigit_ofNat d.isLt)
      exact scanSign_sign x.sign h1 h2 _
    obtain ⟨t3, t4⟩ := takeWhile_digits (digitsText_digits x.digits) fun c r e => (hr.head c r e).1
    have hne : ((digitsText n.int).isEmpty && (digitsText n.fracDigits).isEmpty) = false := by
      rw [digitsText_isEmpty, digitsText_isEmpty]
      have := h.1
      cases hi : n.int <;> cases hf : n.fracDigits <;> simp_all
    rw [hx]
    cases x.upper <;>
      simp [hne, hs, t3, t4]

/-! ## The value -/

theorem Numeral.scan_value (n : Numeral) (rest : Bytes) :
    (natOfDigits ((n.scan rest).ip ++ (n.scan rest).fp) : ℚ) * 10 ^ (n.scan rest).exp10 = n.size := by
  have ten : (10 : ℚ) ≠ 0 := by norm_num
  have hexp : (n.scan rest).exp10 = n.power - n.fracDigits.length := by
    unfold FloatScan.exp10 Numeral.scan Numeral.power
    cases n.exp with
    | none => simp [natOfDigits, digitsText_length]
    | some e =>
      obtain ⟨u, s, ds⟩ := e
      match s with
      | none => simp [natOfDigits_digitsText, digitsText_length, signValue]
      | some true => simp [natOfDigits_digitsText, digitsText_length, signValue]
      | some false => simp [natOfDigits_digitsText, digitsText_length, signValue]
  rw [hexp, zpow_sub₀ ten, zpow_natCast]
  show (natOfDigits (digitsText n.int ++ digitsText n.fracDigits) : ℚ) * _ = _
  rw [← digitsText_append, natOfDigits_digitsText, digitsValue_append]
  unfold Numeral.size
  push_cast
  field_simp

theorem Numeral.size_nonneg (n : Numeral) : 0 ≤ n.size := by
  unfold Numeral.size
  exact mul_nonneg (by positivity) (zpow_nonneg (by norm_num) _)

theorem Numeral.abs_value (n : Numeral) : |n.value| = n.size := by
  unfold Numeral.value
  rw [abs_mul, abs_of_nonneg n.size_nonneg]
  have : |((signValue n.sign : ℤ) : ℚ)| = 1 := by
    match n.sign with
    | none => simp [signValue]
    | some true => simp [signValue]
    | some false => simp [signValue]
  rw [this, one_mul]

/-- Converting a scanned numeral. -/
theorem convert_numeral (n : Numeral) (h : n.Proper) (rest : Bytes) :
    ∃ m, IsMag (n.size * 2 ^ 1074) m ∧ convertFloat (n.scan rest) =
      if Double.infMag ≤ m then (Double.ofSignMag (n.sign == some true) (Double.infMag - 1), true)
      else (Double.ofSignMag (n.sign == some true) m, false) := by
  refine ⟨magOfDec (natOfDigits ((n.scan rest).ip ++ (n.scan rest).fp)) (n.scan rest).exp10, ?_, ?_⟩
  rotate_left
  · unfold convertFloat
    rw [if_neg]
    · rfl
    · show ¬ (((digitsText n.int).isEmpty && (digitsText n.fracDigits).isEmpty) || _) = true
      rw [digitsText_isEmpty, digitsText_isEmpty]
      obtain ⟨h1, h2⟩ := h
      unfold Numeral.scan
      have a : (n.int.isEmpty && n.fracDigits.isEmpty) = false := by
        cases hi : n.int <;> cases hf : n.fracDigits <;> simp_all
      rw [a]
      cases he : n.exp with
      | none => simp
      | some e =>
        have := h2 e (by rw [he]; rfl)
        simp [digitsText_isEmpty, this]
  · have := isMag_magOfDec (natOfDigits ((n.scan rest).ip ++ (n.scan rest).fp)) (n.scan rest).exp10
    rw [n.scan_value rest] at this
    exact this

/-- Reading a run of digits with a sign. -/
theorem read_digits (s : Option Bool) (l : List (Fin 10)) (hl : l ≠ []) {rest : Bytes}
    (hr : ∀ c ∈ rest.head?, isDigit c = false) :
    scanInt (signText s ++ digitsText l ++ rest) = (s == some true, digitsText l, rest) ∧
    ∃ c t, signText s ++ digitsText l ++ rest = c :: t ∧ isSpace c = false := by
  obtain ⟨d, t, rfl⟩ := List.exists_cons_of_ne_nil hl
  have hd := digitsText_digits (d :: t)
  obtain ⟨t1, t2⟩ := takeWhile_digits (ds := digitsText (d :: t)) (rest := rest) hd
    (fun c r e => hr c (by rw [e]; rfl))
  have hc : isDigit (UInt8.ofNat (48 + d.val)) = true := hd _ (by simp [digitsText])
  constructor
  · unfold scanInt
    rw [List.append_assoc]
    have : scanSign (signText s ++ (digitsText (d :: t) ++ rest)) = (s == some true, digitsText (d :: t) ++ rest) :=
      scanSign_sign s (digit_not_sign hc).1 (digit_not_sign hc).2 _
    rw [this]
    simp only [t1, t2]
  · match s with
    | none =>
      refine ⟨_, _, rfl, ?_⟩
      have := (isDigit_iff _).mp hc
      cases hh : isSpace (UInt8.ofNat (48 + d.val)) with
      | false => rfl
      | true =>
        exfalso
        unfold isSpace at hh
        simp only [Bool.or_eq_true, beq_iff_eq, Bool.and_eq_true, decide_eq_true_eq] at hh
        rcases hh with hh | ⟨_, hh⟩
        · rw [hh] at this; revert this; decide
        · have h13 := UInt8.le_iff_toNat_le.mp hh
          have : (13 : UInt8).toNat = 13 := rfl
          omega
    | some true => exact ⟨_, _, rfl, rfl⟩
    | some false => exact ⟨_, _, rfl, rfl⟩

end MshIO
