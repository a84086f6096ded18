import Verif.Model.Num
import Mathlib.Tactic.Ring
import Mathlib.Tactic.Linarith
import Mathlib.Tactic.IntervalCases

/-!
# Lemmas about integer representations
-/

namespace MshIO

/-! ## Decimal digits -/

theorem digit_toNat {n : Nat} (h : n < 10) : (UInt8.ofNat (48 + n)).toNat = 48 + n := by
  rw [UInt8.toNat_ofNat']; omega

theorem isDigit_iff (c : UInt8) : isDigit c = true ↔ 48 ≤ c.toNat ∧ c.toNat ≤ 57 := by
  unfold isDigit
  simp [UInt8.le_iff_toNat_le]

theorem isSpace_iff (c : UInt8) :
    isSpace c = true ↔ c.toNat = 32 ∨ (9 ≤ c.toNat ∧ c.toNat ≤ 13) := by
  unfold isSpace
  simp [UInt8.le_iff_toNat_le, ← UInt8.toNat_inj]

theorem isDigit_ofNat {n : Nat} (h : n < 10) : isDigit (UInt8.ofNat (48 + n)) = true := by
  rw [isDigit_iff, digit_toNat h]; omega

theorem isSpace_of_isDigit {c : UInt8} (h : isDigit c = true) : isSpace c = false := by
  rw [isDigit_iff] at h
  rw [← Bool.not_eq_true, isSpace_iff]; omega

theorem isDigit_of_isSpace {c : UInt8} (h : isSpace c = true) : isDigit c = false := by
  rw [isSpace_iff] at h
  rw [← Bool.not_eq_true, isDigit_iff]; omega

theorem decAux_digits (f n : Nat) : ∀ c ∈ decAux f n, isDigit c = true := by
  induction f generalizing n with
  | zero => intro c hc; simp [decAux] at hc
  | succ f ih =>
    intro c hc
    unfold decAux at hc
    split at hc
    · rw [List.mem_singleton] at hc; subst hc; exact isDigit_ofNat (by assumption)
    · simp only [List.mem_append, List.mem_singleton] at hc
      rcases hc with hc | hc
      · exact ih _ _ hc
      · subst hc; exact isDigit_ofNat (by omega)

theorem decNat_digits (n : Nat) : ∀ c ∈ decNat n, isDigit c = true := decAux_digits _ _

theorem natOfDigits_append (a b : Bytes) :
    natOfDigits (a ++ b) = natOfDigits a * 10 ^ b.length + natOfDigits b := by
  unfold natOfDigits
  rw [List.foldl_append]
  generalize List.foldl (fun a (c : UInt8) => a * 10 + (c.toNat - 48)) 0 a = x
  suffices H : ∀ (b : Bytes) (x y : Nat), List.foldl (fun a (c : UInt8) => a * 10 + (c.toNat - 48))
      (x * 10 ^ 0 + y) b = x * 10 ^ b.length + List.foldl (fun a (c : UInt8) => a * 10 + (c.toNat - 48)) y b by
    have := H b x 0
    simpa using this
  intro b
  induction b with
  | nil => intro x y; simp
  | cons c cs ih =>
    intro x y
    simp only [List.foldl_cons, List.length_cons]
    have := ih (x * 10) (y * 10 + (c.toNat - 48))
    have e : (x * 10 ^ 0 + y) * 10 + (c.toNat - 48) = x * 10 * 10 ^ 0 + (y * 10 + (c.toNat - 48)) := by ring
    rw [e, this]; ring

theorem natOfDigits_singleton {n : Nat} (h : n < 10) : natOfDigits [UInt8.ofNat (48 + n)] = n := by
  simp only [natOfDigits, List.foldl_cons, List.foldl_nil, digit_toNat h]; omega

theorem natOfDigits_decAux (f n : Nat) (h : n < f) : natOfDigits (decAux f n) = n := by
  induction f generalizing n with
  | zero => omega
  | succ f ih =>
    unfold decAux
    split
    · exact natOfDigits_singleton (by assumption)
    · rw [natOfDigits_append, ih _ (by omega), natOfDigits_singleton (by omega)]
      simp; omega

theorem natOfDigits_decNat (n : Nat) : natOfDigits (decNat n) = n :=
  natOfDigits_decAux _ _ (by omega)

theorem decAux_ne_nil (f n : Nat) : decAux (f + 1) n ≠ [] := by
  unfold decAux; split <;> simp

theorem decNat_ne_nil (n : Nat) : decNat n ≠ [] := decAux_ne_nil _ _

theorem decAux_fuel (f g n : Nat) (hf : n < f) (hg : n < g) : decAux f n = decAux g n := by
  induction f generalizing g n with
  | zero => omega
  | succ f ih =>
    cases g with
    | zero => omega
    | succ g =>
      unfold decAux
      split
      · rfl
      · rw [ih g (n / 10) (by omega) (by omega)]

theorem decNat_lt {n : Nat} (h : n < 10) : decNat n = [UInt8.ofNat (48 + n)] := by
  unfold decNat decAux; simp [h]

theorem decNat_ge {n : Nat} (h : 10 ≤ n) :
    decNat n = decNat (n / 10) ++ [UInt8.ofNat (48 + n % 10)] := by
  have e : decNat n = decAux n (n / 10) ++ [UInt8.ofNat (48 + n % 10)] := by
    unfold decNat
    rw [decAux]
    simp [show ¬ n < 10 by omega]
  rw [e]
  unfold decNat
  rw [decAux_fuel n (n / 10 + 1) (n / 10) (by omega) (by omega)]

theorem decNat_length (n : Nat) (k : Nat) (h : 10 ^ k ≤ n) (h2 : n < 10 ^ (k + 1)) :
    (decNat n).length = k + 1 := by
  induction k generalizing n with
  | zero => rw [decNat_lt (by simpa using h2)]; rfl
  | succ k ih =>
    have h10 : 10 ≤ n := by
      have : 10 ^ 1 ≤ 10 ^ (k + 1) := Nat.pow_le_pow_right (by norm_num) (by omega)
      simp at this; omega
    rw [decNat_ge h10, List.length_append, ih (n / 10)]
    · rfl
    · rw [Nat.le_div_iff_mul_le (by norm_num)]; rw [pow_succ] at h; exact h
    · rw [Nat.div_lt_iff_lt_mul (by norm_num)]; rw [pow_succ] at h2; exact h2

/-- No leading zero unless the number is zero. -/
theorem decNat_head (n : Nat) (h : n ≠ 0) : ∃ c r, decNat n = c :: r ∧ c ≠ 48 := by
  induction n using Nat.strong_induction_on with
  | _ n ih =>
    by_cases h10 : n < 10
    · refine ⟨UInt8.ofNat (48 + n), [], decNat_lt h10, ?_⟩
      intro hc
      have := congrArg UInt8.toNat hc
      rw [digit_toNat h10] at this
      simp at this; omega
    · obtain ⟨c, r, e, hc⟩ := ih (n / 10) (by omega) (by omega)
      exact ⟨c, r ++ [UInt8.ofNat (48 + n % 10)], by rw [decNat_ge (by omega), e]; rfl, hc⟩

/-! ## Little-endian bytes -/

theorem leBytes_length (k n : Nat) : (leBytes k n).length = k := by
  induction k generalizing n with
  | zero => rfl
  | succ k ih => simp [leBytes, ih]

theorem leNat_leBytes (k n : Nat) : leNat (leBytes k n) = n % 256 ^ k := by
  induction k generalizing n with
  | zero => simp [leBytes, leNat]; omega
  | succ k ih =>
    simp only [leBytes, leNat, ih, UInt8.toNat_ofNat']
    rw [pow_succ 256 k, Nat.mul_comm (256 ^ k) 256, Nat.mod_mul]
    omega

theorem leNat_lt (b : Bytes) : leNat b < 256 ^ b.length := by
  induction b with
  | nil => simp [leNat]
  | cons c cs ih =>
    simp only [leNat, List.length_cons, pow_succ]
    have := c.toNat_lt
    omega

theorem leBytes_leNat (b : Bytes) : leBytes b.length (leNat b) = b := by
  induction b with
  | nil => rfl
  | cons c cs ih =>
    simp only [leNat, List.length_cons, leBytes]
    have hc := c.toNat_lt
    congr 1
    · rw [← UInt8.toNat_inj, UInt8.toNat_ofNat']; omega
    · rw [show (c.toNat + 256 * leNat cs) / 256 = leNat cs by omega, ih]

@[simp] theorem encU64_length (x : UInt64) : (encU64 x).length = 8 := leBytes_length _ _
@[simp] theorem encI32_length (x : Int32) : (encI32 x).length = 4 := leBytes_length _ _

@[simp] theorem decodeU64_encU64 (x : UInt64) : decodeU64 (encU64 x) = x := by
  unfold decodeU64 encU64
  rw [leNat_leBytes]
  have := x.toNat_lt
  rw [← UInt64.toNat_inj, UInt64.toNat_ofNat']
  omega

@[simp] theorem decodeI32_encI32 (x : Int32) : decodeI32 (encI32 x) = x := by
  unfold decodeI32 encI32
  rw [leNat_leBytes]
  have := x.toUInt32.toNat_lt
  rw [show UInt32.ofNat (x.toUInt32.toNat % 256 ^ 4) = x.toUInt32 by
    rw [← UInt32.toNat_inj, UInt32.toNat_ofNat']; omega]
  simp

theorem encU64_decodeU64 (b : Bytes) (h : b.length = 8) : encU64 (decodeU64 b) = b := by
  have h1 := leNat_lt b
  rw [h] at h1
  unfold decodeU64 encU64
  rw [UInt64.toNat_ofNat', Nat.mod_eq_of_lt (by norm_num at h1 ⊢; omega)]
  have := leBytes_leNat b
  rwa [h] at this

/-! ## Conversions between `int` and `size_t` -/

theorem toNat_sizeOfInt (x : Int32) :
    ((sizeOfInt x).toNat : Int) = if x.toInt < 0 then x.toInt + 2 ^ 64 else x.toInt := by
  unfold sizeOfInt
  have h1 := x.toInt_lt
  have h2 := x.le_toInt
  have e : (x.toInt64.toUInt64.toNat : Int) = x.toInt64.toInt % 2 ^ 64 := by
    have : x.toInt64.toInt = x.toInt64.toUInt64.toBitVec.toInt := rfl
    rw [this, BitVec.toInt_eq_toNat_bmod]
    have h3 : x.toInt64.toUInt64.toBitVec.toNat < 2 ^ 64 := x.toInt64.toUInt64.toBitVec.isLt
    have h4 : x.toInt64.toUInt64.toNat = x.toInt64.toUInt64.toBitVec.toNat := rfl
    rw [h4]
    simp only [Int.bmod]
    split <;> omega
  rw [e, Int32.toInt_toInt64]
  split <;> omega

theorem toInt_intOfSize (x : UInt64) :
    (intOfSize x).toInt = if x.toNat % 2 ^ 32 < 2 ^ 31 then (x.toNat % 2 ^ 32 : Int)
      else (x.toNat % 2 ^ 32 : Int) - 2 ^ 32 := by
  unfold intOfSize
  have : x.toUInt32.toInt32.toInt = x.toUInt32.toBitVec.toInt := rfl
  rw [this, BitVec.toInt_eq_toNat_bmod]
  have h4 : x.toUInt32.toBitVec.toNat = x.toUInt32.toNat := rfl
  rw [h4, UInt64.toNat_toUInt32]
  simp only [Int.bmod]
  split <;> split <;> omega

theorem sizeOfInt_inj {x y : Int32} (h : sizeOfInt x = sizeOfInt y) : x = y := by
  have h1 := toNat_sizeOfInt x
  have h2 := toNat_sizeOfInt y
  rw [h, h2] at h1
  have := x.toInt_lt
  have := x.le_toInt
  have := y.toInt_lt
  have := y.le_toInt
  apply Int32.toInt_inj.mp
  split at h1 <;> split at h1 <;> omega

/-- A `size_t` survives the trip through a 32-bit `int` iff it is the sign extension of one. -/
theorem sizeOfInt_intOfSize_iff (x : UInt64) :
    sizeOfInt (intOfSize x) = x ↔ x.toNat < 2 ^ 31 ∨ 2 ^ 64 - 2 ^ 31 ≤ x.toNat := by
  rw [← UInt64.toNat_inj]
  have h1 := toNat_sizeOfInt (intOfSize x)
  rw [toInt_intOfSize] at h1
  have := x.toNat_lt
  constructor
  · intro h; rw [h] at h1; split at h1 <;> split at h1 <;> omega
  · intro h; zify; rw [h1]; split <;> split <;> omega

theorem sizeOfInt_intOfSize {x : UInt64} (h : x.toNat < 2 ^ 31) : sizeOfInt (intOfSize x) = x :=
  (sizeOfInt_intOfSize_iff x).mpr (Or.inl h)

theorem encI32_decodeI32 {b : Bytes} (h : b.length = 4) : encI32 (decodeI32 b) = b := by
  unfold encI32 decodeI32
  have h1 : leNat b < 2 ^ 32 := by
    match b, h with
    | [w, x, y, z], _ =>
      have := w.toNat_lt; have := x.toNat_lt; have := y.toNat_lt; have := z.toNat_lt
      simp only [leNat]; omega
  rw [UInt32.toUInt32_toInt32, UInt32.toNat_ofNat', Nat.mod_eq_of_lt h1]
  have := leBytes_leNat b
  rwa [h] at this

theorem intOfSize_sizeOfInt (x : Int32) : intOfSize (sizeOfInt x) = x := by
  apply Int32.toInt_inj.mp
  rw [toInt_intOfSize]
  have h1 := toNat_sizeOfInt x
  have := x.toInt_lt
  have := x.le_toInt
  split at h1 <;> split <;> omega

end MshIO
