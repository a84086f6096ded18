import Verif.Spec.Decimal

/-!
# Specification: decimal numerals

Which number a numeral in a text file stands for, and what it means that a double is the
correctly rounded value of a number, written down without reference to the conversions of the standard library
that the model contains (`fmtDouble`, `scanFloat`, `convertFloat`).
-/

namespace MshIO

/-- The number a string of digits stands for. -/
def digitsValue (l : List (Fin 10)) : Nat := l.foldl (fun a d => 10 * a + d.val) 0

/-- `-1` for a minus sign. -/
def signValue : Option Bool → ℤ
  | some true => -1
  | _ => 1

/-- The power of ten the digits are multiplied with. -/
def Numeral.power (n : Numeral) : ℤ :=
  match n.exp with
  | none => 0
  | some e => signValue e.sign * digitsValue e.digits

/-- The absolute value of the number a numeral stands for. -/
def Numeral.size (n : Numeral) : ℚ :=
  (digitsValue n.int + digitsValue n.fracDigits / 10 ^ n.fracDigits.length) * 10 ^ n.power

/-- The number a numeral stands for. -/
def Numeral.value (n : Numeral) : ℚ := signValue n.sign * n.size

/-- `d` is the double nearest to `q`; of two equally near ones it is the one whose last bit is zero. -/
structure Nearest (q : ℚ) (d : Double) : Prop where
  finite : d.isFinite = true
  closest : ∀ e : Double, e.isFinite = true → |d.val - q| ≤ |e.val - q|
  even : ∀ e : Double, e.isFinite = true → e.val ≠ d.val → |e.val - q| = |d.val - q| → d.bits.toNat % 2 = 0

/-- The numbers that round to a finite double: those below the middle between the greatest double,
`2^1024 - 2^971`, and `2^1024`. -/
def InRange (q : ℚ) : Prop := |q| < 2 ^ 1024 - 2 ^ 970

/-- The greatest double. -/
def maxDouble : Double := ⟨0x7fefffffffffffff⟩
/-- The least double. -/
def minDouble : Double := ⟨0xffefffffffffffff⟩

/-- `D * 10^x` is the `p`-digit decimal nearest to the positive number `q`.  Of two equally near ones it is the one
whose last digit is even: it is an even multiple of the unit in the last place of the other one. -/
structure NearestDecimal (p : Nat) (q : ℚ) (D : Nat) (x : ℤ) : Prop where
  low : 10 ^ (p - 1) ≤ D
  high : D < 10 ^ p
  closest : ∀ (D' : Nat) (x' : ℤ), D' < 10 ^ p → |(D : ℚ) * 10 ^ x - q| ≤ |(D' : ℚ) * 10 ^ x' - q|
  even : ∀ (D' : Nat) (x' : ℤ), 10 ^ (p - 1) ≤ D' → D' < 10 ^ p → (D' : ℚ) * 10 ^ x' ≠ D * 10 ^ x →
    |(D' : ℚ) * 10 ^ x' - q| = |(D : ℚ) * 10 ^ x - q| → ∃ E : Nat, E % 2 = 0 ∧ (D : ℚ) * 10 ^ x = E * 10 ^ x'

/-- The digits of an integer without superfluous zeros in front. -/
def TidyInt (l : List (Fin 10)) : Prop := l = [0] ∨ ∃ d t, l = d :: t ∧ d ≠ 0

/-- An exponent as C prints it: its letter is `e`, its sign is always present (`+` for zero) and it has two digits
or, if it must, more. -/
structure Exponent.Tidy (e : Exponent) : Prop where
  lower : e.upper = false
  sign : e.sign ≠ none
  zero : e.sign = some true → digitsValue e.digits ≠ 0
  two : 2 ≤ e.digits.length
  more : 2 < e.digits.length → ∃ d t, e.digits = d :: t ∧ d ≠ 0

/-- No superfluous characters: no sign but `-`, no superfluous zero in front or at the end, no point without a digit
after it, exactly one digit other than zero in front of the point if there is an exponent. -/
structure Numeral.Tidy (n : Numeral) : Prop where
  sign : n.sign ≠ some false
  int : TidyInt n.int
  frac : ∀ f ∈ n.frac, ∃ t d, f = t ++ [d] ∧ d ≠ 0
  exp : ∀ e ∈ n.exp, n.int.length = 1 ∧ n.int ≠ [0] ∧ e.Tidy

/-- The sign in front of a printed number: `-` for the sign bit, no `+`. -/
def printedSign (d : Double) : Option Bool := if d.neg then some true else none

/-- What `printf("%.*g", P, d)` prints: the nearest decimal of `P` digits (of one if `P` is zero), `D * 10^(X-P+1)`,
without superfluous characters, with an exponent exactly if `X` is less than `-4` or not less than `P`. -/
def PrintsGeneral (P : Nat) (d : Double) (text : Bytes) : Prop :=
  ∃ n : Numeral, text = n.text ∧ n.sign = printedSign d ∧ n.Tidy ∧
    (d.val = 0 → n.size = 0 ∧ n.exp = none) ∧
    (d.val ≠ 0 → ∃ (D : Nat) (X : ℤ), NearestDecimal (max P 1) |d.val| D (X - (max P 1 - 1 : Nat)) ∧
      n.size = D * 10 ^ (X - (max P 1 - 1 : Nat)) ∧ (n.exp = none ↔ -4 ≤ X ∧ X < (max P 1 : Nat)))

/-- A point and `P` digits, nothing if `P` is zero. -/
def PlacesOf (P : Nat) (f : Option (List (Fin 10))) : Prop :=
  if P = 0 then f = none else ∃ l, f = some l ∧ l.length = P

/-- What `printf("%.*f", P, d)` prints: the nearest multiple of `10^-P`, the even one of two, with exactly `P` digits
after the point. -/
def PrintsFixed (P : Nat) (d : Double) (text : Bytes) : Prop :=
  ∃ (n : Numeral) (N : Nat), text = n.text ∧ n.sign = printedSign d ∧ TidyInt n.int ∧ PlacesOf P n.frac ∧ n.exp = none ∧
    n.size = N / 10 ^ P ∧ (∀ M : Nat, |(N : ℚ) / 10 ^ P - abs d.val| ≤ |(M : ℚ) / 10 ^ P - abs d.val|) ∧
    ∀ M : Nat, M ≠ N → |(M : ℚ) / 10 ^ P - abs d.val| = |(N : ℚ) / 10 ^ P - abs d.val| → N % 2 = 0

/-- What `printf("%.*e", P, d)` prints: the nearest decimal of `P + 1` digits, one digit in front of the point and an
exponent. -/
def PrintsScientific (P : Nat) (d : Double) (text : Bytes) : Prop :=
  ∃ n : Numeral, text = n.text ∧ n.sign = printedSign d ∧ n.int.length = 1 ∧ PlacesOf P n.frac ∧
    (∃ e, n.exp = some e ∧ e.Tidy) ∧
    (d.val = 0 → n.size = 0 ∧ n.power = 0) ∧
    (d.val ≠ 0 → n.int ≠ [0] ∧ ∃ (D : Nat) (x : ℤ), NearestDecimal (P + 1) |d.val| D x ∧ n.size = D * 10 ^ x)

end MshIO
