import Verif.Model.Basic

/-!
# Decimal numerals

The texts of numbers: which characters, in which order.  (`Spec/Numeral.lean` says which number a numeral stands
for.)
-/

namespace MshIO

/-- The exponent of a numeral: `e` or `E`, a sign (`some true` is `-`, `some false` is `+`), digits. -/
structure Exponent where
  upper : Bool
  sign : Option Bool
  digits : List (Fin 10)

/-- A decimal numeral: a sign, digits, a point and digits after it, an exponent. -/
structure Numeral where
  sign : Option Bool
  int : List (Fin 10)
  frac : Option (List (Fin 10))
  exp : Option Exponent

/-- The text of a sign. -/
def signText : Option Bool → Bytes
  | none => []
  | some true => b! "-"
  | some false => b! "+"

/-- The text of a string of digits. -/
def digitsText (l : List (Fin 10)) : Bytes := l.map fun d => UInt8.ofNat (48 + d.val)

/-- The text of an exponent. -/
def Exponent.text (e : Exponent) : Bytes :=
  (if e.upper then b! "E" else b! "e") ++ signText e.sign ++ digitsText e.digits

/-- The text of a numeral. -/
def Numeral.text (n : Numeral) : Bytes :=
  signText n.sign ++ digitsText n.int ++
    (match n.frac with | none => [] | some f => b! "." ++ digitsText f) ++
    (match n.exp with | none => [] | some e => e.text)

/-- The digits after the point. -/
def Numeral.fracDigits (n : Numeral) : List (Fin 10) := n.frac.getD []

/-- There is a digit, and an exponent has a digit. -/
def Numeral.Proper (n : Numeral) : Prop :=
  (n.int ≠ [] ∨ n.fracDigits ≠ []) ∧ ∀ e ∈ n.exp, e.digits ≠ []

end MshIO
