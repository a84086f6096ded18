import Verif.Spec.Sections
import Verif.Spec.Numeral
import Verif.Spec.Quoted

/-!
# Specification: reading numbers and strings from text

How far the extractions of the C++ standard library get in a text that may be malformed or cut off, written down without reference to the scanners of the model.
-/

namespace MshIO

/-- Where reading stands: in front of `r`; or reading has failed before the end of the file, or at it.  A stream that has failed stays as it is. -/
inductive Place where
  | on (r : Bytes)
  | stuck
  | ended

namespace Place

/-- Reading has failed in front of `r`. -/
inductive Fell : Bytes → Place → Prop
  | stuck {c r} : Fell (c :: r) .stuck
  | ended : Fell [] .ended

/-- Nothing has failed, and there is something left to read: `in.good()`. -/
def Good (x : Place) : Prop := ∃ c r, x = .on (c :: r)

end Place

/-- A text begins with white space, a sign if there is one, and digits, as many as there are; `r'` follows. -/
def StartsInt (r : Bytes) (s : Option Bool) (ds : List (Fin 10)) (r' : Bytes) : Prop :=
  ∃ lead, r = lead ++ (signText s ++ (digitsText ds ++ r')) ∧ Blank lead ∧ (∀ c ∈ r'.head?, isDigit c = false) ∧
    (s = none → ds = [] → ∃ c ∈ r'.head?, isSpace c = false ∧ [c] ≠ b! "+" ∧ [c] ≠ b! "-")

/-- Reading a `size_t` stores a number or nothing.  A negative number is stored modulo `2^64`; a number that is too large is replaced by the greatest one, a word without digits by zero,
and both are failures. -/
inductive TakesSize : Place → Option UInt64 → Place → Prop
  | number {r s ds r'} : StartsInt r s ds r' → ds ≠ [] → digitsValue ds < 2 ^ 64 → TakesSize (.on r) (some (UInt64.ofInt (signValue s * digitsValue ds))) (.on r')
  | large {r s ds r' y} : StartsInt r s ds r' → 2 ^ 64 ≤ digitsValue ds → Place.Fell r' y → TakesSize (.on r) (some 18446744073709551615) y
  | word {r s r' y} : StartsInt r s [] r' → Place.Fell r' y → TakesSize (.on r) (some 0) y
  | blank {r} : Blank r → TakesSize (.on r) none .ended
  | stuck : TakesSize .stuck none .stuck
  | ended : TakesSize .ended none .ended

/-- Reading an `int` stores a number or nothing.  A number that is too small or too large is replaced by the nearest one that is not, a word without digits by zero, and both are
failures. -/
inductive TakesInt : Place → Option Int32 → Place → Prop
  | number {r s ds r'} {v : Int32} : StartsInt r s ds r' → ds ≠ [] → v.toInt = signValue s * digitsValue ds → TakesInt (.on r) (some v) (.on r')
  | small {r s ds r' y} : StartsInt r s ds r' → signValue s * digitsValue ds < -2 ^ 31 → Place.Fell r' y → TakesInt (.on r) (some (-2147483648)) y
  | large {r s ds r' y} : StartsInt r s ds r' → 2 ^ 31 ≤ signValue s * digitsValue ds → Place.Fell r' y → TakesInt (.on r) (some 2147483647) y
  | word {r s r' y} : StartsInt r s [] r' → Place.Fell r' y → TakesInt (.on r) (some 0) y
  | blank {r} : Blank r → TakesInt (.on r) none .ended
  | stuck : TakesInt .stuck none .stuck
  | ended : TakesInt .ended none .ended

/-- The beginning of a numeral: there is a digit before an `e`. -/
def Numeral.Begun (n : Numeral) : Prop := n.exp ≠ none → n.int ≠ [] ∨ n.fracDigits ≠ []

/-- A text begins with white space and the characters `n` of a numeral, as many as there are; `r'` follows. -/
def StartsReal (r : Bytes) (n : Numeral) (r' : Bytes) : Prop :=
  ∃ lead, r = lead ++ (n.text ++ r') ∧ Blank lead ∧ (∃ c ∈ (n.text ++ r').head?, isSpace c = false) ∧ n.Begun ∧
    ∀ c ∈ r'.head?, ∀ m : Numeral, m.Begun → m.text ≠ n.text ++ [c]

/-- Reading a `double`: a numeral that is incomplete or out of range is a failure. -/
inductive TakesReal : Place → Place → Prop
  | number {r n r'} : StartsReal r n r' → n.Proper → InRange n.value → TakesReal (.on r) (.on r')
  | bad {r n r' y} : StartsReal r n r' → ¬ (n.Proper ∧ InRange n.value) → Place.Fell r' y → TakesReal (.on r) y
  | blank {r} : Blank r → TakesReal (.on r) .ended
  | stuck : TakesReal .stuck .stuck
  | ended : TakesReal .ended .ended

/-- Reading a quoted string: without a quote in front it is the next word; a string that is not closed is a failure. -/
inductive TakesQuoted : Place → Place → Prop
  | closed {lead t s r'} : Blank lead → Spells t s → TakesQuoted (.on (lead ++ (b! "\"" ++ (t ++ (b! "\"" ++ r'))))) (.on r')
  | unclosed {lead r} : Blank lead → (¬ ∃ t s r', Spells t s ∧ r = t ++ (b! "\"" ++ r')) → TakesQuoted (.on (lead ++ (b! "\"" ++ r))) .ended
  | word {lead c w r'} : Blank lead → [c] ≠ b! "\"" → (∀ d ∈ c :: w, isSpace d = false) → (∀ d ∈ r'.head?, isSpace d = true) →
      TakesQuoted (.on (lead ++ (c :: w ++ r'))) (.on r')
  | blank {r} : Blank r → TakesQuoted (.on r) .ended
  | stuck : TakesQuoted .stuck .stuck
  | ended : TakesQuoted .ended .ended

/-- `n` reads one after the other. -/
inductive Many (R : Place → Place → Prop) : Nat → Place → Place → Prop
  | zero {x} : Many R 0 x x
  | next {n x y z} : R x y → Many R n y z → Many R (n + 1) x z

/-- Reading a `size_t`, whatever is stored. -/
def SkipsSize (x y : Place) : Prop := ∃ v, TakesSize x v y
/-- Reading an `int`, whatever is stored. -/
def SkipsInt (x y : Place) : Prop := ∃ v, TakesInt x v y

end MshIO
