import Mathlib.Data.Rat.Defs
import Mathlib.Algebra.Order.Ring.Rat
import Verif.Model.Cfg

/-!
# Specification: doubles as numbers, and their passage through text

A finite double is the rational number `val`.  `reread P d` is the double a program gets back when it
prints `d` in the format `P` and parses the text again (both conversions belong to the C++ standard
library, not to MshIO; `Spec/Numeral.lean` and C48, C49 say what they do).
-/

namespace MshIO

/-- The number a finite double stands for. -/
def Double.val (d : Double) : ℚ := (if d.neg then -1 else 1) * (d.units : ℚ) / 2 ^ 1074

/-- Print in the format `P`, parse again. -/
def reread (P : Fmt) (d : Double) : Double := (convertFloat (scanFloat (fmtDouble P d))).1

/-- The text of `d` is accepted when it is parsed again: `d` is finite and its printed value does not
exceed the range of doubles (`MshIO.printable_of_le`, `printable_default`, `printable_17`). -/
def Printable (P : Fmt) (d : Double) : Prop := (convertFloat (scanFloat (fmtDouble P d))).2 = false

/-- Every finite double survives printing and parsing. -/
def Fmt.Lossless (P : Fmt) : Prop := ∀ d : Double, d.isFinite = true → Printable P d ∧ reread P d = d

/-- Distance from a finite double to the next one of larger magnitude (a unit in the last place): the
53-bit significand is counted in steps of `2^(E-1)` smallest subnormals, `E` being the exponent field
(with `E = 0` for subnormals treated like `E = 1`). -/
def Double.ulp (d : Double) : ℚ := 2 ^ (d.mag / 2 ^ 52 - 1) / 2 ^ 1074

end MshIO
