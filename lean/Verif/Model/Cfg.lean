import Verif.Model.Dbl
import Verif.Model.Numeral

/-!
# Build configuration, and the format of the output stream
-/

namespace MshIO

/-- How an output stream prints finite doubles: with some decimal numeral.  The state of a `std::ostream` (floatfield,
precision, `showpoint`) belongs to the caller of `save_msh`; the library uses it as it is.
`Fmt.general P`, `Fmt.fixed P` and `Fmt.scientific P` are the three decimal floatfields.
Not modelled: `std::hexfloat`, a field width, `uppercase` (changes infinities) and flags that change how integers are
printed. -/
structure Fmt where
  print : Double → Bytes
  numeral : ∀ d, d.isFinite = true → ∃ n : Numeral, n.Proper ∧ print d = n.text

/-- `out << d` for a `double`: infinities and NaNs are printed alike in all decimal formats. -/
def fmtDouble (f : Fmt) (d : Double) : Bytes :=
  if d.isFinite then f.print d
  else (if d.neg then [45] else []) ++ (if d.mag = Double.infMag then b! "inf" else b! "nan")

/-- Build- and environment-dependent parameters.
* `asserts`    – `true` iff the library is built without `NDEBUG` (the `assert(...)` calls abort);
* `nanospline` – `true` iff built with `MSHIO_EXT_NANOSPLINE` (`CMakeLists.txt:18,36-38`);
* `fmt`        – how the output stream handed to `save_msh` prints doubles (`Fmt.general 6` for every freshly
                 constructed stream; the library never changes the flags or the precision);
* `maxCount`   – largest element count a `std::vector` can grow to before the allocation throws.
                 It is below `2^60`, since `max_size()` of a vector of 8-byte elements is `2^60-1`.
Simplification: one threshold for all element types instead of one byte budget. -/
structure Cfg where
  asserts : Bool
  nanospline : Bool
  fmt : Fmt
  maxCount : Nat
  maxCount_lt : maxCount < 2 ^ 60

end MshIO
