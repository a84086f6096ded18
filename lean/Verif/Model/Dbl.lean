import Verif.Model.Num

/-!
# `double`: bit patterns, text output (`%.{P}g`) and text input (`strtod`)

The C++ code moves `double`s around and never does arithmetic on them, so a double is its bit
pattern.  Its *text* form matters, because MshIO prints and reads doubles with the iostream
operators.  This file models the two conversions of the C++ standard library (libstdc++/glibc,
"C" locale): both are correctly rounded, ties to even.
-/

namespace MshIO

/-- An IEEE-754 binary64 value, by its bit pattern. -/
structure Double where
  bits : UInt64
  deriving DecidableEq, Repr

namespace Double

/-- Sign bit. -/
def neg (d : Double) : Bool := 2 ^ 63 ≤ d.bits.toNat
/-- The 63 bits below the sign bit. -/
def mag (d : Double) : Nat := d.bits.toNat % 2 ^ 63
/-- Magnitude bits of infinity; larger magnitudes are NaNs, smaller ones finite. -/
def infMag : Nat := 2047 * 2 ^ 52
/-- Neither infinite nor NaN. -/
def isFinite (d : Double) : Bool := d.mag < infMag
/-- Assemble a double from sign and magnitude bits. -/
def ofSignMag (s : Bool) (m : Nat) : Double := ⟨UInt64.ofNat ((if s then 2 ^ 63 else 0) + m)⟩
/-- Absolute value of a finite double in units of `2^-1074` (the smallest subnormal), from its
magnitude bits: biased exponent `b / 2^52`, fraction `b % 2^52`. -/
def unitsOfMag (b : Nat) : Nat :=
  if b / 2 ^ 52 = 0 then b % 2 ^ 52 else (b % 2 ^ 52 + 2 ^ 52) * 2 ^ (b / 2 ^ 52 - 1)
/-- Absolute value of a finite double in units of `2^-1074`. -/
def units (d : Double) : Nat := unitsOfMag d.mag
/-- `0.0`, the value a value-initialised `double` gets. -/
def zero : Double := ⟨0⟩

end Double

/-- `a / b` rounded to the nearest integer, ties to even. -/
def rne (a b : Nat) : Nat :=
  if 2 * (a % b) < b then a / b
  else if b < 2 * (a % b) then a / b + 1
  else if a / b % 2 = 0 then a / b else a / b + 1

/-! ## Text input -/

/-- Magnitude bits of the double nearest to `num / den` (ties to even); a result
`≥ Double.infMag` means overflow.  Models the rounding of glibc `strtod`. -/
def magOfRat (num den : Nat) : Nat :=
  let k := Nat.log2 (num * 2 ^ 1074 / den) - 52
  k * 2 ^ 52 + rne (num * 2 ^ 1074) (den * 2 ^ k)

/-- Magnitude bits of the double nearest to `m * 10^e`. -/
def magOfDec (m : Nat) (e : Int) : Nat :=
  if 0 ≤ e then magOfRat (m * 10 ^ e.toNat) 1 else magOfRat m (10 ^ (-e).toNat)

/-- Result of scanning the longest prefix that can belong to a floating-point literal. -/
structure FloatScan where
  neg : Bool
  ip : Bytes
  fp : Bytes
  sci : Bool
  eneg : Bool
  ed : Bytes
  rest : Bytes

/-- Optional sign in front of a number: (is it `-`, what follows). -/
def scanSign : Bytes → Bool × Bytes
  | 45 :: r => (true, r)
  | 43 :: r => (false, r)
  | r => (false, r)

/-- Optional fraction part `.digits`: (digits, what follows). -/
def scanFrac : Bytes → Bytes × Bytes
  | 46 :: r => (r.takeWhile isDigit, r.dropWhile isDigit)
  | r => ([], r)

/-- Character accumulation of `std::num_get<char>::_M_extract_float`
(libstdc++ `bits/locale_facets.tcc`, "C" locale): sign, digits, `.`, digits, and, once a digit was
seen, `e`/`E`, sign, digits. -/
def scanFloat (bs : Bytes) : FloatScan :=
  let (neg, r) := scanSign bs
  let ip := r.takeWhile isDigit
  let (fp, r) := scanFrac (r.dropWhile isDigit)
  match r with
  | c :: r' =>
    if (c == 101 || c == 69) && !(ip.isEmpty && fp.isEmpty) then
      let (eneg, r'') := scanSign r'
      { neg, ip, fp, sci := true, eneg, ed := r''.takeWhile isDigit, rest := r''.dropWhile isDigit }
    else { neg, ip, fp, sci := false, eneg := false, ed := [], rest := c :: r' }
  | [] => { neg, ip, fp, sci := false, eneg := false, ed := [], rest := [] }

/-- Decimal exponent of a scanned literal relative to its digit string `ip ++ fp`. -/
def FloatScan.exp10 (f : FloatScan) : Int :=
  (if f.eneg then -(natOfDigits f.ed : Int) else (natOfDigits f.ed : Int)) - f.fp.length

/-- `std::__convert_to_v` (libstdc++, gnu locale model): `strtod` on the accumulated characters.
`(value, failed?)`; a malformed literal yields `0` and fails, overflow yields ±`DBL_MAX` and
fails, underflow does not fail. -/
def convertFloat (f : FloatScan) : Double × Bool :=
  if (f.ip.isEmpty && f.fp.isEmpty) || (f.sci && f.ed.isEmpty) then (Double.zero, true)
  else
    let m := magOfDec (natOfDigits (f.ip ++ f.fp)) f.exp10
    if Double.infMag ≤ m then (Double.ofSignMag f.neg (Double.infMag - 1), true)
    else (Double.ofSignMag f.neg m, false)

/-! ## Text output -/

/-- Floor of the decimal logarithm (`0` for `n < 10`), `fuel` bounds the result. -/
def log10Aux : Nat → Nat → Nat
  | 0, _ => 0
  | fuel + 1, n => if n < 10 then 0 else log10Aux fuel (n / 10) + 1

/-- Floor of the decimal logarithm of `n ≥ 1`. -/
def log10 (n : Nat) : Nat := log10Aux n n

/-- The `p` significant decimal digits (`p ≥ 1`) of `y = v * a / b ≥ 1`, correctly rounded (ties to
even): `(D, L)` with `10^(p-1) ≤ D < 10^p` standing for `D * 10^(L-p+1)`. -/
def sigDigitsOf (a b p v : Nat) : Nat × Nat :=
  let l := log10 (v * a / b)
  let d := rne (v * (a * 10 ^ (p - 1))) (b * 10 ^ l)
  if d = 10 ^ p then (10 ^ (p - 1), l + 1) else (d, l)

/-- The `p` significant decimal digits (`p ≥ 1`) of the positive number `v * 2^-1074`, correctly
rounded (ties to even): `(D, L)` with `10^(p-1) ≤ D < 10^p` standing for `D * 10^(L-324-p+1)`. -/
def sigDigits (p v : Nat) : Nat × Nat := sigDigitsOf (10 ^ 324) (2 ^ 1074) p v

/-- Remove trailing `0` characters. -/
def stripZeros (ds : Bytes) : Bytes := (ds.reverse.dropWhile (· == 48)).reverse

/-- `.digits`, or nothing when there are no digits. -/
def fracText (ds : Bytes) : Bytes := if ds.isEmpty then [] else 46 :: ds

/-- Exponent field of `%e`: sign and at least two digits. -/
def expText (x : Int) : Bytes :=
  (if x < 0 then 45 else 43) ::
    (if x.natAbs < 10 then 48 :: decNat x.natAbs else decNat x.natAbs)

/-- `%.{p}g` of the non-negative number `v * 2^-1074` (C11 7.21.6.1p8, no `#` flag). -/
def fmtUnits (p v : Nat) : Bytes :=
  let p := max p 1
  if v = 0 then [48]
  else
    let (d, l) := sigDigits p v
    let x : Int := (l : Int) - 324
    let ds := decNat d
    if -4 ≤ x ∧ x < p then
      if 0 ≤ x then ds.take (x.toNat + 1) ++ fracText (stripZeros (ds.drop (x.toNat + 1)))
      else 48 :: fracText (stripZeros (List.replicate ((-x).toNat - 1) 48 ++ ds))
    else ds.take 1 ++ fracText (stripZeros (ds.drop 1)) ++ 101 :: expText x

/-- `out << d` for a finite `double` on a stream with `out.precision() == p` and default flags:
`printf("%.*g", p, d)`. -/
def fmtGeneral (p : Nat) (d : Double) : Bytes := (if d.neg then [45] else []) ++ fmtUnits p d.units

/-- `ds` with zeros in front up to `p` characters. -/
def padZeros (p : Nat) (ds : Bytes) : Bytes := List.replicate (p - ds.length) 48 ++ ds

/-- `out << d` for a finite `double` after `out << std::fixed` with `out.precision() == p`:
`printf("%.*f", p, d)`, the number rounded to a multiple of `10^-p`, ties to even. -/
def fmtFixed (p : Nat) (d : Double) : Bytes :=
  let n := rne (d.units * 10 ^ p) (2 ^ 1074)
  (if d.neg then b! "-" else []) ++
    (decNat (n / 10 ^ p) ++ fracText (if p = 0 then [] else padZeros p (decNat (n % 10 ^ p))))

/-- `out << d` for a finite `double` after `out << std::scientific` with `out.precision() == p`:
`printf("%.*e", p, d)`. -/
def fmtScientific (p : Nat) (d : Double) : Bytes :=
  (if d.neg then b! "-" else []) ++
    (if d.units = 0 then 48 :: fracText (List.replicate p 48) ++ 101 :: expText 0
     else
       let (m, l) := sigDigits (p + 1) d.units
       (decNat m).take 1 ++ fracText ((decNat m).drop 1) ++ 101 :: expText ((l : Int) - 324))

end MshIO
