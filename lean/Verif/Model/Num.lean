import Verif.Model.Basic

/-!
# Integers as the code sees them: decimal text, little-endian bytes, C++ integer conversions

Platform (stated in DESIGN.md): LP64, little endian, two's complement:
`int` = 32 bit (`Int32`), `size_t` = 64 bit (`UInt64`), `double` = 64 bit.
-/

namespace MshIO

/-- Decimal digits of `n` (most significant first), `fuel` bounds the number of digits. -/
def decAux : Nat → Nat → Bytes
  | 0, _ => []
  | fuel + 1, n =>
    if n < 10 then [UInt8.ofNat (48 + n)]
    else decAux fuel (n / 10) ++ [UInt8.ofNat (48 + n % 10)]

/-- The text of an unsigned integer, as `std::ostream::operator<<` prints it in decimal. -/
def decNat (n : Nat) : Bytes := decAux (n + 1) n

/-- `out << x` for a `size_t`. -/
def decU64 (x : UInt64) : Bytes := decNat x.toNat

/-- `out << x` for an `int`. -/
def decI32 (x : Int32) : Bytes :=
  if x.toInt < 0 then 45 :: decNat x.toInt.natAbs else decNat x.toInt.natAbs

/-- Value of a list of ASCII digits. -/
def natOfDigits (ds : Bytes) : Nat := ds.foldl (fun a c => a * 10 + (c.toNat - 48)) 0

/-- `isdigit` in the "C" locale. -/
def isDigit (c : UInt8) : Bool := 48 ≤ c && c ≤ 57

/-- `isspace` in the "C" locale: space, `\t`, `\n`, `\v`, `\f`, `\r`. -/
def isSpace (c : UInt8) : Bool := c == 32 || (9 ≤ c && c ≤ 13)

/-- `k` little-endian bytes of `n`. -/
def leBytes : Nat → Nat → Bytes
  | 0, _ => []
  | k + 1, n => UInt8.ofNat (n % 256) :: leBytes k (n / 256)

/-- The number denoted by little-endian bytes. -/
def leNat : Bytes → Nat
  | [] => 0
  | b :: bs => b.toNat + 256 * leNat bs

/-- Object representation of a `size_t` (8 bytes). -/
def encU64 (x : UInt64) : Bytes := leBytes 8 x.toNat
/-- `size_t` with the given object representation. -/
def decodeU64 (b : Bytes) : UInt64 := UInt64.ofNat (leNat b)
/-- Object representation of an `int` / `int32_t` (4 bytes). -/
def encI32 (x : Int32) : Bytes := leBytes 4 x.toUInt32.toNat
/-- `int` with the given object representation. -/
def decodeI32 (b : Bytes) : Int32 := (UInt32.ofNat (leNat b)).toInt32

/-- `static_cast<size_t>(x)` of an `int` (sign extension, i.e. reduction mod `2^64`). -/
def sizeOfInt (x : Int32) : UInt64 := x.toInt64.toUInt64
/-- `static_cast<int32_t>(x)` of a `size_t` (reduction mod `2^32`, two's complement). -/
def intOfSize (x : UInt64) : Int32 := x.toUInt32.toInt32

end MshIO
