import Verif.Model.IStream

/-!
# `std::ostream`

Output is the sequence of bytes written so far; it is kept when an exception, an abort or undefined
behaviour ends the call.  Integers are printed in decimal, "C" locale; doubles as `Cfg.fmt` says.
Not modelled: non-default flags; output failures (disk full etc.) are in `Model/Device.lean`.
-/

namespace MshIO

/-- A computation that writes: bytes produced and how it ended. -/
def Wr (α : Type) : Type := Bytes × Outcome α

namespace Wr

/-- Return without writing. -/
@[inline] protected def pure {α : Type} (a : α) : Wr α := ([], .ok a)

/-- Sequencing. -/
@[inline] protected def bind {α β : Type} (p : Wr α) (f : α → Wr β) : Wr β :=
  match p with
  | (b, .ok a) => (b ++ (f a).1, (f a).2)
  | (b, .throw e) => (b, .throw e)
  | (b, .abort) => (b, .abort)
  | (b, .ub) => (b, .ub)
  | (b, .hang) => (b, .hang)

instance : Monad Wr where
  pure := Wr.pure
  bind := Wr.bind

/-- Run a computation that does not write. -/
def lift {α : Type} (x : Outcome α) : Wr α := ([], x)

end Wr

/-- Put bytes on the stream. -/
def emit (b : Bytes) : Wr Unit := (b, .ok ())

/-- `std::endl` (and the flush, which is invisible here). -/
def endl : Bytes := [10]

/-- `out << std::quoted(s)`: `"`, the characters with `"` and `\` escaped by `\`, `"`. -/
def quoteText (s : Bytes) : Bytes :=
  34 :: (s.flatMap (fun c => if c == 34 || c == 92 then [92, c] else [c]) ++ [34])

/-- Object representation of a `double`. -/
def encDouble (d : Double) : Bytes := encU64 d.bits

/-- `out.write(v.data(), sizeof(T) * n)` where `enc` gives the object representation of the
elements and `sizeof(T) = 8`: the byte count is computed mod `2^64`, so `n mod 2^61` elements are
written; reading past the end of the vector is undefined behaviour. -/
def writeN {α : Type} (enc : α → Bytes) (v : List α) (n : UInt64) : Wr Unit :=
  if n.toNat % 2 ^ 61 ≤ v.length then emit ((v.take (n.toNat % 2 ^ 61)).flatMap enc)
  else Wr.lift .ub

/-- `for (const auto& x : v) f(x);` -/
def forW {α : Type} (f : α → Wr Unit) : List α → Wr Unit
  | [] => pure ()
  | a :: as => do f a; forW f as

/-- `for (size_t i = i₀; i < i₀ + n; i++) f(i);` -/
def loopW (f : Nat → Wr Unit) : (n : Nat) → (i : Nat) → Wr Unit
  | 0, _ => pure ()
  | n + 1, i => do f i; loopW f n (i + 1)

/-- `if (c) { w }`. -/
def whenW (c : Bool) (w : Wr Unit) : Wr Unit := if c then w else pure ()

/-- `assert(c)` in the saver. -/
def assertW (cfg : Cfg) (c : Bool) : Wr Unit := if cfg.asserts && !c then Wr.lift .abort else pure ()

end MshIO
