import Verif.Model.Cfg

/-!
# `std::istream`

The input stream is the bytes not yet consumed plus `eofbit` and `failbit`.  The operations below
are the ones MshIO uses; they follow libstdc++ (`bits/istream.tcc`, `bits/basic_string.tcc`,
`bits/quoted_string.h`, `bits/locale_facets.tcc`), "C" locale, default flags (`skipws`, `dec`).
Errors of the device (`badbit`) are in `Model/Broken.lean`.  Not modelled: stream exceptions, non-default flags or locales.
-/

namespace MshIO

/-- State of a `std::istream`. -/
structure Stream where
  rem : Bytes
  eof : Bool
  fail : Bool
  deriving DecidableEq, Repr

namespace Stream
/-- `in.good()`. -/
def good (s : Stream) : Bool := !s.eof && !s.fail
/-- A freshly opened stream over the given bytes. -/
def ofBytes (b : Bytes) : Stream := ⟨b, false, false⟩
end Stream

/-- A computation that reads from the stream. -/
def Rd (α : Type) : Type := Stream → Outcome (α × Stream)

namespace Rd

/-- Return without touching the stream. -/
@[inline] protected def pure {α : Type} (a : α) : Rd α := fun s => .ok (a, s)

/-- Sequencing. -/
@[inline] protected def bind {α β : Type} (p : Rd α) (f : α → Rd β) : Rd β := fun s =>
  match p s with
  | .ok (a, s') => f a s'
  | .throw e => .throw e
  | .abort => .abort
  | .ub => .ub
  | .hang => .hang

instance : Monad Rd where
  pure := Rd.pure
  bind := Rd.bind

/-- Throw a C++ exception. -/
def throw {α : Type} (e : Exc) : Rd α := fun _ => .throw e
/-- Undefined behaviour. -/
def ub {α : Type} : Rd α := fun _ => .ub
/-- Run a computation that does not use the stream. -/
def lift {α : Type} (x : Outcome α) : Rd α := fun s =>
  match x with
  | .ok a => .ok (a, s)
  | .throw e => .throw e
  | .abort => .abort
  | .ub => .ub
  | .hang => .hang

end Rd

/-- `assert(c)`; does nothing when `NDEBUG` is defined. -/
def assertC (cfg : Cfg) (c : Bool) : Rd Unit := fun s =>
  if cfg.asserts && !c then .abort else .ok ((), s)

/-- `assert(in.good())`. -/
def assertGood (cfg : Cfg) : Rd Unit := fun s =>
  if cfg.asserts && !s.good then .abort else .ok ((), s)

/-- Use of a local variable that is `none` as long as nothing was stored in it:
reading an uninitialised variable is undefined. -/
def useVar {α : Type} (x : Option α) : Rd α :=
  match x with
  | some a => pure a
  | none => Rd.ub

/-- Formatted-input sentry (`std::basic_istream::sentry` with `noskipws == false`):
on a good stream skip white space; running into the end sets `eofbit|failbit`.
On a stream that is not good set `failbit`.  Returns whether extraction may proceed. -/
def sentry (s : Stream) : Bool × Stream :=
  if s.good then
    match s.rem.dropWhile isSpace with
    | [] => (false, ⟨[], true, true⟩)
    | c :: r => (true, ⟨c :: r, false, false⟩)
  else (false, { s with fail := true })

/-- Digits of an integer literal: sign, digits, rest.
`std::num_get<char>::_M_extract_int` with base 10, "C" locale. -/
def scanInt (bs : Bytes) : Bool × Bytes × Bytes :=
  let (neg, r) := scanSign bs
  (neg, r.takeWhile isDigit, r.dropWhile isDigit)

/-- Value stored and failure flag of `_M_extract_int` for `unsigned long`:
no digits gives `0` and fails, overflow gives the maximum and fails, a `-` negates mod `2^64`. -/
def convertU64 (neg : Bool) (ds : Bytes) : UInt64 × Bool :=
  if ds.isEmpty then (0, true)
  else if 2 ^ 64 ≤ natOfDigits ds then (UInt64.ofNat (2 ^ 64 - 1), true)
  else (if neg then 0 - UInt64.ofNat (natOfDigits ds) else UInt64.ofNat (natOfDigits ds), false)

/-- Value stored and failure flag of `operator>>(int&)`: parsed as `long`, clamped to `int`. -/
def convertI32 (neg : Bool) (ds : Bytes) : Int32 × Bool :=
  if ds.isEmpty then (0, true)
  else
    let v : Int := if neg then -(natOfDigits ds : Int) else (natOfDigits ds : Int)
    if v < -(2 ^ 31) then (Int32.ofInt (-(2 ^ 31)), true)
    else if 2 ^ 31 ≤ v then (Int32.ofInt (2 ^ 31 - 1), true)
    else (Int32.ofInt v, false)

/-- `in >> x` for a `size_t x`; `none` = nothing was stored (the sentry failed). -/
def extractSize : Rd (Option UInt64) := fun s =>
  match sentry s with
  | (false, s) => .ok (none, s)
  | (true, s) =>
    let (neg, ds, rest) := scanInt s.rem
    let (v, bad) := convertU64 neg ds
    .ok (some v, ⟨rest, rest.isEmpty, bad⟩)

/-- `in >> x` for an `int x`. -/
def extractInt : Rd (Option Int32) := fun s =>
  match sentry s with
  | (false, s) => .ok (none, s)
  | (true, s) =>
    let (neg, ds, rest) := scanInt s.rem
    let (v, bad) := convertI32 neg ds
    .ok (some v, ⟨rest, rest.isEmpty, bad⟩)

/-- `in >> x` for a `double x`. -/
def extractDouble : Rd (Option Double) := fun s =>
  match sentry s with
  | (false, s) => .ok (none, s)
  | (true, s) =>
    let f := scanFloat s.rem
    let (v, bad) := convertFloat f
    .ok (some v, ⟨f.rest, f.rest.isEmpty, bad⟩)

/-- `in >> x` where `x` already holds `old`. -/
def inSize (old : UInt64) : Rd UInt64 := do return (← extractSize).getD old
/-- `in >> x` where `x` already holds `old`. -/
def inInt (old : Int32) : Rd Int32 := do return (← extractInt).getD old
/-- `in >> x` where `x` already holds `old`. -/
def inDouble (old : Double) : Rd Double := do return (← extractDouble).getD old

/-- `in >> x` where the local `x` may or may not be initialised (`none` = not). -/
def inIntVar (old : Option Int32) : Rd (Option Int32) := do
  match ← extractInt with
  | some v => return some v
  | none => return old

/-- `in >> str` for a `std::string` holding `old`: when the sentry succeeds the string is replaced
by the characters up to white space or end; reaching the end sets `eofbit`. -/
def inString (old : Bytes) : Rd Bytes := fun s =>
  match sentry s with
  | (false, s) => .ok (old, s)
  | (true, s) =>
    let tok := s.rem.takeWhile (fun c => !isSpace c)
    let rest := s.rem.dropWhile (fun c => !isSpace c)
    .ok (tok, ⟨rest, rest.isEmpty, false⟩)

/-- Body of a quoted string after the opening `"`: characters with `\` escapes up to the closing
`"`; running out of input sets `eofbit|failbit`. -/
def quotedBody : Bytes → Bytes × Stream
  | [] => ([], ⟨[], true, true⟩)
  | 34 :: r => ([], ⟨r, false, false⟩)
  | 92 :: [] => ([], ⟨[], true, true⟩)
  | 92 :: c :: r => let (t, s) := quotedBody r; (c :: t, s)
  | c :: r => let (t, s) := quotedBody r; (c :: t, s)

/-- `in >> std::quoted(str)` (`bits/quoted_string.h`): without an opening quote this is
`in >> str`. -/
def inQuoted (old : Bytes) : Rd Bytes := fun s =>
  match sentry s with
  | (false, s) => .ok (old, s)
  | (true, s) =>
    match s.rem with
    | 34 :: r => let (t, s') := quotedBody r; .ok (t, s')
    | _ => inString old s

/-- `in.read(p, n)` where the `n = old.length` bytes at `p` currently are `old`: on a good stream
copy what is available (a short read sets `eofbit|failbit` and leaves the tail of the buffer
alone); on any other stream only set `failbit`. -/
def readRaw (old : Bytes) : Rd Bytes := fun s =>
  if s.good then
    if old.length ≤ s.rem.length then
      .ok (s.rem.take old.length, ⟨s.rem.drop old.length, false, false⟩)
    else .ok (s.rem ++ old.drop s.rem.length, ⟨[], true, true⟩)
  else .ok (old, { s with fail := true })

/-- `in.read(&x, sizeof(size_t))` where `x` holds `old`. -/
def readSize (old : UInt64) : Rd UInt64 := do return decodeU64 (← readRaw (encU64 old))
/-- `in.read(&x, sizeof(int))` where `x` holds `old`. -/
def readInt (old : Int32) : Rd Int32 := do return decodeI32 (← readRaw (encI32 old))
/-- `in.read(&x, sizeof(double))` where `x` holds `old`. -/
def readDouble (old : Double) : Rd Double := do
  return ⟨decodeU64 (← readRaw (encU64 old.bits))⟩

/-- `int32_t x; in.read(&x, 4);` with `x` uninitialised before the call when `old = none`: unless
all four bytes arrive, an uninitialised `x` stays (partly) uninitialised. -/
def readIntVar (old : Option Int32) : Rd (Option Int32) := fun s =>
  match old with
  | some v => match readInt v s with
    | .ok (v', s') => .ok (some v', s')
    | .throw e => .throw e
    | .abort => .abort
    | .ub => .ub
    | .hang => .hang
  | none =>
    if s.good then
      if 4 ≤ s.rem.length then .ok (some (decodeI32 (s.rem.take 4)), ⟨s.rem.drop 4, false, false⟩)
      else .ok (none, ⟨[], true, true⟩)
    else .ok (none, { s with fail := true })

/-- Split bytes into groups of `k` and decode each group; `n` groups. -/
def decodeMany {α : Type} (k : Nat) (dec : Bytes → α) : Nat → Bytes → List α
  | 0, _ => []
  | n + 1, b => dec (b.take k) :: decodeMany k dec n (b.drop k)

/-- `in.read(v.data(), sizeof(size_t) * v.size())`. -/
def readSizes (old : List UInt64) : Rd (List UInt64) := do
  return decodeMany 8 decodeU64 old.length (← readRaw (old.flatMap encU64))
/-- `in.read(v.data(), sizeof(int) * v.size())`. -/
def readInts (old : List Int32) : Rd (List Int32) := do
  return decodeMany 4 decodeI32 old.length (← readRaw (old.flatMap encI32))
/-- `in.read(v.data(), sizeof(double) * v.size())`. -/
def readDoubles (old : List Double) : Rd (List Double) := do
  return decodeMany 8 (fun b => ⟨decodeU64 b⟩) old.length
    (← readRaw (old.flatMap (fun d => encU64 d.bits)))

/-- `in.peek()`: next byte on a good stream; at the end sets `eofbit`.  On a stream that is not good
sets `failbit`.  `none` is `EOF`. -/
def peek : Rd (Option UInt8) := fun s =>
  if s.good then
    match s.rem with
    | [] => .ok (none, ⟨[], true, false⟩)
    | c :: r => .ok (some c, ⟨c :: r, false, false⟩)
  else .ok (none, { s with fail := true })

/-- The four characters `eat_white_space` skips (`src/io_utils.cpp:11`). -/
def isEatSpace (c : UInt8) : Bool := c == 10 || c == 13 || c == 32 || c == 9

/-- The loop of `eat_white_space` after the first `peek`, on a good stream that holds `bs`:
each round drops one white-space character (`in.get()`) and peeks again, at most `count` rounds.
`EOF` cast to `char` is `0xFF`, not white space, so it stops the loop. -/
def eatLoop : Nat → Bytes → Stream
  | _, [] => ⟨[], true, false⟩
  | 0, c :: r => ⟨c :: r, false, false⟩
  | count + 1, c :: r => if isEatSpace c then eatLoop count r else ⟨c :: r, false, false⟩

/-- `eat_white_space(in, count)` (`src/io_utils.cpp:7-20`).  On a stream that is not good `peek`
returns `EOF`, so only `failbit` is set. -/
def eatWhiteSpace (count : Nat) : Rd Unit := fun s =>
  if s.good then .ok ((), eatLoop count s.rem) else .ok ((), { s with fail := true })

/-- `std::numeric_limits<size_t>::max()`, the default `count` (`src/io_utils.h:8`). -/
def sizeMax : UInt64 := UInt64.ofNat (2 ^ 64 - 1)

/-! ## Loops and vectors -/

/-- `for (auto& x : v) x = f(x);` -/
def forEach {α : Type} (f : α → Rd α) : List α → Rd (List α)
  | [] => pure []
  | a :: as => do
    let a ← f a
    let as ← forEach f as
    return a :: as

/-- `for (size_t i = i₀; i < i₀ + n; i++) st = f(i, st);` -/
def loopN {σ : Type} (f : Nat → σ → Rd σ) : (n : Nat) → (i : Nat) → σ → Rd σ
  | 0, _, st => pure st
  | n + 1, i, st => do
    let st ← f i st
    loopN f n (i + 1) st

/-- `v.size()`. -/
def sizeU {α : Type} (v : List α) : UInt64 := UInt64.ofNat v.length

/-- `v.resize(n)`: throws when the allocation is impossible; keeps the first elements. -/
def vecResize {α : Type} (cfg : Cfg) (v : List α) (n : UInt64) (dflt : α) : Outcome (List α) :=
  if n.toNat ≤ cfg.maxCount then
    .ok (v.take n.toNat ++ List.replicate (n.toNat - v.length) dflt)
  else .throw .alloc

/-- `v.emplace_back()` / `v.push_back(x)`. -/
def vecPush {α : Type} (cfg : Cfg) (v : List α) (x : α) : Outcome (List α) :=
  if v.length < cfg.maxCount then .ok (v ++ [x]) else .throw .alloc

/-- `v.reserve(n)`. -/
def vecReserve (cfg : Cfg) (n : UInt64) : Outcome Unit :=
  if n.toNat ≤ cfg.maxCount then .ok () else .throw .alloc

/-- `v[i]` as a value: an index past the end is undefined behaviour. -/
def vecGet {α : Type} (v : List α) (i : UInt64) : Outcome α :=
  match v[i.toNat]? with
  | some a => .ok a
  | none => .ub

/-- `v[i] = x`. -/
def vecSet {α : Type} (v : List α) (i : UInt64) (x : α) : Outcome (List α) :=
  if i.toNat < v.length then .ok (v.set i.toNat x) else .ub

/-- `v.back() = f(v.back())`: undefined on an empty vector. -/
def vecModifyBack {α : Type} (v : List α) (f : α → Outcome α) : Outcome (List α) :=
  match v.getLast? with
  | none => .ub
  | some a => do return v.dropLast ++ [← f a]

/-- `for (size_t i = i₀; i < i₀ + n; i++) st = f(i, st);` without stream access. -/
def loopO {σ : Type} (f : Nat → σ → Outcome σ) : (n : Nat) → (i : Nat) → σ → Outcome σ
  | 0, _, st => .ok st
  | n + 1, i, st => do
    let st ← f i st
    loopO f n (i + 1) st

/-- `for (auto& x : v) st = f(x, st);` -/
def foldO {α σ : Type} (f : α → σ → Outcome σ) : List α → σ → Outcome σ
  | [], st => .ok st
  | a :: as, st => do
    let st ← f a st
    foldO f as st

/-- `v.resize(n)` in the loader. -/
def resize {α : Type} (cfg : Cfg) (v : List α) (n : UInt64) (dflt : α) : Rd (List α) :=
  Rd.lift (vecResize cfg v n dflt)

/-- `v.emplace_back()` / `v.push_back(x)` in the loader. -/
def pushBack {α : Type} (cfg : Cfg) (v : List α) (x : α) : Rd (List α) :=
  Rd.lift (vecPush cfg v x)

/-- `in >> v[i]` for a vector of doubles: an index past the end is undefined behaviour. -/
def inDoubleAt (i : UInt64) (v : List Double) : Rd (List Double) :=
  match v[i.toNat]? with
  | none => Rd.ub
  | some old => do return v.set i.toNat (← inDouble old)

/-- `in >> v[i]` for a vector of `size_t`. -/
def inSizeAt (i : UInt64) (v : List UInt64) : Rd (List UInt64) :=
  match v[i.toNat]? with
  | none => Rd.ub
  | some old => do return v.set i.toNat (← inSize old)

end MshIO
