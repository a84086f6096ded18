/-!
# Outcomes and bytes

Shared vocabulary of the model of `qnzhou/MshIO`.
-/

namespace MshIO

/-- A C++ `char` buffer / `std::string`: a sequence of bytes. -/
abbrev Bytes := List UInt8

/-- `b! "text"` is the list of bytes of the ASCII literal `text`
(a plain list of numerals after elaboration, so the kernel can compute with it). -/
macro "b! " s:str : term => do
  let bs := s.getString.toUTF8.toList
  let elems := bs.map (fun b => Lean.Syntax.mkNumLit (toString b.toNat))
  `(([$(elems.toArray),*] : List UInt8))

/-- The kinds of C++ exception that can leave a MshIO entry point.
Models `include/mshio/exception.h:8-45` (`InvalidFormat`, `UnsupportedFeature`, `CorruptData`),
`std::runtime_error` (`src/load_msh.cpp:74`, `src/save_msh.cpp:57`) and the
`std::length_error` / `std::bad_alloc` thrown by `std::vector` growth (one kind: `alloc`).
Simplification: exception messages are not modelled. -/
inductive Exc where
  | invalidFormat
  | unsupportedFeature
  | corruptData
  | alloc
  | runtimeError
  deriving DecidableEq, Repr

/-- What can come out of running a piece of the C++ code.
* `ok a`    – normal return;
* `throw e` – a C++ exception leaves the function;
* `abort`   – a failed `assert` (only in builds without `NDEBUG`);
* `ub`      – the execution performs an operation whose behaviour C++ leaves undefined
              (out-of-bounds `operator[]`, read of an uninitialised local, division by zero,
              signed overflow);
* `hang`    – a loop of the code never exits. -/
inductive Outcome (α : Type) where
  | ok (a : α)
  | throw (e : Exc)
  | abort
  | ub
  | hang
  deriving DecidableEq, Repr

namespace Outcome

/-- Sequential composition: anything but `ok` ends the execution. -/
@[inline] protected def bind {α β : Type} (x : Outcome α) (f : α → Outcome β) : Outcome β :=
  match x with
  | .ok a => f a
  | .throw e => .throw e
  | .abort => .abort
  | .ub => .ub
  | .hang => .hang

instance : Monad Outcome where
  pure := .ok
  bind := Outcome.bind

/-- Post-compose on the normal result. -/
def mapOk {α β : Type} (f : α → β) (x : Outcome α) : Outcome β := x.bind (fun a => .ok (f a))

end Outcome

end MshIO
