import Verif.Model.Cfg

/-!
# Two builds of the library, or one build on two machines
-/

namespace MshIO

/-- `c` and `d` have the same features.  Assertions and memory may differ if `a` and `m` say so: then `d` is compiled with `NDEBUG`, and has at least as much memory. -/
structure Builds (a m : Bool) (c d : Cfg) : Prop where
  nanospline : c.nanospline = d.nanospline
  asserts : c.asserts = d.asserts ∨ a = true ∧ d.asserts = false
  memory : c.maxCount = d.maxCount ∨ m = true ∧ c.maxCount ≤ d.maxCount

/-- The outcome `x` is `y`, or a failed assertion (allowed by `a`), or an allocation that failed (allowed by `m`). -/
def StopsOr {α : Type} (a m : Bool) (x y : Outcome α) : Prop := (a = true ∧ x = .abort) ∨ (m = true ∧ x = .throw .alloc) ∨ x = y

end MshIO
