import Mathlib.Logic.Relation
import Verif.Model.Load

/-!
# Specification: executions of `load_msh`

The two unbounded loops of `src/load_msh.cpp` as transition relations on (value of the loop
variables, stream), without any bound on the number of rounds.
-/

namespace MshIO

/-- There is an infinite execution of the loop `R` that starts in `x`. -/
def Endless {α : Type} (R : α → α → Prop) (x : α) : Prop :=
  ∃ f : Nat → α, f 0 = x ∧ ∀ n, R (f n) (f (n + 1))

/-- One complete round of `while (!in.eof() && buf != flag) in >> buf;` (`src/load_msh.cpp:21-27`). -/
def FwdIter (flag : Bytes) (a b : Bytes × Stream) : Prop :=
  a.2.eof = false ∧ a.1 ≠ flag ∧ inString a.1 a.2 = .ok b

/-- One complete round of the main `while (!in.eof())` loop (`src/load_msh.cpp:34-65`). -/
def MainIter (cfg : Cfg) (a b : MshSpec × Stream) : Prop :=
  a.2.eof = false ∧ loadRound cfg a.1 a.2 = .ok b

/-- The main loop arrives, at the start of a round, with the spec and stream `x`. -/
def Arrives (cfg : Cfg) (s : Stream) (x : MshSpec × Stream) : Prop :=
  Relation.ReflTransGen (MainIter cfg) ({}, s) x

/-- `a` ends at a section boundary: reading the bytes `a`, the main loop arrives at the start of a round
with `spec` loaded, the stream still good, and nothing but white space left of `a`. -/
def Boundary (cfg : Cfg) (a : Bytes) (spec : MshSpec) : Prop :=
  ∃ w, (∀ c ∈ w, isSpace c = true) ∧ Arrives cfg (Stream.ofBytes a) (spec, ⟨w, false, false⟩)

/-- The names of the sections `load_msh` knows (`src/load_msh.cpp:39-60`); the last two are read only by
builds with the extension. -/
def knownSections (ext : Bool) : List Bytes :=
  [b! "MeshFormat", b! "PhysicalNames", b! "Entities", b! "Nodes", b! "Elements", b! "NodeData",
   b! "ElementData", b! "ElementNodeData", b! "NanoSplineFormat"] ++
  if ext then [b! "Curves", b! "Patches"] else []

end MshIO
