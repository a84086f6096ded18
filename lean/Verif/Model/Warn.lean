import Verif.Model.Load

/-!
# What `load_msh` writes to `std::cerr` (`src/load_msh.cpp`)

`Model/Load.lean` leaves out the warning about sections that are skipped.  Here the functions of that file that lead to it are modelled again with the bytes they write to `std::cerr`.
Simplified: `std::cerr` takes every byte.
-/

namespace MshIO

/-- A computation that reads from a stream and writes to `std::cerr`: the bytes written, and how it ends.  What was written stays written however it ends. -/
def RdE (α : Type) : Type := Stream → Bytes × Outcome (α × Stream)

namespace RdE

/-- Return without reading or writing. -/
protected def pure {α : Type} (a : α) : RdE α := fun s => ([], .ok (a, s))

/-- Sequencing. -/
protected def bind {α β : Type} (p : RdE α) (f : α → RdE β) : RdE β := fun s =>
  match p s with
  | (b, .ok (a, s')) => (b ++ (f a s').1, (f a s').2)
  | (b, .throw e) => (b, .throw e)
  | (b, .abort) => (b, .abort)
  | (b, .ub) => (b, .ub)
  | (b, .hang) => (b, .hang)

instance : Monad RdE where
  pure := RdE.pure
  bind := RdE.bind

/-- A computation that does not write to `std::cerr`. -/
def lift {α : Type} (p : Rd α) : RdE α := fun s => ([], p s)

/-- `std::cerr << b` -/
def cerr (b : Bytes) : RdE Unit := fun s => (b, .ok ((), s))

end RdE

/-- The words the `if`/`else if` cascade compares with (`src/load_msh.cpp:39-60`). -/
def cascade : List Bytes :=
  [b! "$MeshFormat", b! "$Entities", b! "$PhysicalNames", b! "$Nodes", b! "$Elements", b! "$NodeData", b! "$ElementData", b! "$ElementNodeData", b! "$NanoSplineFormat", b! "$Curves",
   b! "$Patches"]

/-- The `if`/`else if` cascade of `load_msh` (`src/load_msh.cpp:39-63`): the readers of the sections write nothing to `std::cerr`; the last `else` writes
`"Warning: skipping section \"" << buf << "\"" << std::endl`. -/
def loadSectionE (cfg : Cfg) (buf : Bytes) (spec : MshSpec) : RdE MshSpec :=
  if buf ∈ cascade then RdE.lift (loadSection cfg buf spec)
  else do
    RdE.cerr (b! "Warning: skipping section \"")
    RdE.cerr buf
    RdE.cerr (b! "\"")
    RdE.cerr (b! "\n")
    return spec

/-- One round of the main loop (`src/load_msh.cpp:34-65`). -/
def loadRoundE (cfg : Cfg) (spec : MshSpec) : RdE MshSpec := do
  let buf ← RdE.lift (inString [])
  match buf with
  | 36 :: _ => do
    let spec ← loadSectionE cfg buf spec
    RdE.lift (forwardTo (endMarker buf))
    return spec
  | _ => return spec

/-- Round-bounded main loop of `load_msh` (`src/load_msh.cpp:34-65`). -/
def loadLoopE (cfg : Cfg) : Nat → MshSpec → RdE MshSpec
  | 0, _ => fun _ => ([], .hang)
  | fuel + 1, spec => fun s =>
    if s.eof then ([], .ok (spec, s))
    else (do
      let spec ← loadRoundE cfg spec
      loadLoopE cfg fuel spec) s

/-- `load_msh(std::istream&)` (`src/load_msh.cpp:29-69`) on a stream in an arbitrary state: what it writes to `std::cerr`, and how it ends. -/
def loadStreamE (cfg : Cfg) (s : Stream) : Bytes × Outcome MshSpec :=
  match loadLoopE cfg (s.rem.length + 2) {} s with
  | (b, .ok (spec, _)) => (b, loadPostProcess cfg spec)
  | (b, .throw e) => (b, .throw e)
  | (b, .abort) => (b, .abort)
  | (b, .ub) => (b, .ub)
  | (b, .hang) => (b, .hang)

/-- `load_msh(std::istream&)` on a freshly opened stream holding `file`. -/
def loadMshE (cfg : Cfg) (file : Bytes) : Bytes × Outcome MshSpec := loadStreamE cfg (Stream.ofBytes file)

end MshIO
