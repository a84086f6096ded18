import Verif.Model.LoadNodes
import Verif.Model.LoadElements
import Verif.Model.LoadData
import Verif.Model.PostProcess

/-!
# `load_msh` (`src/load_msh.cpp`)

The two loops of this file can run forever in the C++ code.  They are modelled with a bound on the
number of rounds (`fuel`); running out of rounds is the outcome `hang`.  The bound used by
`forwardTo` and `loadMsh` is the number of unread bytes plus two.  `Props/Termination.lean` proves
that every larger bound gives the same outcome, so `hang` is returned exactly when the C++ loop
never exits.
-/

namespace MshIO

/-- Round-bounded `forward_to` (`src/load_msh.cpp:21-27`). -/
def forwardToFuel (flag : Bytes) : Nat → Bytes → Rd Unit
  | 0, _ => fun _ => .hang
  | fuel + 1, buf => fun s =>
    if s.eof || buf == flag then .ok ((), s)
    else (do
      let buf ← inString buf
      forwardToFuel flag fuel buf) s

/-- `forward_to` (`src/load_msh.cpp:21-27`). -/
def forwardTo (flag : Bytes) : Rd Unit := fun s => forwardToFuel flag (s.rem.length + 2) [] s

/-- `"$End" + buf.substr(1)` (`src/load_msh.cpp:38`). -/
def endMarker (buf : Bytes) : Bytes := b! "$End" ++ buf.drop 1

/-- The `if`/`else if` cascade of `load_msh` (`src/load_msh.cpp:39-63`); an unknown section only
produces a warning on `std::cerr` (left out here, modelled in `Model/Warn.lean`). -/
def loadSection (cfg : Cfg) (buf : Bytes) (spec : MshSpec) : Rd MshSpec :=
  if buf = b! "$MeshFormat" then do
    return { spec with meshFormat := ← loadMeshFormat spec.meshFormat }
  else if buf = b! "$Entities" then do
    return { spec with entities := ← loadEntities cfg spec.meshFormat spec.entities }
  else if buf = b! "$PhysicalNames" then do
    return { spec with physicalGroups := ← loadPhysicalGroups cfg spec.physicalGroups }
  else if buf = b! "$Nodes" then do
    return { spec with nodes := ← loadNodes cfg spec.meshFormat spec.nodes }
  else if buf = b! "$Elements" then do
    let (elements, entities) ← loadElements cfg spec.meshFormat spec.elements spec.entities
    return { spec with elements, entities }
  else if buf = b! "$NodeData" then do
    return { spec with nodeData := ← loadDataSection cfg spec.meshFormat false spec.nodeData }
  else if buf = b! "$ElementData" then do
    return { spec with elementData := ← loadDataSection cfg spec.meshFormat false spec.elementData }
  else if buf = b! "$ElementNodeData" then do
    return { spec with
      elementNodeData := ← loadDataSection cfg spec.meshFormat true spec.elementNodeData }
  else if buf = b! "$NanoSplineFormat" then do
    return { spec with nanosplineVersion := ← loadNanosplineFormat spec.nanosplineVersion }
  else if buf = b! "$Curves" then do
    return { spec with curves := ← loadCurves cfg spec.meshFormat spec.curves }
  else if buf = b! "$Patches" then do
    return { spec with patches := ← loadPatches cfg spec.meshFormat spec.patches }
  else pure spec

/-- One round of the main loop (`src/load_msh.cpp:34-65`). -/
def loadRound (cfg : Cfg) (spec : MshSpec) : Rd MshSpec := do
  let buf ← inString []
  match buf with
  | 36 :: _ => do
    let spec ← loadSection cfg buf spec
    forwardTo (endMarker buf)
    return spec
  | _ => return spec

/-- Round-bounded main loop of `load_msh` (`src/load_msh.cpp:34-65`). -/
def loadLoop (cfg : Cfg) : Nat → MshSpec → Rd MshSpec
  | 0, _ => fun _ => .hang
  | fuel + 1, spec => fun s =>
    if s.eof then .ok (spec, s)
    else (do
      let spec ← loadRound cfg spec
      loadLoop cfg fuel spec) s

/-- `load_msh(std::istream&)` (`src/load_msh.cpp:29-69`) on a stream in an arbitrary state. -/
def loadStream (cfg : Cfg) (s : Stream) : Outcome MshSpec :=
  match loadLoop cfg (s.rem.length + 2) {} s with
  | .ok (spec, _) => loadPostProcess cfg spec
  | .throw e => .throw e
  | .abort => .abort
  | .ub => .ub
  | .hang => .hang

/-- `load_msh(std::istream&)` on a freshly opened stream holding `file`. -/
def loadMsh (cfg : Cfg) (file : Bytes) : Outcome MshSpec := loadStream cfg (Stream.ofBytes file)

/-- `load_msh(const std::string&)` (`src/load_msh.cpp:71-78`); `none` = the file cannot be opened. -/
def loadFile (cfg : Cfg) (file : Option Bytes) : Outcome MshSpec :=
  match file with
  | none => .throw .runtimeError
  | some b => loadMsh cfg b

end MshIO
