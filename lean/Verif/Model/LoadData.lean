import Verif.Model.LoadBasic

/-!
# Loading `$NodeData`, `$ElementData`, `$ElementNodeData`, `$Curves`, `$Patches`
-/

namespace MshIO

/-- `internal::load_data_header` (`src/load_msh_data.cpp:16-38`); the three counters are
uninitialised locals. -/
def loadDataHeader (cfg : Cfg) (h : DataHeader) : Rd DataHeader := do
  let ns ← useVar (← extractSize)
  let stringTags ← resize cfg h.stringTags ns []
  let stringTags ← forEach inQuoted stringTags
  let nr ← useVar (← extractSize)
  let realTags ← resize cfg h.realTags nr Double.zero
  let realTags ← forEach inDouble realTags
  let ni ← useVar (← extractSize)
  let intTags ← resize cfg h.intTags ni 0
  let intTags ← forEach inInt intTags
  assertGood cfg
  return { stringTags, realTags, intTags }

/-- `internal::v41::load_data_entry` (`src/load_msh_data.cpp:41-60`). -/
def loadDataEntryBinary41 (cfg : Cfg) (fields : UInt64) (isElementNode : Bool) (e : DataEntry) :
    Rd DataEntry := do
  let tag ← useVar (← readIntVar none)
  if isElementNode then do
    let npe ← readInt e.numNodesPerElement
    let data ← resize cfg e.data (fields * sizeOfInt npe) Double.zero
    let data ← readDoubles data
    return { tag := sizeOfInt tag, numNodesPerElement := npe, data }
  else do
    let data ← resize cfg e.data fields Double.zero
    let data ← readDoubles data
    return { e with tag := sizeOfInt tag, data }

/-- `internal::v22::load_data_entry` (`src/load_msh_data.cpp:64-80`). -/
def loadDataEntryBinary22 (cfg : Cfg) (fields : UInt64) (isElementNode : Bool) (e : DataEntry) :
    Rd DataEntry := do
  let tag ← useVar (← readIntVar none)
  if isElementNode then do
    let npe ← useVar (← readIntVar none)
    let data ← resize cfg e.data (fields * sizeOfInt npe) Double.zero
    let data ← readDoubles data
    return { tag := sizeOfInt tag, numNodesPerElement := npe, data }
  else do
    let data ← resize cfg e.data fields Double.zero
    let data ← readDoubles data
    return { e with tag := sizeOfInt tag, data }

/-- Body of the ASCII entry loop (`src/load_msh_data.cpp:113-130`). -/
def loadDataEntryAscii (cfg : Cfg) (fields : UInt64) (isElementNode : Bool) (e : DataEntry) :
    Rd DataEntry := do
  let tag ← inSize e.tag
  if isElementNode then do
    let npe ← inInt e.numNodesPerElement
    let data ← resize cfg e.data (fields * sizeOfInt npe) Double.zero
    let data ← loopN (fun j data =>
        loopN (fun k data => inDoubleAt (UInt64.ofNat j * fields + UInt64.ofNat k) data)
          fields.toNat 0 data)
      (sizeOfInt npe).toNat 0 data
    return { tag, numNodesPerElement := npe, data }
  else do
    let data ← resize cfg e.data fields Double.zero
    let data ← forEach inDouble data
    return { e with tag, data }

/-- `internal::load_data` (`src/load_msh_data.cpp:83-133`) on a fresh `Data`. -/
def loadData (cfg : Cfg) (f : MeshFormat) (isElementNode : Bool) : Rd Data := do
  let header ← loadDataHeader cfg {}
  match header.intTags with
  | _ :: fieldsTag :: numTag :: _ => do
    let fields := sizeOfInt fieldsTag
    let entries ← resize cfg [] (sizeOfInt numTag) {}
    if 0 < f.fileType then do
      eatWhiteSpace 1
      if f.version = b! "4.1" then do
        let entries ← forEach (loadDataEntryBinary41 cfg fields isElementNode) entries
        assertGood cfg
        return { header, entries }
      else if f.version = b! "2.2" then do
        let entries ← forEach (loadDataEntryBinary22 cfg fields isElementNode) entries
        assertGood cfg
        return { header, entries }
      else Rd.throw .invalidFormat
    else do
      let entries ← forEach (loadDataEntryAscii cfg fields isElementNode) entries
      assertGood cfg
      return { header, entries }
  | _ => Rd.throw .invalidFormat

/-- `load_node_data`, `load_element_data`, `load_element_node_data`
(`src/load_msh_data.cpp:138-160`): append a fresh `Data` and fill it. -/
def loadDataSection (cfg : Cfg) (f : MeshFormat) (isElementNode : Bool) (ds : List Data) :
    Rd (List Data) := do
  let ds ← pushBack cfg ds {}
  let d ← loadData cfg f isElementNode
  return ds.dropLast ++ [d]

/-- The counters of one curve (`src/load_msh_curves.cpp:18-23`, `:45-50`). -/
def loadCurveHeader (c : Curve) : Rd Curve := do
  let curveTag ← inSize c.curveTag
  let curveType ← inSize c.curveType
  let curveDegree ← inSize c.curveDegree
  let numControlPoints ← inSize c.numControlPoints
  let numKnots ← inSize c.numKnots
  let withWeights ← inSize c.withWeights
  return { curveTag, curveType, curveDegree, numControlPoints, numKnots, withWeights, data := c.data }

/-- Loop body of `load_curves_ascii` (`src/load_msh_curves.cpp:16-31`). -/
def loadCurveAscii (cfg : Cfg) (c : Curve) : Rd Curve := do
  let c ← loadCurveHeader c
  let data ← resize cfg c.data c.numEntries Double.zero
  let data ← forEach inDouble data
  return { c with data }

/-- Loop body of `load_curves_binary` (`src/load_msh_curves.cpp:43-57`). -/
def loadCurveBinary (cfg : Cfg) (c : Curve) : Rd Curve := do
  let c ← loadCurveHeader c
  eatWhiteSpace 1
  let data ← resize cfg c.data c.numEntries Double.zero
  let data ← readDoubles data
  return { c with data }

/-- `load_curves` (`src/load_msh_curves.cpp:8-71`); does nothing without the extension. -/
def loadCurves (cfg : Cfg) (f : MeshFormat) (cs : List Curve) : Rd (List Curve) :=
  if cfg.nanospline then do
    let n ← useVar (← extractSize)
    let cs ← resize cfg cs n {}
    if f.fileType = 0 then forEach (loadCurveAscii cfg) cs else forEach (loadCurveBinary cfg) cs
  else pure cs

/-- The counters of one patch (`src/load_msh_patches.cpp:18-25`, `:49-56`). -/
def loadPatchHeader (p : Patch) : Rd Patch := do
  let patchTag ← inSize p.patchTag
  let patchType ← inSize p.patchType
  let degreeU ← inSize p.degreeU
  let degreeV ← inSize p.degreeV
  let numControlPoints ← inSize p.numControlPoints
  let numUKnots ← inSize p.numUKnots
  let numVKnots ← inSize p.numVKnots
  let withWeights ← inSize p.withWeights
  return { patchTag, patchType, degreeU, degreeV, numControlPoints, numUKnots, numVKnots,
           withWeights, data := p.data }

/-- Loop body of `load_patches_ascii` (`src/load_msh_patches.cpp:16-35`). -/
def loadPatchAscii (cfg : Cfg) (p : Patch) : Rd Patch := do
  let p ← loadPatchHeader p
  let data ← resize cfg p.data p.numEntries Double.zero
  let data ← forEach inDouble data
  return { p with data }

/-- Loop body of `load_patches_binary` (`src/load_msh_patches.cpp:47-66`). -/
def loadPatchBinary (cfg : Cfg) (p : Patch) : Rd Patch := do
  let p ← loadPatchHeader p
  let data ← resize cfg p.data p.numEntries Double.zero
  eatWhiteSpace 1
  let data ← readDoubles data
  return { p with data }

/-- `load_patches` (`src/load_msh_patches.cpp:8-80`); does nothing without the extension. -/
def loadPatches (cfg : Cfg) (f : MeshFormat) (ps : List Patch) : Rd (List Patch) :=
  if cfg.nanospline then do
    let n ← useVar (← extractSize)
    let ps ← resize cfg ps n {}
    if f.fileType = 0 then forEach (loadPatchAscii cfg) ps else forEach (loadPatchBinary cfg) ps
  else pure ps

end MshIO
