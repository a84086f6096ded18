import Verif.Model.LoadBasic

/-!
# Loading `$Elements`
-/

namespace MshIO

/-- Body of the block loop of `v41::load_elements_ascii` (`src/load_msh_elements.cpp:33-49`). -/
def loadElementBlockAscii41 (cfg : Cfg) (b : ElementBlock) : Rd ElementBlock := do
  let entityDim ← inInt b.entityDim
  let entityTag ← inInt b.entityTag
  let elementType ← inInt b.elementType
  let num ← inSize b.numElementsInBlock
  let n ← Rd.lift (nodesPerElement elementType)
  let data ← resize cfg b.data (num * (n + 1)) 0
  let data ← loopN (fun j data =>
      loopN (fun k data => inSizeAt (UInt64.ofNat j * (n + 1) + UInt64.ofNat k) data)
        (n.toNat + 1) 0 data)
    num.toNat 0 data
  assertGood cfg
  return { entityDim, entityTag, elementType, numElementsInBlock := num, data }

/-- `v41::load_elements_ascii` (`src/load_msh_elements.cpp:23-50`). -/
def loadElementsAscii41 (cfg : Cfg) (e : Elements) : Rd Elements := do
  let numEntityBlocks ← inSize e.numEntityBlocks
  let numElements ← inSize e.numElements
  let minElementTag ← inSize e.minElementTag
  let maxElementTag ← inSize e.maxElementTag
  assertGood cfg
  let bs ← resize cfg e.entityBlocks numEntityBlocks {}
  let entityBlocks ← forEach (loadElementBlockAscii41 cfg) bs
  return { numEntityBlocks, numElements, minElementTag, maxElementTag, entityBlocks }

/-- Body of the block loop of `v41::load_elements_binary` (`src/load_msh_elements.cpp:63-76`). -/
def loadElementBlockBinary41 (cfg : Cfg) (b : ElementBlock) : Rd ElementBlock := do
  let entityDim ← readInt b.entityDim
  let entityTag ← readInt b.entityTag
  let elementType ← readInt b.elementType
  let num ← readSize b.numElementsInBlock
  let n ← Rd.lift (nodesPerElement elementType)
  let data ← resize cfg b.data (num * (n + 1)) 0
  let data ← readSizes data
  assertGood cfg
  return { entityDim, entityTag, elementType, numElementsInBlock := num, data }

/-- `v41::load_elements_binary` (`src/load_msh_elements.cpp:52-77`). -/
def loadElementsBinary41 (cfg : Cfg) (e : Elements) : Rd Elements := do
  eatWhiteSpace 1
  let numEntityBlocks ← readSize e.numEntityBlocks
  let numElements ← readSize e.numElements
  let minElementTag ← readSize e.minElementTag
  let maxElementTag ← readSize e.maxElementTag
  assertGood cfg
  let bs ← resize cfg e.entityBlocks numEntityBlocks {}
  let entityBlocks ← forEach (loadElementBlockBinary41 cfg) bs
  return { numEntityBlocks, numElements, minElementTag, maxElementTag, entityBlocks }

/-! ## Version 2.2 -/

/-- `std::set<int>::insert` on the ascending list of members. -/
def setInsert (x : Int32) : List Int32 → List Int32
  | [] => [x]
  | y :: ys => if x < y then x :: y :: ys else if x = y then y :: ys else y :: setInsert x ys

/-- `std::map<int, std::set<int>>` as the list of entries in ascending key order. -/
abbrev PhysMap := List (Int32 × List Int32)

/-- `if (m.find(k) == m.end()) m[k] = {v}; else m[k].insert(v);`
(`src/load_msh_elements.cpp:145-150`, `:216-221`). -/
def physAdd (k v : Int32) : PhysMap → PhysMap
  | [] => [(k, [v])]
  | (k', vs) :: m =>
    if k < k' then (k, [v]) :: (k', vs) :: m
    else if k = k' then (k', setInsert v vs) :: m
    else (k', vs) :: physAdd k v m

/-- `create_entities` (`src/load_msh_elements.cpp:83-94`); `mk tag groups` is a
default-initialised entity with the two members set. -/
def createEntities {E : Type} (cfg : Cfg) (mk : Int32 → List Int32 → E) (m : PhysMap)
    (es : List E) : Outcome (List E) :=
  foldO (fun (k, vs) es => vecPush cfg es (mk k vs)) m es

/-- The four `create_entities` calls (`src/load_msh_elements.cpp:166-169`, `:247-250`). -/
def createAllEntities (cfg : Cfg) (maps : List PhysMap) (e : Entities) : Outcome Entities := do
  let box (t : Int32) (g : List Int32) : BoxEntity := { tag := t, physicalGroupTags := g }
  let points ← createEntities cfg (fun t g => { tag := t, physicalGroupTags := g })
    (← vecGet maps 0) e.points
  let curves ← createEntities cfg box (← vecGet maps 1) e.curves
  let surfaces ← createEntities cfg box (← vecGet maps 2) e.surfaces
  let volumes ← createEntities cfg box (← vecGet maps 3) e.volumes
  return { points, curves, surfaces, volumes }

/-- The part of both v2.2 element loops that turns the raw numbers of one element into a
one-element block and updates the physical-tag maps
(`src/load_msh_elements.cpp:135-163` and `:206-234`). -/
def makeElement22 (cfg : Cfg) (elementNum elementType : Int32) (tags nodeIds : List Int32)
    (blocks : List ElementBlock) (maps : List PhysMap) :
    Outcome (List ElementBlock × List PhysMap) := do
  let _ ← vecPush cfg blocks {}
  let dim ← getElementDim elementType
  let (entityTag, maps) ← match tags with
    | t0 :: t1 :: _ => do
      let m ← vecGet maps (sizeOfInt dim)
      let maps ← vecSet maps (sizeOfInt dim) (physAdd t1 t0 m)
      pure (t1, maps)
    | [t0] => pure (t0, maps)
    | [] => pure (1, maps)
  let _ ← vecResize cfg ([] : List UInt64) (UInt64.ofNat (nodeIds.length + 1)) 0
  let block : ElementBlock := {
    entityDim := dim, entityTag, elementType, numElementsInBlock := 1
    data := sizeOfInt elementNum :: nodeIds.map sizeOfInt }
  return (blocks ++ [block], maps)

/-- Local variables of `v22::load_elements_ascii` that live across loop iterations
(`src/load_msh_elements.cpp:108-113`) together with the members being updated. -/
structure Ascii22 where
  elementNum : Option Int32 := none
  elementType : Option Int32 := none
  numTags : Option Int32 := none
  tags : List Int32 := []
  nodeIds : List Int32 := []
  lo : UInt64
  hi : UInt64
  blocks : List ElementBlock
  maps : List PhysMap := [[], [], [], []]

/-- Body of the loop of `v22::load_elements_ascii` (`src/load_msh_elements.cpp:115-164`). -/
def loadElementAscii22 (cfg : Cfg) (st : Ascii22) : Rd Ascii22 := do
  let elementNum ← inIntVar st.elementNum
  let elementType ← inIntVar st.elementType
  let numTags ← inIntVar st.numTags
  let tags ← resize cfg st.tags (sizeOfInt (← useVar numTags)) 0
  let tags ← forEach inInt tags
  let et ← useVar elementType
  let n ← Rd.lift (nodesPerElement et)
  let nodeIds ← resize cfg st.nodeIds n 0
  let nodeIds ← forEach inInt nodeIds
  let en ← useVar elementNum
  let lo := if sizeOfInt en < st.lo then sizeOfInt en else st.lo
  let hi := if st.hi < sizeOfInt en then sizeOfInt en else st.hi
  let (blocks, maps) ← Rd.lift (makeElement22 cfg en et tags nodeIds st.blocks st.maps)
  return { elementNum, elementType, numTags, tags, nodeIds, lo, hi, blocks, maps }

/-- `v22::load_elements_ascii` (`src/load_msh_elements.cpp:97-170`). -/
def loadElementsAscii22 (cfg : Cfg) (e : Elements) (ents : Entities) : Rd (Elements × Entities) := do
  let num ← useVar (← extractSize)
  let st ← loopN (fun _ st => loadElementAscii22 cfg st) num.toNat 0
    { lo := e.minElementTag, hi := e.maxElementTag, blocks := e.entityBlocks }
  let ents ← Rd.lift (createAllEntities cfg st.maps ents)
  return ({
    numEntityBlocks := e.numEntityBlocks + num
    numElements := e.numElements + num
    minElementTag := st.lo
    maxElementTag := st.hi
    entityBlocks := st.blocks }, ents)

/-- State of the loops of `v22::load_elements_binary` (`src/load_msh_elements.cpp:179-184`). -/
structure Binary22 where
  tags : List Int32 := []
  nodeIds : List Int32 := []
  minTag : Int32 := 2147483647
  maxTag : Int32 := 0
  processed : UInt64 := 0
  blocks : List ElementBlock
  maps : List PhysMap := [[], [], [], []]

/-- Body of the inner loop of `v22::load_elements_binary` (`src/load_msh_elements.cpp:198-240`);
`elementId` is the local declared in the enclosing `while` body.
`4 * num_tags` is an `int` product. -/
def loadElementBinary22 (cfg : Cfg) (numElements : UInt64) (elementType numTags : Int32)
    (st : Option Int32 × Binary22) : Rd (Option Int32 × Binary22) := do
  let elementId ← readIntVar st.1
  if 2 ^ 31 ≤ 4 * numTags.toInt then Rd.ub
  else do
    let tags ← readInts st.2.tags
    let nodeIds ← readInts st.2.nodeIds
    let id ← useVar elementId
    let minTag := if id < st.2.minTag then id else st.2.minTag
    let maxTag := if st.2.maxTag < id then id else st.2.maxTag
    let (blocks, maps) ← Rd.lift (makeElement22 cfg id elementType tags nodeIds st.2.blocks st.2.maps)
    let processed := st.2.processed + 1
    if numElements < processed then Rd.throw .invalidFormat
    else return (elementId, { tags, nodeIds, minTag, maxTag, processed, blocks, maps })

/-- Body of the `while` loop of `v22::load_elements_binary` (`src/load_msh_elements.cpp:186-240`).
The inner loop compares `size_t i < int32_t num_elements_in_block` as `size_t`. -/
def loadElementGroupBinary22 (cfg : Cfg) (numElements : UInt64) (st : Binary22) : Rd Binary22 := do
  let elementType ← readIntVar none
  let numInBlock ← readIntVar none
  let numTags ← readIntVar none
  let nt ← useVar numTags
  let tags ← resize cfg st.tags (sizeOfInt nt) 0
  let et ← useVar elementType
  let n ← Rd.lift (nodesPerElement et)
  let nodeIds ← resize cfg st.nodeIds n 0
  let nb ← useVar numInBlock
  let (_, st) ← loopN (fun _ st => loadElementBinary22 cfg numElements et nt st)
    (sizeOfInt nb).toNat 0 (none, { st with tags, nodeIds })
  return st

/-- The `while (num_processed_elements != elements.num_elements)` loop
(`src/load_msh_elements.cpp:185-241`).  `fuel` is an upper bound on the number of rounds; running
out of it means `hang`.  The call below provides more rounds than the loop can make (every round
consumes 12 bytes or uses an uninitialised variable), which `Props` proves. -/
def loadElementGroups22 (cfg : Cfg) (numElements : UInt64) : Nat → Binary22 → Rd Binary22
  | 0, _ => fun _ => .hang
  | fuel + 1, st =>
    if st.processed = numElements then pure st
    else do
      let st ← loadElementGroupBinary22 cfg numElements st
      loadElementGroups22 cfg numElements fuel st

/-- `v22::load_elements_binary` (`src/load_msh_elements.cpp:172-251`). -/
def loadElementsBinary22 (cfg : Cfg) (e : Elements) (ents : Entities) : Rd (Elements × Entities) := do
  let numElements ← inSize e.numElements
  Rd.lift (vecReserve cfg numElements)
  eatWhiteSpace 1
  let st ← fun s =>
    loadElementGroups22 cfg numElements (s.rem.length + 2) { blocks := e.entityBlocks } s
  let ents ← Rd.lift (createAllEntities cfg st.maps ents)
  let lo := sizeOfInt st.minTag
  let hi := sizeOfInt st.maxTag
  return ({
    numEntityBlocks := sizeU st.blocks
    numElements
    minElementTag := if lo < e.minElementTag then lo else e.minElementTag
    maxElementTag := if e.maxElementTag < hi then hi else e.maxElementTag
    entityBlocks := st.blocks }, ents)

/-- `load_elements` (`src/load_msh_elements.cpp:255-279`). -/
def loadElements (cfg : Cfg) (f : MeshFormat) (e : Elements) (ents : Entities) :
    Rd (Elements × Entities) :=
  let e := if e.entityBlocks.length = 0 then
      { e with minElementTag := sizeMax, maxElementTag := 0 } else e
  if f.version = b! "4.1" then
    if f.fileType = 0 then do return (← loadElementsAscii41 cfg e, ents)
    else do return (← loadElementsBinary41 cfg e, ents)
  else if f.version = b! "2.2" then
    if f.fileType = 0 then loadElementsAscii22 cfg e ents else loadElementsBinary22 cfg e ents
  else Rd.throw .unsupportedFeature

end MshIO
