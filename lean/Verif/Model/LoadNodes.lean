import Verif.Model.LoadBasic

/-!
# Loading `$Nodes`
-/

namespace MshIO

/-- Body of the block loop of `v41::load_nodes_ascii` (`src/load_msh_nodes.cpp:26-50`). -/
def loadNodeBlockAscii41 (cfg : Cfg) (b : NodeBlock) : Rd NodeBlock := do
  let entityDim ← inInt b.entityDim
  let entityTag ← inInt b.entityTag
  let parametric ← inInt b.parametric
  let num ← inSize b.numNodesInBlock
  assertGood cfg
  let tags ← resize cfg b.tags num 0
  let tags ← forEach inSize tags
  assertGood cfg
  assertC cfg (0 ≤ parametric && parametric ≤ 3)
  let e ← Rd.lift (entriesPerNode parametric entityDim)
  let data ← resize cfg b.data (num * e) Double.zero
  let data ← loopN (fun j data =>
      loopN (fun k data => inDoubleAt (UInt64.ofNat j * e + UInt64.ofNat k) data) e.toNat 0 data)
    num.toNat 0 data
  assertGood cfg
  return { entityDim, entityTag, parametric, numNodesInBlock := num, tags, data }

/-- `v41::load_nodes_ascii` (`src/load_msh_nodes.cpp:17-51`). -/
def loadNodesAscii41 (cfg : Cfg) (n : Nodes) : Rd Nodes := do
  let numEntityBlocks ← inSize n.numEntityBlocks
  let numNodes ← inSize n.numNodes
  let minNodeTag ← inSize n.minNodeTag
  let maxNodeTag ← inSize n.maxNodeTag
  assertGood cfg
  let bs ← resize cfg n.entityBlocks numEntityBlocks {}
  let entityBlocks ← forEach (loadNodeBlockAscii41 cfg) bs
  return { numEntityBlocks, numNodes, minNodeTag, maxNodeTag, entityBlocks }

/-- Body of the block loop of `v41::load_nodes_binary` (`src/load_msh_nodes.cpp:63-83`).
After the two successful `resize` calls the byte counts of the two vector reads are exactly
`8 * tags.size()` and `8 * data.size()` (the counts stay below `2^60`). -/
def loadNodeBlockBinary41 (cfg : Cfg) (b : NodeBlock) : Rd NodeBlock := do
  let entityDim ← readInt b.entityDim
  let entityTag ← readInt b.entityTag
  let parametric ← readInt b.parametric
  let num ← readSize b.numNodesInBlock
  assertGood cfg
  let tags ← resize cfg b.tags num 0
  let tags ← readSizes tags
  assertGood cfg
  let e ← Rd.lift (entriesPerNode parametric entityDim)
  let data ← resize cfg b.data (num * e) Double.zero
  let data ← readDoubles data
  assertGood cfg
  return { entityDim, entityTag, parametric, numNodesInBlock := num, tags, data }

/-- `v41::load_nodes_binary` (`src/load_msh_nodes.cpp:53-84`). -/
def loadNodesBinary41 (cfg : Cfg) (n : Nodes) : Rd Nodes := do
  eatWhiteSpace 1
  let numEntityBlocks ← readSize n.numEntityBlocks
  let numNodes ← readSize n.numNodes
  let minNodeTag ← readSize n.minNodeTag
  let maxNodeTag ← readSize n.maxNodeTag
  assertGood cfg
  let bs ← resize cfg n.entityBlocks numEntityBlocks {}
  let entityBlocks ← forEach (loadNodeBlockBinary41 cfg) bs
  return { numEntityBlocks, numNodes, minNodeTag, maxNodeTag, entityBlocks }

/-- Tag range update after a v2.2 block (`src/load_msh_nodes.cpp:114-119`, `:147-152`).
Simplification: `std::min(a, *std::min_element(..))` is written as a fold starting from `a`;
for an empty block nothing changes in either form. -/
def updateTagRange (n : Nodes) (tags : List UInt64) : UInt64 × UInt64 :=
  (tags.foldl (fun a b => if b < a then b else a) n.minNodeTag,
   tags.foldl (fun a b => if a < b then b else a) n.maxNodeTag)

/-- `v22::load_nodes_ascii` (`src/load_msh_nodes.cpp:90-120`). -/
def loadNodesAscii22 (cfg : Cfg) (n : Nodes) : Rd Nodes := do
  let blocks ← pushBack cfg n.entityBlocks {}
  let num ← inSize 0
  assertGood cfg
  let tags ← resize cfg [] num (0 : UInt64)
  let data ← resize cfg [] (num * 3) Double.zero
  let (tags, data) ← loopN (fun i (tags, data) => do
      let i := UInt64.ofNat i
      let tags ← inSizeAt i tags
      let data ← inDoubleAt (i * 3) data
      let data ← inDoubleAt (i * 3 + 1) data
      let data ← inDoubleAt (i * 3 + 2) data
      assertGood cfg
      return (tags, data)) num.toNat 0 (tags, data)
  let (lo, hi) := updateTagRange n tags
  return {
    numEntityBlocks := n.numEntityBlocks + 1
    numNodes := n.numNodes + num
    minNodeTag := lo
    maxNodeTag := hi
    entityBlocks := blocks.dropLast ++ [{ numNodesInBlock := num, tags, data }] }

/-- Body of the node loop of `v22::load_nodes_binary` (`src/load_msh_nodes.cpp:139-145`):
`tag` is an uninitialised `int`, used right after the read; the coordinates are read straight into
`data[3i .. 3i+2]`. -/
def loadNodeBinary22 (cfg : Cfg) (i : Nat) (st : List UInt64 × List Double) :
    Rd (List UInt64 × List Double) := do
  assertGood cfg
  let tag ← useVar (← readIntVar none)
  let tags ← Rd.lift (vecSet st.1 (UInt64.ofNat i) (sizeOfInt tag))
  let x ← Rd.lift (vecGet st.2 (UInt64.ofNat i * 3))
  let y ← Rd.lift (vecGet st.2 (UInt64.ofNat i * 3 + 1))
  let z ← Rd.lift (vecGet st.2 (UInt64.ofNat i * 3 + 2))
  let c ← readDoubles [x, y, z]
  return (tags, st.2.take (3 * i) ++ c ++ st.2.drop (3 * i + 3))

/-- `v22::load_nodes_binary` (`src/load_msh_nodes.cpp:122-153`). -/
def loadNodesBinary22 (cfg : Cfg) (n : Nodes) : Rd Nodes := do
  let blocks ← pushBack cfg n.entityBlocks {}
  let num ← inSize 0
  assertGood cfg
  let tags ← resize cfg [] num (0 : UInt64)
  let data ← resize cfg [] (num * 3) Double.zero
  eatWhiteSpace 1
  let (tags, data) ← loopN (loadNodeBinary22 cfg) num.toNat 0 (tags, data)
  let (lo, hi) := updateTagRange n tags
  return {
    numEntityBlocks := n.numEntityBlocks + 1
    numNodes := n.numNodes + num
    minNodeTag := lo
    maxNodeTag := hi
    entityBlocks := blocks.dropLast ++ [{ numNodesInBlock := num, tags, data }] }

/-- `load_nodes` (`src/load_msh_nodes.cpp:157-181`). -/
def loadNodes (cfg : Cfg) (f : MeshFormat) (n : Nodes) : Rd Nodes :=
  let n := if n.entityBlocks.length = 0 then
      { n with minNodeTag := sizeMax, maxNodeTag := 0, numNodes := 0 } else n
  if f.version = b! "4.1" then
    if f.fileType = 0 then loadNodesAscii41 cfg n else loadNodesBinary41 cfg n
  else if f.version = b! "2.2" then
    if f.fileType = 0 then loadNodesAscii22 cfg n else loadNodesBinary22 cfg n
  else Rd.throw .unsupportedFeature

end MshIO
