import Verif.Model.ElementUtils

/-!
# Post-processing after loading a v2.2 file (`src/load_msh_post_process.cpp`)
-/

namespace MshIO

/-- The first double loop body of `regroup_nodes_into_blocks`
(`src/load_msh_post_process.cpp:23-32`) for one element block: every node of every element of the
block gets the block's dimension and tag.  `st = (entity_dims, entity_tags)`. -/
def markBlock (minTag : UInt64) (b : ElementBlock) (st : List UInt64 × List UInt64) :
    Outcome (List UInt64 × List UInt64) := do
  let n ← nodesPerElement b.elementType
  loopO (fun i st => loopO (fun j st => do
      let t ← vecGet b.data (UInt64.ofNat i * (n + 1) + UInt64.ofNat j + 1)
      let idx := t - minTag
      let dims ← vecSet st.1 idx (sizeOfInt b.entityDim)
      let tags ← vecSet st.2 idx (sizeOfInt b.entityTag)
      return (dims, tags)) n.toNat 0 st)
    b.numElementsInBlock.toNat 0 st

/-- `node_blocks`, `curr_dim`, `curr_tag` (`src/load_msh_post_process.cpp:34-38`). -/
structure Regroup where
  blocks : List NodeBlock := []
  dim : UInt64 := sizeMax
  tag : UInt64 := sizeMax

/-- Body of the node loop (`src/load_msh_post_process.cpp:40-62`). -/
def regroupNode (cfg : Cfg) (minTag : UInt64) (dims tags : List UInt64) (b : NodeBlock)
    (i : Nat) (st : Regroup) : Outcome Regroup := do
  let i := UInt64.ofNat i
  let t ← vecGet b.tags i
  let idx := t - minTag
  let dim ← vecGet dims idx
  let tag ← vecGet tags idx
  let st ← if dim ≠ st.dim ∨ tag ≠ st.tag then do
      vecReserve cfg b.numNodesInBlock
      vecReserve cfg (b.numNodesInBlock * 3)
      let blocks ← vecPush cfg st.blocks { entityDim := intOfSize dim, entityTag := intOfSize tag }
      pure { blocks, dim, tag }
    else pure st
  if cfg.asserts && st.blocks.isEmpty then .abort
  else do
    let blocks ← vecModifyBack st.blocks (fun c => do
      let ts ← vecPush cfg c.tags t
      let d ← vecPush cfg c.data (← vecGet b.data (i * 3))
      let d ← vecPush cfg d (← vecGet b.data (i * 3 + 1))
      let d ← vecPush cfg d (← vecGet b.data (i * 3 + 2))
      return { c with tags := ts, data := d })
    return { st with blocks }

/-- `regroup_nodes_into_blocks` (`src/load_msh_post_process.cpp:12-70`). -/
def regroupNodes (cfg : Cfg) (nodes : Nodes) (elements : Elements) : Outcome Nodes := do
  let size := nodes.maxNodeTag - nodes.minNodeTag + 1
  let dims ← vecResize cfg [] size 0
  let tags ← vecResize cfg [] size 0
  let (dims, tags) ← foldO (markBlock nodes.minNodeTag) elements.entityBlocks (dims, tags)
  let st ← foldO (fun b st =>
      loopO (regroupNode cfg nodes.minNodeTag dims tags b) b.numNodesInBlock.toNat 0 st)
    nodes.entityBlocks {}
  let blocks := st.blocks.map (fun c => { c with numNodesInBlock := sizeU c.tags })
  return { nodes with entityBlocks := blocks, numEntityBlocks := sizeU blocks }

/-- `element_blocks`, `curr_dim`, `curr_tag`, `curr_element_type`
(`src/load_msh_post_process.cpp:76-79`). -/
structure RegroupE where
  blocks : List ElementBlock := []
  dim : UInt64 := 0
  tag : UInt64 := 0
  type : UInt64 := 0

/-- Body of the loop of `regroup_elements_into_blocks` (`src/load_msh_post_process.cpp:80-97`);
the `int` members are compared with the `size_t` locals after conversion. -/
def regroupElement (cfg : Cfg) (b : ElementBlock) (st : RegroupE) : Outcome RegroupE := do
  let st ← if sizeOfInt b.entityDim ≠ st.dim ∨ sizeOfInt b.entityTag ≠ st.tag ∨
      sizeOfInt b.elementType ≠ st.type then do
      let blocks ← vecPush cfg st.blocks
        { entityDim := b.entityDim, entityTag := b.entityTag, elementType := b.elementType }
      pure { blocks, dim := sizeOfInt b.entityDim, tag := sizeOfInt b.entityTag,
             type := sizeOfInt b.elementType }
    else pure st
  let blocks ← vecModifyBack st.blocks (fun c =>
    if c.data.length + b.data.length ≤ cfg.maxCount then
      .ok { c with numElementsInBlock := c.numElementsInBlock + b.numElementsInBlock
                   data := c.data ++ b.data }
    else .throw .alloc)
  return { st with blocks }

/-- `regroup_elements_into_blocks` (`src/load_msh_post_process.cpp:72-101`). -/
def regroupElements (cfg : Cfg) (elements : Elements) : Outcome Elements := do
  vecReserve cfg elements.numEntityBlocks
  let st ← foldO (regroupElement cfg) elements.entityBlocks {}
  return { elements with entityBlocks := st.blocks, numEntityBlocks := sizeU st.blocks }

/-- `load_msh_post_process` (`src/load_msh_post_process.cpp:105-111`). -/
def loadPostProcess (cfg : Cfg) (spec : MshSpec) : Outcome MshSpec :=
  if spec.meshFormat.version = b! "2.2" then do
    let nodes ← regroupNodes cfg spec.nodes spec.elements
    let elements ← regroupElements cfg spec.elements
    return { spec with nodes, elements }
  else .ok spec

end MshIO
