import Verif.Model.ElementUtils

/-!
# `validate_spec` (`src/validate_spec.cpp`)
-/

namespace MshIO

/-- The local lambda `ASSERT` (`src/validate_spec.cpp:13-17`). -/
def checkV (c : Bool) : Outcome Unit := if c then .ok () else .throw .corruptData

/-- Loop over `block.tags` (`src/validate_spec.cpp:31-34`), reached only when
`tags.size() == num_nodes_in_block`. -/
def validateTags (lo hi : UInt64) (tags : List UInt64) : Outcome Unit :=
  foldO (fun t _ => do checkV (lo ≤ t); checkV (t ≤ hi)) tags ()

/-- Body of the node block loop (`src/validate_spec.cpp:28-43`). -/
def validateNodeBlock (n : Nodes) (b : NodeBlock) : Outcome Unit := do
  checkV (sizeU b.tags == b.numNodesInBlock)
  validateTags n.minNodeTag n.maxNodeTag b.tags
  if 0 < b.parametric then
    if 2 ^ 31 ≤ 3 + b.entityDim.toInt then .ub
    else checkV (sizeU b.data == b.numNodesInBlock * sizeOfInt (3 + b.entityDim))
  else checkV (sizeU b.data == b.numNodesInBlock * 3)

/-- Body of the entry loop (`src/validate_spec.cpp:49-57`). -/
def validateElementEntry (n : Nodes) (e : Elements) (per : UInt64) (b : ElementBlock) (j : Nat) :
    Outcome Unit := do
  let t ← vecGet b.data (UInt64.ofNat j)
  if UInt64.ofNat j % per = 0 then do
    checkV (e.minElementTag ≤ t); checkV (t ≤ e.maxElementTag)
  else do
    checkV (n.minNodeTag ≤ t); checkV (t ≤ n.maxNodeTag)

/-- Body of the element block loop (`src/validate_spec.cpp:45-58`); integer division and remainder
by zero are undefined. -/
def validateElementBlock (n : Nodes) (e : Elements) (b : ElementBlock) : Outcome Unit :=
  if b.numElementsInBlock = 0 then .ub
  else
    let per := sizeU b.data / b.numElementsInBlock
    if per = 0 then .ub
    else do
      checkV (sizeU b.data % per == 0)
      loopO (fun j _ => validateElementEntry n e per b j) b.data.length 0 ()

/-- `validate_spec` (`src/validate_spec.cpp:8-59`).  The block loops run to `num_entity_blocks`,
which was just checked to be the vector size. -/
def validateSpec (s : MshSpec) : Outcome Unit := do
  checkV (s.nodes.numEntityBlocks == sizeU s.nodes.entityBlocks)
  checkV (s.elements.numEntityBlocks == sizeU s.elements.entityBlocks)
  checkV (s.nodes.minNodeTag ≤ s.nodes.maxNodeTag)
  checkV (s.elements.minElementTag ≤ s.elements.maxElementTag)
  foldO (fun b _ => validateNodeBlock s.nodes b) s.nodes.entityBlocks ()
  foldO (fun b _ => validateElementBlock s.nodes s.elements b) s.elements.entityBlocks ()

end MshIO
