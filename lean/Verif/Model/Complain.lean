import Verif.Model.Validate

/-!
# The message `validate_spec` throws (`src/validate_spec.cpp`)

`validateSpec` (`Model/Validate.lean`) leaves out the text of the `CorruptData` it throws.  Here the same code is
modelled with the text; `C82_same_outcome` shows that the two agree on everything else.
-/

namespace MshIO

/-- How `validate_spec` ends: it returns, it throws `CorruptData` whose `what()` is `msg`
(`include/mshio/exception.h`), or it is undefined. -/
inductive Told where
  | fine
  | corrupt (msg : Bytes)
  | ub
  deriving DecidableEq, Repr

/-- Statements in sequence: the second runs if the first is completed. -/
def Told.andThen : Told → Told → Told
  | .fine, b => b
  | a, _ => a

/-- The local lambda `ASSERT` (`src/validate_spec.cpp:13-17`). -/
def tellV (r : Bool) (msg : Bytes) : Told := if r then .fine else .corrupt msg

/-- A `for` loop: one turn for each member of the list, in order. -/
def tellAll {α : Type} (f : α → Told) : List α → Told
  | [] => .fine
  | a :: l => (f a).andThen (tellAll f l)

/-- Loop over `block.tags` (`src/validate_spec.cpp:31-34`), reached only when
`tags.size() == num_nodes_in_block`. -/
def tellTags (lo hi : UInt64) (tags : List UInt64) : Told :=
  tellAll (fun t => (tellV (lo ≤ t) (b! "Node tag < min node tag.")).andThen (tellV (t ≤ hi) (b! "Node tag > max node tag."))) tags

/-- Body of the node block loop (`src/validate_spec.cpp:28-43`); `3 + entity_dim` may overflow. -/
def tellNodeBlock (n : Nodes) (b : NodeBlock) : Told :=
  (tellV (sizeU b.tags == b.numNodesInBlock) (b! "Inconsist number of node tags.")).andThen <|
  (tellTags n.minNodeTag n.maxNodeTag b.tags).andThen <|
  if 0 < b.parametric then
    if 2 ^ 31 ≤ 3 + b.entityDim.toInt then .ub
    else tellV (sizeU b.data == b.numNodesInBlock * sizeOfInt (3 + b.entityDim)) (b! "Invalide node data size.")
  else tellV (sizeU b.data == b.numNodesInBlock * 3) (b! "Invalid node data size.")

/-- Body of the entry loop (`src/validate_spec.cpp:49-57`) for entry `t` at place `j`. -/
def tellEntry (n : Nodes) (e : Elements) (per : UInt64) (x : UInt64 × Nat) : Told :=
  if UInt64.ofNat x.2 % per = 0 then
    (tellV (e.minElementTag ≤ x.1) (b! "Element tag < min element tag.")).andThen
      (tellV (x.1 ≤ e.maxElementTag) (b! "Element tag > max element tag."))
  else
    (tellV (n.minNodeTag ≤ x.1) (b! "Node tag in element < min node tag.")).andThen
      (tellV (x.1 ≤ n.maxNodeTag) (b! "Node tag in element > max node tag."))

/-- Body of the element block loop (`src/validate_spec.cpp:45-58`); integer division and remainder
by zero are undefined. -/
def tellElementBlock (n : Nodes) (e : Elements) (b : ElementBlock) : Told :=
  if b.numElementsInBlock = 0 then .ub
  else
    let per := sizeU b.data / b.numElementsInBlock
    if per = 0 then .ub
    else (tellV (sizeU b.data % per == 0) (b! "Invalid element data size.")).andThen (tellAll (tellEntry n e per) b.data.zipIdx)

/-- `validate_spec` (`src/validate_spec.cpp:8-59`).  The block loops run to `num_entity_blocks`,
which was just checked to be the vector size. -/
def tellSpec (s : MshSpec) : Told :=
  (tellV (s.nodes.numEntityBlocks == sizeU s.nodes.entityBlocks) (b! "Inconsistent entity blocks in nodes.")).andThen <|
  (tellV (s.elements.numEntityBlocks == sizeU s.elements.entityBlocks) (b! "Inconsistent entity blocks in elements.")).andThen <|
  (tellV (s.nodes.minNodeTag ≤ s.nodes.maxNodeTag) (b! "Min node tag > max node tag.")).andThen <|
  (tellV (s.elements.minElementTag ≤ s.elements.maxElementTag) (b! "Min element tag > max element tag.")).andThen <|
  (tellAll (tellNodeBlock s.nodes) s.nodes.entityBlocks).andThen <|
  tellAll (tellElementBlock s.nodes s.elements) s.elements.entityBlocks

end MshIO
