import Verif.Spec.Format

/-!
# Specification: the report of `msh_inspect`

What a user of the example program expects to read about a mesh, line by line.  Every number of a list is followed by a
blank.
-/

namespace MshIO

/-- The words of a list, each followed by a blank. -/
def listed (ws : List Bytes) : Bytes := ws.flatMap fun w => w ++ b! " "

/-- The number of tags after a caption; on the next line the tags, if there are any. -/
def tagsReport (caption : Bytes) (v : List Int32) : List Bytes :=
  (caption ++ natText v.length) :: onlyIf (v ≠ []) [b! "    " ++ listed (v.map fun t => intText t.toInt)]

/-- Three numbers after a caption. -/
def tripleReport (P : Fmt) (caption : Bytes) (x y z : Double) : Bytes :=
  caption ++ fmtDouble P x ++ b! " " ++ fmtDouble P y ++ b! " " ++ fmtDouble P z

/-- A point. -/
def pointReport (P : Fmt) (p : PointEntity) : List Bytes :=
  (b! "  entity tag: " ++ intText p.tag.toInt) :: tripleReport P (b! "  entity coordinates: ") p.x p.y p.z ::
    tagsReport (b! "  Num physical groups: ") p.physicalGroupTags

/-- A curve, surface or volume, bounded by points, curves or surfaces. -/
def boxReport (P : Fmt) (bounds : Bytes) (p : BoxEntity) : List Bytes :=
  (b! "  entity tag: " ++ intText p.tag.toInt) ::
  tripleReport P (b! "  bounding box min: ") p.minX p.minY p.minZ ::
  tripleReport P (b! "  bounding box max: ") p.maxX p.maxY p.maxZ ::
    (tagsReport (b! "  Num physical groups: ") p.physicalGroupTags ++
      tagsReport (b! "  Num boundary " ++ bounds ++ b! ": ") p.boundaryTags)

/-- The entities. -/
def entitiesReport (P : Fmt) (e : Entities) : List Bytes :=
  (b! "Num point entities: " ++ natText e.points.length) :: e.points.flatMap (pointReport P) ++
  (b! "Num curve entities: " ++ natText e.curves.length) :: e.curves.flatMap (boxReport P (b! "points")) ++
  (b! "Num surface entities: " ++ natText e.surfaces.length) :: e.surfaces.flatMap (boxReport P (b! "curves")) ++
  (b! "Num volume entities: " ++ natText e.volumes.length) :: e.volumes.flatMap (boxReport P (b! "surfaces"))

/-- The physical groups. -/
def groupsReport (gs : List PhysicalGroup) : List Bytes :=
  (b! "Num physical groups: " ++ natText gs.length) :: gs.flatMap fun g =>
    [b! "  group dim: " ++ intText g.dim.toInt, b! "  group tag: " ++ intText g.tag.toInt, b! "  group name: " ++ quoted g.name]

/-- The first four lines of a block of nodes. -/
def nodeBlockHead (b : NodeBlock) : List Bytes :=
  [b! "  entity dim: " ++ intText b.entityDim.toInt, b! "  entity tag: " ++ intText b.entityTag.toInt,
   b! "  parametric: " ++ intText b.parametric.toInt, b! "  num nodes in block: " ++ natText b.tags.length]

/-- A block of nodes: after its head, tag and coordinates of every node, where a node has `k` coordinates. -/
def nodeBlockReport (P : Fmt) (k : Nat) (b : NodeBlock) : List Bytes :=
  nodeBlockHead b ++ List.zipWith (fun t r => b! "    " ++ natText t.toNat ++ b! ": " ++ listed (r.map (fmtDouble P)))
    b.tags (rows k b.tags.length b.data)

/-- The nodes; `width` tells the number of coordinates of a node. -/
def nodesReport (P : Fmt) (width : NodeBlock → Nat) (n : Nodes) : List Bytes :=
  [b! "Num nodes: " ++ natText n.numNodes.toNat, b! "Num node blocks: " ++ natText n.entityBlocks.length,
   b! "min node tag: " ++ natText n.minNodeTag.toNat, b! "max node tag: " ++ natText n.maxNodeTag.toNat] ++
    n.entityBlocks.flatMap fun b => nodeBlockReport P (width b) b

/-- A block of elements. -/
def elementBlockReport (b : ElementBlock) : List Bytes :=
  [b! "  entity dim: " ++ intText b.entityDim.toInt, b! "  entity tag: " ++ intText b.entityTag.toInt,
   b! "  entity type: " ++ intText b.elementType.toInt, b! "  num elements in block: " ++ natText b.numElementsInBlock.toNat] ++
    b.list.map fun e => b! "    " ++ natText e.tag.toNat ++ b! ": " ++ listed (e.nodes.map fun t => natText t.toNat)

/-- The elements. -/
def elementsReport (n : Elements) : List Bytes :=
  [b! "Num elements: " ++ natText n.numElements.toNat, b! "Num element blocks: " ++ natText n.entityBlocks.length,
   b! "min element tag: " ++ natText n.minElementTag.toNat, b! "max element tag: " ++ natText n.maxElementTag.toNat] ++
    n.entityBlocks.flatMap elementBlockReport

/-- A data section; `I` prints the integer tags. -/
def dataReport (P : Fmt) (I : Int32 → Bytes) (d : Data) : List Bytes :=
  [b! "Num string tags: " ++ natText d.header.stringTags.length, listed (d.header.stringTags.map quoted),
   b! "Num real tags: " ++ natText d.header.realTags.length, listed (d.header.realTags.map (fmtDouble P)),
   b! "Num int tags: " ++ natText d.header.intTags.length, listed (d.header.intTags.map I)] ++
    d.entries.map fun e => b! "  " ++ natText e.tag.toNat ++ b! ": " ++ listed (e.data.map (fmtDouble P))

/-- The report: entities, physical groups, nodes, elements, node data and element data. -/
def reportLines (P : Fmt) (I : Int32 → Bytes) (width : NodeBlock → Nat) (s : MshSpec) : List Bytes :=
  [b! "sizeof(int): 4", b! "sizeof(size_t) 8", b! "sizeof(double) 8"] ++ entitiesReport P s.entities ++
  groupsReport s.physicalGroups ++ nodesReport P width s.nodes ++ elementsReport s.elements ++
  onlyIf (s.nodeData ≠ []) (b! "Node data: " :: s.nodeData.flatMap (dataReport P I)) ++
  onlyIf (s.elementData ≠ []) (b! "Element data: " :: s.elementData.flatMap (dataReport P I))

/-- The number of columns that are actually printed of a node. -/
def shownColumns (b : NodeBlock) : Nat := (3 + b.parametric.toInt).toNat

/-- The blocks that can be printed: those without nodes, and those where the columns exist. -/
def NodeBlock.Printed (b : NodeBlock) : Prop :=
  b.tags = [] ∨ (-3 ≤ b.parametric.toInt ∧ b.parametric.toInt ≤ 1 ∧ (b.parametric = 1 → 1 ≤ b.entityDim.toInt))

instance (b : NodeBlock) : Decidable b.Printed := by unfold NodeBlock.Printed; infer_instance

/-- Lines of text. -/
def linesText (ls : List Bytes) : Bytes := ls.flatMap fun l => l ++ b! "\n"

end MshIO
