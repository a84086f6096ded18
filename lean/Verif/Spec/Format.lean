import Verif.Spec.Layout
import Verif.Spec.Quoted
import Verif.Spec.File22

/-!
# Specification: MSH files line by line and byte by byte

The layout of version 4.1 and 2.2 files as the Gmsh reference manual ("MSH file format", legacy "MSH file format
version 2") describes it, and the layout of the NanoSpline sections, written down without reference to the code
that saves or loads them.
-/

namespace MshIO

/-! ## Numbers -/

/-- A natural number in decimal. -/
def natText (n : Nat) : Bytes := (Nat.toDigits 10 n).map fun c => UInt8.ofNat c.toNat

/-- An integer in decimal. -/
def intText (i : Int) : Bytes := if i < 0 then b! "-" ++ natText i.natAbs else natText i.natAbs

/-- `k` bytes of a number, the least significant one first. -/
def le (k n : Nat) : Bytes := (List.range k).map fun i => UInt8.ofNat (n / 256 ^ i % 256)

/-- A 32-bit integer in two's complement. -/
def le32 (i : Int32) : Bytes := le 4 (i.toInt % 2 ^ 32).toNat

/-- A 64-bit number. -/
def le64 (n : UInt64) : Bytes := le 8 n.toNat

/-- A double. -/
def leDouble (d : Double) : Bytes := le 8 d.bits.toNat

/-- The low 32 bits of a 64-bit number. -/
def leLow32 (n : UInt64) : Bytes := le 4 (n.toNat % 2 ^ 32)

/-! ## Sections -/

/-- `$X`, the lines of the section, `$EndX`. -/
def sectionLines (name : Bytes) (body : List (List Bytes)) : List (List Bytes) :=
  [b! "$" ++ name] :: (body ++ [[b! "$End" ++ name]])

/-- Present only if the condition holds. -/
def onlyIf {α : Type} (c : Prop) [Decidable c] (x : List α) : List α := if c then x else []

/-- There is an entity. -/
abbrev Entities.Any (e : Entities) : Prop := e.points ≠ [] ∨ e.curves ≠ [] ∨ e.surfaces ≠ [] ∨ e.volumes ≠ []

/-- Words on a line, one space between them. -/
def textLine : List Bytes → Bytes
  | [] => b! "\n"
  | [w] => w ++ b! "\n"
  | w :: ws => w ++ b! " " ++ textLine ws

/-! ## Text -/

/-- A physical group: dimension, tag, quoted name. -/
def groupWords (g : PhysicalGroup) : List Bytes := [intText g.dim.toInt, intText g.tag.toInt, quoted g.name]

/-- A counted list of tags. -/
def tagWords (v : List Int32) : List Bytes := natText v.length :: v.map fun t => intText t.toInt

/-- A point: tag, coordinates, physical tags. -/
def pointWords (P : Fmt) (p : PointEntity) : List Bytes :=
  intText p.tag.toInt :: [p.x, p.y, p.z].map (fmtDouble P) ++ tagWords p.physicalGroupTags

/-- A curve, surface or volume: tag, least corner, greatest corner, physical tags, tags of bounding entities. -/
def boxWords (P : Fmt) (b : BoxEntity) : List Bytes :=
  intText b.tag.toInt :: [b.minX, b.minY, b.minZ, b.maxX, b.maxY, b.maxZ].map (fmtDouble P) ++
    tagWords b.physicalGroupTags ++ tagWords b.boundaryTags

/-- Numbers of points, curves, surfaces, volumes; then the points, curves, surfaces, volumes, one on a line. -/
def entitiesLines (P : Fmt) (e : Entities) : List (List Bytes) :=
  [natText e.points.length, natText e.curves.length, natText e.surfaces.length, natText e.volumes.length] ::
    (e.points.map (pointWords P) ++ e.curves.map (boxWords P) ++ e.surfaces.map (boxWords P) ++ e.volumes.map (boxWords P))

/-- The list cut into `n` rows of length `k`. -/
def rows {α : Type} (k n : Nat) (v : List α) : List (List α) := (List.range n).map fun i => (v.drop (i * k)).take k

/-- A block of nodes: dimension and tag of its entity, whether there are parametric coordinates, number of nodes;
then all tags, one on a line; then the coordinates, one node on a line. -/
def nodeBlockLines (P : Fmt) (b : NodeBlock) : List (List Bytes) :=
  [intText b.entityDim.toInt, intText b.entityTag.toInt, intText b.parametric.toInt, natText b.tags.length] ::
    (b.tags.map (fun t => [natText t.toNat]) ++ (rows b.coords b.tags.length b.data).map fun r => r.map (fmtDouble P))

/-- Number of blocks, number of nodes, least tag, greatest tag; then the blocks. -/
def nodes41Lines (P : Fmt) (n : Nodes) : List (List Bytes) :=
  [natText n.entityBlocks.length, natText n.numNodes.toNat, natText n.minNodeTag.toNat, natText n.maxNodeTag.toNat] ::
    n.entityBlocks.flatMap (nodeBlockLines P)

/-- A block of elements: dimension and tag of its entity, element type, number of elements; then tag and nodes of
every element. -/
def elementBlockLines (b : ElementBlock) : List (List Bytes) :=
  [intText b.entityDim.toInt, intText b.entityTag.toInt, intText b.elementType.toInt, natText b.numElementsInBlock.toNat] ::
    b.list.map fun e => natText e.tag.toNat :: e.nodes.map fun t => natText t.toNat

/-- Number of blocks, number of elements, least tag, greatest tag; then the blocks. -/
def elements41Lines (n : Elements) : List (List Bytes) :=
  [natText n.entityBlocks.length, natText n.numElements.toNat, natText n.minElementTag.toNat, natText n.maxElementTag.toNat] ::
    n.entityBlocks.flatMap elementBlockLines

/-- The head of a data section: string tags, real tags, integer tags, each list after its length. -/
def dataHeadWords (P : Fmt) (h : DataHeader) : List Bytes :=
  natText h.stringTags.length :: h.stringTags.map quoted ++
  natText h.realTags.length :: h.realTags.map (fmtDouble P) ++
  natText h.intTags.length :: h.intTags.map fun t => intText t.toInt

/-- An entry of a data section: tag of node or element, in `$ElementNodeData` the number of nodes, the values. -/
def dataEntryWords (P : Fmt) (elementNode : Bool) (e : DataEntry) : List Bytes :=
  natText e.tag.toNat :: onlyIf (elementNode = true) [intText e.numNodesPerElement.toInt] ++ e.data.map (fmtDouble P)

/-- A data section: the words of the head one on a line, the entries one on a line. -/
def dataLines (P : Fmt) (name : Bytes) (elementNode : Bool) (d : Data) : List (List Bytes) :=
  sectionLines name ((dataHeadWords P d.header).map (fun w => [w]) ++ d.entries.map (dataEntryWords P elementNode))

/-- The head of a curve: tag, type, degree, numbers of control points and knots, whether there are weights. -/
def curveHeadWords (c : Curve) : List Bytes :=
  [c.curveTag, c.curveType, c.curveDegree, c.numControlPoints, c.numKnots, c.withWeights].map fun n => natText n.toNat

/-- The head of a patch: tag, type, degrees, numbers of control points and of knots, whether there are weights. -/
def patchHeadWords (c : Patch) : List Bytes :=
  [c.patchTag, c.patchType, c.degreeU, c.degreeV, c.numControlPoints, c.numUKnots, c.numVKnots, c.withWeights].map
    fun n => natText n.toNat

/-- Control points, three numbers or (with weights) four on a line; then knots, one on a line. -/
def controlLines (P : Fmt) (controlPoints weights : UInt64) (data : List Double) : List (List Bytes) :=
  let k := if weights = 0 then 3 else 4
  (rows k controlPoints.toNat data).map (fun r => r.map (fmtDouble P)) ++
    (data.drop (controlPoints.toNat * k)).map fun x => [fmtDouble P x]

/-- The data sections and the sections of the extension: the same in both versions. -/
def tailLines (ext : Bool) (P : Fmt) (s : MshSpec) : List (List Bytes) :=
  s.nodeData.flatMap (dataLines P (b! "NodeData") false) ++
  s.elementData.flatMap (dataLines P (b! "ElementData") false) ++
  s.elementNodeData.flatMap (dataLines P (b! "ElementNodeData") true) ++
  onlyIf (ext = true) (sectionLines (b! "NanoSplineFormat") [[s.nanosplineVersion]] ++
    onlyIf (s.curves ≠ []) (sectionLines (b! "Curves") ([natText s.curves.length] ::
      s.curves.flatMap fun c => curveHeadWords c :: controlLines P c.numControlPoints c.withWeights c.data)) ++
    onlyIf (s.patches ≠ []) (sectionLines (b! "Patches") ([natText s.patches.length] ::
      s.patches.flatMap fun c => patchHeadWords c :: controlLines P c.numControlPoints c.withWeights c.data)))

/-- The physical groups: the same in both versions. -/
def namesLines (s : MshSpec) : List (List Bytes) :=
  onlyIf (s.physicalGroups ≠ []) (sectionLines (b! "PhysicalNames")
    ([natText s.physicalGroups.length] :: s.physicalGroups.map groupWords))

/-- A version 4.1 text file: lines of words. -/
def lines41 (ext : Bool) (P : Fmt) (s : MshSpec) : List (List Bytes) :=
  sectionLines (b! "MeshFormat") [[b! "4.1", b! "0", b! "8"]] ++ namesLines s ++
  onlyIf s.entities.Any (sectionLines (b! "Entities") (entitiesLines P s.entities)) ++
  onlyIf (s.nodes.numNodes ≠ 0) (sectionLines (b! "Nodes") (nodes41Lines P s.nodes)) ++
  onlyIf (s.elements.numElements ≠ 0) (sectionLines (b! "Elements") (elements41Lines s.elements)) ++
  tailLines ext P s

/-- A node in a version 2.2 text file: tag and coordinates. -/
def node22Words (P : Fmt) (n : MeshNode) : List Bytes := natText n.tag.toNat :: [n.x, n.y, n.z].map (fmtDouble P)

/-- An element in a version 2.2 text file: tag, type, the number of tags which is one, the entity, the nodes. -/
def element22Words (e : MeshElem) : List Bytes :=
  [natText e.tag.toNat, intText e.type.toInt, b! "1", intText e.entity.toInt] ++ e.nodes.map fun t => natText t.toNat

/-- A version 2.2 text file: lines of words. -/
def lines22 (ext : Bool) (P : Fmt) (s : MshSpec) : List (List Bytes) :=
  sectionLines (b! "MeshFormat") [[b! "2.2", b! "0", intText s.meshFormat.dataSize.toInt]] ++ namesLines s ++
  onlyIf (s.nodes.numNodes ≠ 0) (sectionLines (b! "Nodes")
    ([natText s.nodes.list.length] :: s.nodes.list.map (node22Words P))) ++
  onlyIf (s.elements.numElements ≠ 0) (sectionLines (b! "Elements")
    ([natText s.elements.list.length] :: s.elements.list.map element22Words)) ++
  tailLines ext P s

/-! ## Bytes -/

/-- A counted list of tags. -/
def tagBytes (v : List Int32) : Bytes := le 8 v.length ++ v.flatMap le32

/-- A point. -/
def pointBytes (p : PointEntity) : Bytes :=
  le32 p.tag ++ [p.x, p.y, p.z].flatMap leDouble ++ tagBytes p.physicalGroupTags

/-- A curve, surface or volume. -/
def boxBytes (b : BoxEntity) : Bytes :=
  le32 b.tag ++ [b.minX, b.minY, b.minZ, b.maxX, b.maxY, b.maxZ].flatMap leDouble ++
    tagBytes b.physicalGroupTags ++ tagBytes b.boundaryTags

/-- The entities. -/
def entitiesBytes (e : Entities) : Bytes :=
  le 8 e.points.length ++ le 8 e.curves.length ++ le 8 e.surfaces.length ++ le 8 e.volumes.length ++
    e.points.flatMap pointBytes ++ e.curves.flatMap boxBytes ++ e.surfaces.flatMap boxBytes ++ e.volumes.flatMap boxBytes

/-- A block of nodes. -/
def nodeBlockBytes (b : NodeBlock) : Bytes :=
  le32 b.entityDim ++ le32 b.entityTag ++ le32 b.parametric ++ le 8 b.tags.length ++
    b.tags.flatMap le64 ++ b.data.flatMap leDouble

/-- The nodes. -/
def nodes41Bytes (n : Nodes) : Bytes :=
  le 8 n.entityBlocks.length ++ le64 n.numNodes ++ le64 n.minNodeTag ++ le64 n.maxNodeTag ++
    n.entityBlocks.flatMap nodeBlockBytes

/-- A block of elements. -/
def elementBlockBytes (b : ElementBlock) : Bytes :=
  le32 b.entityDim ++ le32 b.entityTag ++ le32 b.elementType ++ le64 b.numElementsInBlock ++ b.data.flatMap le64

/-- The elements. -/
def elements41Bytes (n : Elements) : Bytes :=
  le 8 n.entityBlocks.length ++ le64 n.numElements ++ le64 n.minElementTag ++ le64 n.maxElementTag ++
    n.entityBlocks.flatMap elementBlockBytes

/-- An entry of a data section: 32 bits of the tag, in `$ElementNodeData` the number of nodes, the values. -/
def dataEntryBytes (elementNode : Bool) (e : DataEntry) : Bytes :=
  leLow32 e.tag ++ onlyIf (elementNode = true) (le32 e.numNodesPerElement) ++ e.data.flatMap leDouble

/-- A data section: the head is text, one word on a line, also in binary files. -/
def dataBytes (P : Fmt) (elementNode : Bool) (d : Data) : Bytes :=
  (dataHeadWords P d.header).flatMap (fun w => textLine [w]) ++ d.entries.flatMap (dataEntryBytes elementNode)

/-- The data sections and the sections of the extension, whose heads are lines of text: the same in both
versions.  Names and bodies of the sections. -/
def tailSections (ext : Bool) (P : Fmt) (s : MshSpec) : List (Bytes × Bytes) :=
  s.nodeData.map (fun d => (b! "NodeData", dataBytes P false d)) ++
  s.elementData.map (fun d => (b! "ElementData", dataBytes P false d)) ++
  s.elementNodeData.map (fun d => (b! "ElementNodeData", dataBytes P true d)) ++
  onlyIf (ext = true) ([(b! "NanoSplineFormat", textLine [s.nanosplineVersion])] ++
    onlyIf (s.curves ≠ []) [(b! "Curves", textLine [natText s.curves.length] ++
      s.curves.flatMap fun c => textLine (curveHeadWords c) ++ c.data.flatMap leDouble)] ++
    onlyIf (s.patches ≠ []) [(b! "Patches", textLine [natText s.patches.length] ++
      s.patches.flatMap fun c => textLine (patchHeadWords c) ++ c.data.flatMap leDouble)])

/-- The physical groups: text in binary files, too. -/
def namesSections (s : MshSpec) : List (Bytes × Bytes) :=
  onlyIf (s.physicalGroups ≠ []) [(b! "PhysicalNames",
    textLine [natText s.physicalGroups.length] ++ s.physicalGroups.flatMap fun g => textLine (groupWords g))]

/-- A version 4.1 binary file; the number 1 in the first section shows the order of the bytes. -/
def sections41 (ext : Bool) (P : Fmt) (s : MshSpec) : List (Bytes × Bytes) :=
  [(b! "MeshFormat", textLine [b! "4.1", b! "1", b! "8"] ++ le 4 1)] ++ namesSections s ++
  onlyIf s.entities.Any [(b! "Entities", entitiesBytes s.entities)] ++
  onlyIf (s.nodes.numNodes ≠ 0) [(b! "Nodes", nodes41Bytes s.nodes)] ++
  onlyIf (s.elements.numElements ≠ 0) [(b! "Elements", elements41Bytes s.elements)] ++
  tailSections ext P s

/-- A node in a version 2.2 binary file. -/
def node22Bytes (n : MeshNode) : Bytes := leLow32 n.tag ++ [n.x, n.y, n.z].flatMap leDouble

/-- An element in a version 2.2 binary file: tag, the entity as its only tag, nodes. -/
def element22Bytes (e : MeshElem) : Bytes := leLow32 e.tag ++ le32 e.entity ++ e.nodes.flatMap leLow32

/-- A block of elements in a version 2.2 binary file: type, number of elements, the number of tags which is one,
the elements. -/
def elementBlock22Bytes (b : ElementBlock) : Bytes :=
  le32 b.elementType ++ le 4 b.list.length ++ le 4 1 ++ b.list.flatMap element22Bytes

/-- A version 2.2 binary file. -/
def sections22 (ext : Bool) (P : Fmt) (s : MshSpec) : List (Bytes × Bytes) :=
  [(b! "MeshFormat", textLine [b! "2.2", b! "1", intText s.meshFormat.dataSize.toInt] ++ le 4 1)] ++ namesSections s ++
  onlyIf (s.nodes.numNodes ≠ 0) [(b! "Nodes",
    textLine [natText s.nodes.list.length] ++ s.nodes.list.flatMap node22Bytes)] ++
  onlyIf (s.elements.numElements ≠ 0) [(b! "Elements",
    textLine [natText s.elements.list.length] ++ s.elements.entityBlocks.flatMap elementBlock22Bytes)] ++
  tailSections ext P s

/-! ## Binary files of sections -/

/-- White space around the end marker of a section: some before it, some after it. -/
structure Margin where
  before : Bytes
  after : Bytes

/-- Sections between their markers, with white space around the end markers. -/
def sectionsFile (parts : List ((Bytes × Bytes) × Margin)) : Bytes :=
  parts.flatMap fun p => b! "$" ++ p.1.1 ++ b! "\n" ++ p.1.2 ++ p.2.before ++ b! "$End" ++ p.1.1 ++ p.2.after

/-- Nothing before the end marker, a line break after it. -/
def Margin.tight : Margin := ⟨[], b! "\n"⟩

end MshIO
