import Verif.Spec.Sections
import Verif.Spec.Numeral
import Verif.Spec.Quoted

/-!
# Specification: text files of version 4.1 by any program

A text file is a sequence of items.  What the items of each section are is the file format
(<https://gmsh.info/doc/texinfo/gmsh.html#MSH-file-format>); how an item is spelled is up to the program that writes the file.
-/

namespace MshIO

/-- One thing a text file says: a whole number, a number, a name, or a fixed word. -/
inductive Item where
  | whole (z : ℤ)
  | real (d : Double)
  | name (n : Bytes)
  | word (w : Bytes)

/-- The ways to spell an item.  A whole number may have a sign of either kind and zeros in front.  A number that stands for the double `d` is any numeral whose nearest double is `d`
(a zero has the sign of the numeral).  A name is a bare word or in quotes with any characters escaped. -/
inductive Item.Spelled : Item → Bytes → Prop
  | whole {z s ds} : ds ≠ [] → signValue s * digitsValue ds = z → Spelled (.whole z) (signText s ++ digitsText ds)
  | real {d : Double} {n : Numeral} : n.Proper → InRange n.value → Nearest n.value d → d.neg = (n.sign == some true) → Spelled (.real d) n.text
  | name {n text : Bytes} : NameText text n → Spelled (.name n) text
  | word {w} : Spelled (.word w) w

/-- An `int`. -/
def Item.int (v : Int32) : Item := .whole v.toInt
/-- A `size_t`. -/
def Item.size (v : UInt64) : Item := .whole v.toNat
/-- The number of elements of a list. -/
def Item.count {α : Type} (v : List α) : Item := .whole v.length

/-- Dimension, tag and name. -/
def PhysicalGroup.items (g : PhysicalGroup) : List Item := [.int g.dim, .int g.tag, .name g.name]

/-- A list of `int`s after their number. -/
def countedItems (v : List Int32) : List Item := .count v :: v.map .int

/-- Tag, coordinates, physical groups. -/
def PointEntity.items (p : PointEntity) : List Item := .int p.tag :: .real p.x :: .real p.y :: .real p.z :: countedItems p.physicalGroupTags

/-- Tag, bounding box, physical groups, boundary. -/
def BoxEntity.items (p : BoxEntity) : List Item :=
  .int p.tag :: .real p.minX :: .real p.minY :: .real p.minZ :: .real p.maxX :: .real p.maxY :: .real p.maxZ :: (countedItems p.physicalGroupTags ++ countedItems p.boundaryTags)

/-- The numbers of points, curves, surfaces and volumes, then these. -/
def Entities.items (e : Entities) : List Item :=
  .count e.points :: .count e.curves :: .count e.surfaces :: .count e.volumes :: (e.points.flatMap PointEntity.items ++ (e.curves.flatMap BoxEntity.items ++
      (e.surfaces.flatMap BoxEntity.items ++ e.volumes.flatMap BoxEntity.items)))

/-- Dimension and tag of the entity, whether the nodes are parametric, number of nodes; all tags; all coordinates. -/
def NodeBlock.items (b : NodeBlock) : List Item :=
  .int b.entityDim :: .int b.entityTag :: .int b.parametric :: .size b.numNodesInBlock :: (b.tags.map .size ++ b.data.map .real)

/-- Number of blocks, number of nodes, least and greatest tag; the blocks. -/
def Nodes.items (n : Nodes) : List Item :=
  .size n.numEntityBlocks :: .size n.numNodes :: .size n.minNodeTag :: .size n.maxNodeTag :: n.entityBlocks.flatMap NodeBlock.items

/-- Dimension and tag of the entity, type and number of elements; the tag and nodes of each. -/
def ElementBlock.items (b : ElementBlock) : List Item :=
  .int b.entityDim :: .int b.entityTag :: .int b.elementType :: .size b.numElementsInBlock :: b.data.map .size

/-- Number of blocks, number of elements, least and greatest tag; the blocks. -/
def Elements.items (n : Elements) : List Item :=
  .size n.numEntityBlocks :: .size n.numElements :: .size n.minElementTag :: .size n.maxElementTag :: n.entityBlocks.flatMap ElementBlock.items

/-- Tag, number of nodes (only for element-node data), values. -/
def DataEntry.items (isElementNode : Bool) (e : DataEntry) : List Item :=
  .size e.tag :: ((if isElementNode then [.int e.numNodesPerElement] else []) ++ e.data.map .real)

/-- String tags, real tags and integer tags, each list after its number; the entries. -/
def Data.items (isElementNode : Bool) (d : Data) : List Item :=
  .count d.header.stringTags :: (d.header.stringTags.map .name ++
    (.count d.header.realTags :: (d.header.realTags.map .real ++
      (.count d.header.intTags :: (d.header.intTags.map .int ++ d.entries.flatMap (DataEntry.items isElementNode))))))

/-- Tag, type, degree, number of control points, number of knots, whether there are weights; the numbers. -/
def Curve.items (c : Curve) : List Item :=
  .size c.curveTag :: .size c.curveType :: .size c.curveDegree :: .size c.numControlPoints :: .size c.numKnots :: .size c.withWeights :: c.data.map .real

/-- Tag, type, two degrees, number of control points, two numbers of knots, whether there are weights; the numbers. -/
def Patch.items (c : Patch) : List Item :=
  .size c.patchTag :: .size c.patchType :: .size c.degreeU :: .size c.degreeV :: .size c.numControlPoints :: .size c.numUKnots :: .size c.numVKnots :: .size c.withWeights :: c.data.map .real

/-- The parts of a text file of version 4.1: the sections MshIO knows, sections it does not know, and words between sections. -/
inductive Part where
  | format
  | names (groups : List PhysicalGroup)
  | entities (e : Entities)
  | nodes (n : Nodes)
  | elements (n : Elements)
  | nodeData (d : Data)
  | elementData (d : Data)
  | elementNodeData (d : Data)
  | splines (version : Bytes)
  | curves (cs : List Curve)
  | patches (ps : List Patch)
  | other (name : Bytes) (body : List Bytes)
  | stray (w : Bytes)

namespace Part

/-- The name of the section. -/
def name : Part → Bytes
  | format => b! "MeshFormat"
  | names _ => b! "PhysicalNames"
  | entities _ => b! "Entities"
  | nodes _ => b! "Nodes"
  | elements _ => b! "Elements"
  | nodeData _ => b! "NodeData"
  | elementData _ => b! "ElementData"
  | elementNodeData _ => b! "ElementNodeData"
  | splines _ => b! "NanoSplineFormat"
  | curves _ => b! "Curves"
  | patches _ => b! "Patches"
  | other n _ => n
  | stray _ => []

/-- What is between the first and the last line of the section. -/
def body : Part → List Item
  | format => [.word (b! "4.1"), .whole 0, .whole 8]
  | names groups => .count groups :: groups.flatMap PhysicalGroup.items
  | entities e => e.items
  | nodes n => n.items
  | elements n => n.items
  | nodeData d => d.items false
  | elementData d => d.items false
  | elementNodeData d => d.items true
  | splines v => [.word v]
  | curves cs => .count cs :: cs.flatMap Curve.items
  | patches ps => .count ps :: ps.flatMap Patch.items
  | other _ ws => ws.map .word
  | stray _ => []

/-- All of it. -/
def items (p : Part) : List Item :=
  match p with
  | stray w => [.word w]
  | _ => .word (b! "$" ++ p.name) :: (p.body ++ [.word (b! "$End" ++ p.name)])

/-- What it adds to the mesh. -/
def add (p : Part) (s : MshSpec) : MshSpec :=
  match p with
  | format => { s with meshFormat := ⟨b! "4.1", 0, 8⟩ }
  | names groups => { s with physicalGroups := groups }
  | entities e => { s with entities := e }
  | nodes n => { s with nodes := n }
  | elements n => { s with elements := n }
  | nodeData d => { s with nodeData := s.nodeData ++ [d] }
  | elementData d => { s with elementData := s.elementData ++ [d] }
  | elementNodeData d => { s with elementNodeData := s.elementNodeData ++ [d] }
  | splines v => { s with nanosplineVersion := v }
  | curves cs => { s with curves := cs }
  | patches ps => { s with patches := ps }
  | other _ _ => s
  | stray _ => s

/-- There may be several of this kind in a file: headers, data sections, unknown sections, words between sections. -/
def Repeats : Part → Prop
  | names _ | entities _ | nodes _ | elements _ | curves _ | patches _ => False
  | _ => True

/-- Sections that only builds with the extension read. -/
def Extension : Part → Prop
  | curves _ | patches _ => True
  | _ => False

/-- The same in files of version 2.2. -/
def Common : Part → Prop
  | format | entities _ | nodes _ | elements _ => False
  | _ => True

/-- A section that can be in a file: its counters agree with its lists, the lists are not too long for memory, only element-node data has numbers of nodes, the version of the extension
is a word; an unknown section has a name MshIO does not know and the body does not contain its last line; a word between sections does not start with `$`. -/
structure Fits (cfg : Cfg) (p : Part) : Prop where
  ok : (p.add {}).Ok
  fits : (p.add {}).Fits cfg
  parametric : cfg.asserts = true → ∀ b ∈ (p.add {}).nodes.entityBlocks, 0 ≤ b.parametric.toInt ∧ b.parametric.toInt ≤ 3
  plain : ∀ d ∈ (p.add {}).nodeData ++ (p.add {}).elementData, ∀ e ∈ d.entries, e.numNodesPerElement = 0
  extension : p.Extension → cfg.nanospline = true
  version : Word (p.add {}).nanosplineVersion
  other : ∀ n ws, p = .other n ws → n ∉ knownSections cfg.nanospline ∧ (∀ c ∈ n, isSpace c = false) ∧ ∀ w ∈ ws, Word w ∧ w ≠ b! "$End" ++ n
  stray : ∀ w, p = .stray w → Word w ∧ ¬ b! "$" <+: w

end Part

/-- The mesh a file consisting of these parts describes. -/
def meshOf (parts : List Part) : MshSpec := parts.foldl (fun s p => p.add s) {}

/-- The files that describe the parts: the items spelled in any way, separated by any white space.  After the last word there need not be any. -/
def TextFile (parts : List Part) (file : Bytes) : Prop :=
  ∃ (lead : Bytes) (words : List (Bytes × Bytes)), file = Spaced lead words ∧ Blank lead ∧
    (∀ q ∈ words, Blank q.2) ∧ (∀ q ∈ words.dropLast, q.2 ≠ []) ∧ List.Forall₂ Item.Spelled (parts.flatMap Part.items) (words.map Prod.fst)

end MshIO
