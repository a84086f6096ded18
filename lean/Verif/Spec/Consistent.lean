import Verif.Model.MshSpec
import Verif.Model.Cfg

/-!
# Specification: what a sensible `MshSpec` is

Plain descriptions a user of the library would give, independent of the loader and the saver.
-/

namespace MshIO

/-- The table of supported element types in `/repo/README.md` (section "Supported element types"):
dimension and number of nodes. -/
def readmeElement : Int → Option (Nat × Nat)
  | 1 => some (1, 2)  -- 2-node line
  | 2 => some (2, 3)  -- 3-node triangle
  | 3 => some (2, 4)  -- 4-node quad
  | 4 => some (3, 4)  -- 4-node tetrahedron
  | 5 => some (3, 8)  -- 8-node hexahedron
  | 6 => some (3, 6)  -- 6-node prism
  | 7 => some (3, 5)  -- 5-node pyramid
  | 8 => some (1, 3)  -- 3-node second order line
  | 9 => some (2, 6)  -- 6-node second order triangle
  | 10 => some (2, 9)  -- 9-node second order quad
  | 11 => some (3, 10)  -- 10-node second order tetrahedron
  | 12 => some (3, 27)  -- 27-node second order hexahedron
  | 13 => some (3, 18)  -- 18-node second order prism
  | 14 => some (3, 14)  -- 14-node second order pyramid
  | 15 => some (0, 1)  -- 1-node point
  | 16 => some (2, 8)  -- 8-node second order quadrangle
  | 17 => some (3, 20)  -- 20-node second order hexahedron
  | 18 => some (3, 15)  -- 15-node second order prism
  | 19 => some (3, 13)  -- 13-node second order pyramid
  | 20 => some (2, 9)  -- 9-node third order incomplete triangle
  | 21 => some (2, 10)  -- 10-node third order triangle
  | 22 => some (2, 12)  -- 12-node fourth order incomplete triangle
  | 23 => some (2, 15)  -- 15-node fourth order triangle
  | 24 => some (2, 15)  -- 15-node fifth order incomplete triangle
  | 25 => some (2, 21)  -- 21-node fifth order complete triangle
  | 26 => some (1, 4)  -- 4-node third order edge
  | 27 => some (1, 5)  -- 5-node fourth order edge
  | 28 => some (1, 6)  -- 6-node fifth order edge
  | 29 => some (3, 20)  -- 20-node third order tetrahedron
  | 30 => some (3, 35)  -- 35-node fourth order tetrahedron
  | 31 => some (3, 56)  -- 56-node fifth order tetrahedron
  | _ => none

/-- Number of nodes of an element type, from the README. -/
def mshNodes (t : Int32) : Option Nat := (readmeElement t.toInt).map Prod.snd

/-- Dimension of an element type, from the README. -/
def mshDim (t : Int32) : Option Nat := (readmeElement t.toInt).map Prod.fst

/-- Coordinates stored per node of a block: x, y, z and, for parametric nodes, one parameter per
dimension of the entity. -/
def NodeBlock.coords (b : NodeBlock) : Nat :=
  if b.parametric = 1 then 3 + b.entityDim.toInt.toNat else 3

/-- The vectors of a node block have the sizes its counters announce. -/
structure NodeBlock.Ok (b : NodeBlock) : Prop where
  dim : b.parametric = 1 → 0 ≤ b.entityDim.toInt ∧ b.entityDim.toInt < 2 ^ 31 - 3
  tags : b.tags.length = b.numNodesInBlock.toNat
  data : b.data.length = b.numNodesInBlock.toNat * b.coords

/-- An element block has a known type and one tag plus the type's nodes per element. -/
structure ElementBlock.Ok (b : ElementBlock) : Prop where
  data : ∃ n, mshNodes b.elementType = some n ∧
    b.data.length = b.numElementsInBlock.toNat * (n + 1)

/-- A data section: at least three integer tags, the second being the number of fields and the third
the number of entries; every entry has the announced number of values. -/
structure Data.Ok (isElementNode : Bool) (d : Data) : Prop where
  header : ∃ t0 fields num more, d.header.intTags = t0 :: fields :: num :: more ∧
    num.toInt = d.entries.length ∧ 0 ≤ fields.toInt ∧
    ∀ e ∈ d.entries, if isElementNode
      then 0 ≤ e.numNodesPerElement.toInt ∧
        (e.data.length : Int) = fields.toInt * e.numNodesPerElement.toInt
      else (e.data.length : Int) = fields.toInt

/-- A curve holds its control points (3 or 4 numbers each) and knots. -/
def Curve.Ok (c : Curve) : Prop :=
  c.data.length = c.numControlPoints.toNat * (if c.withWeights = 0 then 3 else 4) + c.numKnots.toNat

/-- A patch holds its control points (3 or 4 numbers each) and knots. -/
def Patch.Ok (p : Patch) : Prop :=
  p.data.length = p.numControlPoints.toNat * (if p.withWeights = 0 then 3 else 4) +
    p.numUKnots.toNat + p.numVKnots.toNat

/-- The counters of a spec agree with its vectors. -/
structure MshSpec.Ok (s : MshSpec) : Prop where
  nodeBlocks : s.nodes.entityBlocks.length = s.nodes.numEntityBlocks.toNat
  node : ∀ b ∈ s.nodes.entityBlocks, b.Ok
  elementBlocks : s.elements.entityBlocks.length = s.elements.numEntityBlocks.toNat
  element : ∀ b ∈ s.elements.entityBlocks, b.Ok
  nodeData : ∀ d ∈ s.nodeData, d.Ok false
  elementData : ∀ d ∈ s.elementData, d.Ok false
  elementNodeData : ∀ d ∈ s.elementNodeData, d.Ok true
  curve : ∀ c ∈ s.curves, c.Ok
  patch : ∀ p ∈ s.patches, p.Ok

/-- The sizes of all vectors in a data section. -/
def Data.sizes (d : Data) : List Nat :=
  d.header.stringTags.length :: d.header.realTags.length :: d.header.intTags.length ::
    d.entries.length :: d.entries.map (·.data.length)

/-- The sizes of all vectors in a spec. -/
def MshSpec.sizes (s : MshSpec) : List Nat :=
  [s.physicalGroups.length, s.entities.points.length, s.entities.curves.length,
   s.entities.surfaces.length, s.entities.volumes.length, s.nodes.entityBlocks.length,
   s.elements.entityBlocks.length, s.nodeData.length, s.elementData.length,
   s.elementNodeData.length, s.curves.length, s.patches.length] ++
  s.entities.points.map (·.physicalGroupTags.length) ++
  (s.entities.curves ++ s.entities.surfaces ++ s.entities.volumes).flatMap
    (fun b => [b.physicalGroupTags.length, b.boundaryTags.length]) ++
  s.nodes.entityBlocks.flatMap (fun b => [b.tags.length, b.data.length]) ++
  s.elements.entityBlocks.map (·.data.length) ++
  (s.nodeData ++ s.elementData ++ s.elementNodeData).flatMap Data.sizes ++
  s.curves.map (·.data.length) ++ s.patches.map (·.data.length)

/-- Every vector of the spec can be allocated, and there are fewer than `2^31` physical groups
(the loader reads their number as an `int`). -/
structure MshSpec.Fits (cfg : Cfg) (s : MshSpec) : Prop where
  all : ∀ n ∈ s.sizes, n ≤ cfg.maxCount
  groups : s.physicalGroups.length < 2 ^ 31

/-- All values written as decimal text in the header of data sections. -/
def MshSpec.realTags (s : MshSpec) : List Double :=
  (s.nodeData ++ s.elementData ++ s.elementNodeData).flatMap (·.header.realTags)

/-- Tags of all data entries. -/
def MshSpec.dataTags (s : MshSpec) : List UInt64 :=
  (s.nodeData ++ s.elementData ++ s.elementNodeData).flatMap (fun d => d.entries.map (·.tag))

/-- Every double of the spec. -/
def MshSpec.doubles (s : MshSpec) : List Double :=
  s.entities.points.flatMap (fun p => [p.x, p.y, p.z]) ++
  (s.entities.curves ++ s.entities.surfaces ++ s.entities.volumes).flatMap
    (fun b => [b.minX, b.minY, b.minZ, b.maxX, b.maxY, b.maxZ]) ++
  s.nodes.entityBlocks.flatMap (·.data) ++
  s.realTags ++
  (s.nodeData ++ s.elementData ++ s.elementNodeData).flatMap
    (fun d => d.entries.flatMap (·.data)) ++
  s.curves.flatMap (·.data) ++ s.patches.flatMap (·.data)

/-! ## What a reloaded spec looks like -/

/-- A 64-bit tag squeezed through a 32-bit `int`: its low 32 bits, sign-extended. -/
def wrap32 (t : UInt64) : UInt64 :=
  if t.toNat % 2 ^ 32 < 2 ^ 31 then UInt64.ofNat (t.toNat % 2 ^ 32)
  else UInt64.ofNat (t.toNat % 2 ^ 32 + (2 ^ 64 - 2 ^ 32))

/-- Apply `t` to the entry tags, `f` to the real tags and `g` to the values of a data section; the
number of nodes per element is only stored for element-node data. -/
def Data.convert (isElementNode : Bool) (t : UInt64 → UInt64) (f g : Double → Double) (d : Data) :
    Data where
  header := { d.header with realTags := d.header.realTags.map f }
  entries := d.entries.map fun e =>
    { tag := t e.tag
      numNodesPerElement := if isElementNode then e.numNodesPerElement else 0
      data := e.data.map g }

/-- Apply `g` to the coordinates of a point entity. -/
def PointEntity.convert (g : Double → Double) (p : PointEntity) : PointEntity :=
  { p with x := g p.x, y := g p.y, z := g p.z }

/-- Apply `g` to the bounding box of an entity. -/
def BoxEntity.convert (g : Double → Double) (p : BoxEntity) : BoxEntity :=
  { p with minX := g p.minX, minY := g p.minY, minZ := g p.minZ,
           maxX := g p.maxX, maxY := g p.maxY, maxZ := g p.maxZ }

/-- The spec a v4.1 file written from `s` stands for: `t` is applied to data entry tags, `f` to real
tags, `g` to every other double.  A `$Nodes` (`$Elements`) section is only present when the node (element) count is positive;
curves, patches and the extension's version are only stored by builds with the extension. -/
def MshSpec.convert (ext : Bool) (t : UInt64 → UInt64) (f g : Double → Double) (s : MshSpec) :
    MshSpec where
  meshFormat := s.meshFormat
  nodes := if s.nodes.numNodes = 0 then {} else
    { s.nodes with entityBlocks := s.nodes.entityBlocks.map fun b => { b with data := b.data.map g } }
  elements := if s.elements.numElements = 0 then {} else s.elements
  entities :=
    { points := s.entities.points.map (·.convert g)
      curves := s.entities.curves.map (·.convert g)
      surfaces := s.entities.surfaces.map (·.convert g)
      volumes := s.entities.volumes.map (·.convert g) }
  physicalGroups := s.physicalGroups
  nodeData := s.nodeData.map (Data.convert false t f g)
  elementData := s.elementData.map (Data.convert false t f g)
  elementNodeData := s.elementNodeData.map (Data.convert true t f g)
  nanosplineVersion := if ext then s.nanosplineVersion else b! "1.0"
  curves := if ext then s.curves.map (fun c => { c with data := c.data.map g }) else []
  patches := if ext then s.patches.map (fun p => { p with data := p.data.map g }) else []

/-- The spec has nothing that a v4.1 file cannot express: an absent `$Nodes` (`$Elements`) section
stands for the default value, only element-node data has a number of nodes per element, and builds
without the extension have no curves, no patches and the default extension version. -/
structure MshSpec.Plain (ext : Bool) (s : MshSpec) : Prop where
  nodes : s.nodes.numNodes = 0 → s.nodes = {}
  elements : s.elements.numElements = 0 → s.elements = {}
  entries : ∀ d ∈ s.nodeData ++ s.elementData, ∀ e ∈ d.entries, e.numNodesPerElement = 0
  noExt : ext = false → s.curves = [] ∧ s.patches = [] ∧ s.nanosplineVersion = b! "1.0"

/-- A non-empty string without white space. -/
def Word (t : Bytes) : Prop := t ≠ [] ∧ ∀ c ∈ t, isSpace c = false

end MshIO
