import Verif.Spec.Shaped

/-!
# Specification: element families, and the sequence of sections in a written file
-/

namespace MshIO

/-! ## Element families -/

/-- Shapes of mesh elements. -/
inductive Family
  | point | line | triangle | quad | tetrahedron | hexahedron | prism | pyramid
  deriving DecidableEq, Repr

/-- Dimension of a shape. -/
def Family.dim : Family → Nat
  | point => 0
  | line => 1
  | triangle | quad => 2
  | tetrahedron | hexahedron | prism | pyramid => 3

/-- Nodes of a complete Lagrange element of order `p`. -/
def Family.nodes (p : Nat) : Family → Nat
  | point => 1
  | line => p + 1
  | triangle => (p + 1) * (p + 2) / 2
  | quad => (p + 1) ^ 2
  | tetrahedron => (p + 1) * (p + 2) * (p + 3) / 6
  | hexahedron => (p + 1) ^ 3
  | prism => (p + 1) * ((p + 1) * (p + 2) / 2)
  | pyramid => (p + 1) * (p + 2) * (2 * p + 3) / 6

/-- Corners and edges of a shape. -/
def Family.corners : Family → Nat × Nat
  | point => (1, 0)
  | line => (2, 1)
  | triangle => (3, 3)
  | quad => (4, 4)
  | tetrahedron => (4, 6)
  | hexahedron => (8, 12)
  | prism => (6, 9)
  | pyramid => (5, 8)

/-- Nodes of an incomplete element of order `p`: the corners and `p - 1` nodes on every edge. -/
def Family.edgeNodes (p : Nat) (f : Family) : Nat := f.corners.1 + (p - 1) * f.corners.2

/-- The element types of the MSH format: shape, order, and whether it is complete
(`MSH_LIN_2`, `MSH_TRI_3`, ... in the Gmsh reference manual, "MSH file format"). -/
def gmshElement : Int → Option (Family × Nat × Bool)
  | 1 => some (.line, 1, true)
  | 2 => some (.triangle, 1, true)
  | 3 => some (.quad, 1, true)
  | 4 => some (.tetrahedron, 1, true)
  | 5 => some (.hexahedron, 1, true)
  | 6 => some (.prism, 1, true)
  | 7 => some (.pyramid, 1, true)
  | 8 => some (.line, 2, true)
  | 9 => some (.triangle, 2, true)
  | 10 => some (.quad, 2, true)
  | 11 => some (.tetrahedron, 2, true)
  | 12 => some (.hexahedron, 2, true)
  | 13 => some (.prism, 2, true)
  | 14 => some (.pyramid, 2, true)
  | 15 => some (.point, 0, true)
  | 16 => some (.quad, 2, false)
  | 17 => some (.hexahedron, 2, false)
  | 18 => some (.prism, 2, false)
  | 19 => some (.pyramid, 2, false)
  | 20 => some (.triangle, 3, false)
  | 21 => some (.triangle, 3, true)
  | 22 => some (.triangle, 4, false)
  | 23 => some (.triangle, 4, true)
  | 24 => some (.triangle, 5, false)
  | 25 => some (.triangle, 5, true)
  | 26 => some (.line, 3, true)
  | 27 => some (.line, 4, true)
  | 28 => some (.line, 5, true)
  | 29 => some (.tetrahedron, 3, true)
  | 30 => some (.tetrahedron, 4, true)
  | 31 => some (.tetrahedron, 5, true)
  | _ => none

/-! ## Sections -/

/-- `$X`, newline, a body, `$EndX`, newline. -/
def bracketed (name body : Bytes) : Bytes :=
  b! "$" ++ name ++ b! "\n" ++ body ++ b! "$End" ++ name ++ b! "\n"

/-- `out` is a concatenation of sections with these names, in this order. -/
inductive Sections : List Bytes → Bytes → Prop
  | nil : Sections [] []
  | cons {name names out} (body) : Sections names out → Sections (name :: names) (bracketed name body ++ out)

/-- One name when the condition holds. -/
def nameIf (c : Bool) (name : Bytes) : List Bytes := if c then [name] else []

/-- The names of the sections `save_msh` writes, in order.  A version 2.2 file has no entities. -/
def MshSpec.sectionNames (ext : Bool) (s : MshSpec) : List Bytes :=
  [b! "MeshFormat"] ++
  nameIf (s.physicalGroups ≠ []) (b! "PhysicalNames") ++
  nameIf (s.meshFormat.version ≠ b! "2.2" ∧ (s.entities.points ≠ [] ∨ s.entities.curves ≠ [] ∨ s.entities.surfaces ≠ [] ∨ s.entities.volumes ≠ []))
    (b! "Entities") ++
  nameIf (s.nodes.numNodes ≠ 0) (b! "Nodes") ++
  nameIf (s.elements.numElements ≠ 0) (b! "Elements") ++
  List.replicate s.nodeData.length (b! "NodeData") ++
  List.replicate s.elementData.length (b! "ElementData") ++
  List.replicate s.elementNodeData.length (b! "ElementNodeData") ++
  nameIf ext (b! "NanoSplineFormat") ++
  nameIf (ext ∧ s.curves ≠ []) (b! "Curves") ++
  nameIf (ext ∧ s.patches ≠ []) (b! "Patches")

end MshIO
