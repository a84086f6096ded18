import Verif.Spec.Shaped

/-!
# Specification: how `save_msh` ends on any spec

Nothing is asked of the spec: counters may be larger or smaller than the vectors they count, in which case `save_msh` reads outside a vector or leaves out entries.
-/

namespace MshIO

/-- Steps one after the other: the first that does not succeed decides. -/
def inOrder : List (Outcome Unit) → Outcome Unit
  | [] => .ok ()
  | .ok _ :: more => inOrder more
  | bad :: _ => bad

/-- Reading the first `need` entries of a vector of length `len`. -/
def within (len need : Nat) : Outcome Unit := if need ≤ len then .ok () else .ub

/-- Only versions 4.1 and 2.2 have a mesh. -/
def versionEnds (f : MeshFormat) : Outcome Unit := if f.version = b! "4.1" ∨ f.version = b! "2.2" then .ok () else .throw .unsupportedFeature

/-- Writing `num` blocks of those in `v`, each of which ends as `ends` says. -/
def blocksEnd {α : Type} (ends : α → Outcome Unit) (v : List α) (num : Nat) : Outcome Unit := inOrder ((v.take num).map ends ++ [within v.length num])

/-- The coordinates of a node: three, and those of a parametrisation of the entity's dimension, which is added as an `int` and then converted to `size_t`; `none` if that addition overflows. -/
def NodeBlock.rowLength (b : NodeBlock) : Option Nat :=
  if b.parametric = 1 then if 2 ^ 31 ≤ b.entityDim.toInt + 3 then none else some ((3 + b.entityDim.toInt) % 2 ^ 64).toNat else some 3

/-- Writing a block of nodes.  Version 2.2 reads three coordinates at the start of the ones of each node; binary files of version 4.1 count bytes modulo `2^64`. -/
def NodeBlock.ends (f : MeshFormat) (b : NodeBlock) : Outcome Unit :=
  let n := b.numNodesInBlock.toNat
  match b.rowLength with
  | none => .ub
  | some w =>
    if f.version = b! "2.2" then inOrder [within b.tags.length n, if n = 0 then .ok () else within b.data.length ((n - 1) * w + 3)]
    else if f.fileType = 0 then inOrder [within b.tags.length n, within b.data.length (n * w)]
    else inOrder [within b.tags.length (n % 2 ^ 61), within b.data.length (n * w % 2 ^ 61)]

/-- Writing a block of elements: a tag and the nodes of each element.  Binary files of version 4.1 get the vector as it is. -/
def ElementBlock.ends (f : MeshFormat) (b : ElementBlock) : Outcome Unit :=
  if f.version = b! "4.1" ∧ f.fileType ≠ 0 then .ok ()
  else match mshNodes b.elementType with
    | none => .throw .unsupportedFeature
    | some k => within b.data.length (b.numElementsInBlock.toNat * (k + 1))

/-- Writing data sections. -/
def dataEnds (f : MeshFormat) (ds : List Data) : Outcome Unit :=
  if ds ≠ [] ∧ 0 < f.fileType.toInt ∧ ¬ (f.version = b! "4.1" ∨ f.version = b! "2.2") then .throw .invalidFormat else .ok ()

/-- Writing a curve or a patch with so many control points, with or without weights, and so many knots. -/
def controlEnds (asserts : Bool) (f : MeshFormat) (len points : Nat) (weights : Bool) (knots : Nat) : Outcome Unit :=
  let total := points * (if weights then 4 else 3) + knots
  if asserts = true ∧ len ≠ total % 2 ^ 64 then .abort else within len (if f.fileType = 0 then total else total % 2 ^ 61)

/-- Saving a spec: entities, nodes, elements, data, and in builds with the extension curves and patches. -/
def saveEnds (cfg : Cfg) (s : MshSpec) : Outcome Unit :=
  let f := s.meshFormat
  inOrder ([
    if s.entities.points = [] ∧ s.entities.curves = [] ∧ s.entities.surfaces = [] ∧ s.entities.volumes = [] then .ok () else versionEnds f,
    if s.nodes.numNodes = 0 then .ok () else inOrder [versionEnds f, blocksEnd (NodeBlock.ends f) s.nodes.entityBlocks s.nodes.numEntityBlocks.toNat],
    if s.elements.numElements = 0 then .ok () else inOrder [versionEnds f, blocksEnd (ElementBlock.ends f) s.elements.entityBlocks s.elements.numEntityBlocks.toNat],
    dataEnds f s.nodeData, dataEnds f s.elementData, dataEnds f s.elementNodeData] ++
    if cfg.nanospline then
      s.curves.map (fun c => controlEnds cfg.asserts f c.data.length c.numControlPoints.toNat (0 < c.withWeights) c.numKnots.toNat) ++
      s.patches.map fun p => controlEnds cfg.asserts f p.data.length p.numControlPoints.toNat (0 < p.withWeights) (p.numUKnots.toNat + p.numVKnots.toNat)
    else [])

end MshIO
