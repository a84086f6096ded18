import Verif.Spec.Shaped

/-!
# Specification: the shape of what a loader returns

Sizes of vectors that are products of counters are products of `size_t`, hence modulo `2^64`.
-/

namespace MshIO

/-- Doubles per node of a block as a `size_t`: a negative `3 + entity_dim` wraps around. -/
def NodeBlock.perNode (b : NodeBlock) : Nat := if b.parametric = 1 then ((3 + b.entityDim.toInt) % 2 ^ 64).toNat else 3

/-- As many tags as nodes; the announced number of doubles, modulo `2^64`; `3 + entity_dim` is an `int`. -/
structure NodeBlock.Loaded (b : NodeBlock) : Prop where
  dim : b.parametric = 1 → 3 + b.entityDim.toInt < 2 ^ 31
  tags : b.tags.length = b.numNodesInBlock.toNat
  data : b.data.length = b.numNodesInBlock.toNat * b.perNode % 2 ^ 64

/-- A known element type; one tag plus the type's nodes per element, modulo `2^64`. -/
def ElementBlock.Loaded (b : ElementBlock) : Prop :=
  ∃ n, mshNodes b.elementType = some n ∧ b.data.length = b.numElementsInBlock.toNat * (n + 1) % 2 ^ 64

/-- At least three integer tags, the third being the number of entries; every entry has as many values as the second
integer tag says, for element node data times the nodes of the element, modulo `2^64`. -/
def Data.Loaded (isElementNode : Bool) (d : Data) : Prop :=
  ∃ t0 fields num more, d.header.intTags = t0 :: fields :: num :: more ∧ num.toInt = d.entries.length ∧
    ∀ e ∈ d.entries, (e.data.length : Int) =
      if isElementNode then fields.toInt * e.numNodesPerElement.toInt % 2 ^ 64 else fields.toInt

/-- Control points and knots, modulo `2^64`. -/
def Curve.Loaded (c : Curve) : Prop :=
  c.data.length = (c.numControlPoints.toNat * (if c.withWeights = 0 then 3 else 4) + c.numKnots.toNat) % 2 ^ 64

/-- Control points and knots, modulo `2^64`. -/
def Patch.Loaded (p : Patch) : Prop :=
  p.data.length = (p.numControlPoints.toNat * (if p.withWeights = 0 then 3 else 4) +
    p.numUKnots.toNat + p.numVKnots.toNat) % 2 ^ 64

/-- The shape of a loaded spec. -/
structure MshSpec.Loaded (s : MshSpec) : Prop where
  version : s.KnownVersion
  nodeBlocks : s.nodes.entityBlocks.length = s.nodes.numEntityBlocks.toNat
  node : ∀ b ∈ s.nodes.entityBlocks, b.Loaded
  elementBlocks : s.elements.entityBlocks.length = s.elements.numEntityBlocks.toNat
  element : ∀ b ∈ s.elements.entityBlocks, b.Loaded
  nodeData : ∀ d ∈ s.nodeData, d.Loaded false
  elementData : ∀ d ∈ s.elementData, d.Loaded false
  elementNodeData : ∀ d ∈ s.elementNodeData, d.Loaded true
  curve : ∀ c ∈ s.curves, c.Loaded
  patch : ∀ p ∈ s.patches, p.Loaded

/-- No product of counters of nodes, elements, curves or patches reaches `2^64`. -/
structure MshSpec.NoWrap (s : MshSpec) : Prop where
  node : ∀ b ∈ s.nodes.entityBlocks, b.numNodesInBlock.toNat * b.perNode < 2 ^ 64
  element : ∀ b ∈ s.elements.entityBlocks, ∀ n, mshNodes b.elementType = some n →
    b.numElementsInBlock.toNat * (n + 1) < 2 ^ 64
  curve : ∀ c ∈ s.curves, c.numControlPoints.toNat * (if c.withWeights = 0 then 3 else 4) + c.numKnots.toNat < 2 ^ 64
  patch : ∀ p ∈ s.patches, p.numControlPoints.toNat * (if p.withWeights = 0 then 3 else 4) +
    p.numUKnots.toNat + p.numVKnots.toNat < 2 ^ 64

end MshIO
