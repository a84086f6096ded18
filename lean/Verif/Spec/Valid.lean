import Verif.Spec.Consistent

/-!
# Specification: what `validate_spec` accepts
-/

namespace MshIO

/-- Every vector of nodes and elements has fewer than `2^64` entries, as every C++ vector does. -/
structure MshSpec.Real (s : MshSpec) : Prop where
  nodeBlocks : s.nodes.entityBlocks.length < 2 ^ 64
  nodeTags : ∀ b ∈ s.nodes.entityBlocks, b.tags.length < 2 ^ 64
  nodeData : ∀ b ∈ s.nodes.entityBlocks, b.data.length < 2 ^ 64
  elementBlocks : s.elements.entityBlocks.length < 2 ^ 64
  elementData : ∀ b ∈ s.elements.entityBlocks, b.data.length < 2 ^ 64

/-- Doubles per node that `validate_spec` wants: 3, and for parametric blocks one more per dimension. -/
def NodeBlock.wanted (b : NodeBlock) : Int := if 0 < b.parametric.toInt then 3 + b.entityDim.toInt else 3

/-- `3 + entity_dim` does not fit an `int`. -/
def NodeBlock.Overflows (b : NodeBlock) : Prop := 0 < b.parametric.toInt ∧ 2 ^ 31 ≤ 3 + b.entityDim.toInt

/-- As many tags as nodes, all between `lo` and `hi`. -/
def NodeBlock.TagsValid (lo hi : UInt64) (b : NodeBlock) : Prop :=
  b.tags.length = b.numNodesInBlock.toNat ∧ ∀ t ∈ b.tags, lo ≤ t ∧ t ≤ hi

/-- A node block `validate_spec` accepts: good tags, and the wanted number of doubles per node (the
product is a 64-bit number). -/
def NodeBlock.Valid (lo hi : UInt64) (b : NodeBlock) : Prop :=
  b.TagsValid lo hi ∧ ¬ b.Overflows ∧ ((b.numNodesInBlock.toNat : Int) * b.wanted - b.data.length) % 2 ^ 64 = 0

/-- No elements, or fewer entries than elements: the check divides by zero. -/
def ElementBlock.DividesByZero (b : ElementBlock) : Prop := b.data.length < b.numElementsInBlock.toNat ∨ b.numElementsInBlock = 0

/-- An element block `validate_spec` accepts: its data splits evenly into groups of `k` entries, `k` being the
(rounded) number of entries per element; the first of each group is in the element tag range, the others in the
node tag range. -/
def ElementBlock.Valid (n : Nodes) (e : Elements) (b : ElementBlock) : Prop :=
  ¬ b.DividesByZero ∧ ∃ k, k = b.data.length / b.numElementsInBlock.toNat ∧ b.data.length % k = 0 ∧
    ∀ j t, b.data[j]? = some t →
      if j % k = 0 then e.minElementTag ≤ t ∧ t ≤ e.maxElementTag else n.minNodeTag ≤ t ∧ t ≤ n.maxNodeTag

/-- Block counts agree with the vectors and the tag ranges are not inverted. -/
def MshSpec.CountsValid (s : MshSpec) : Prop :=
  s.nodes.numEntityBlocks.toNat = s.nodes.entityBlocks.length ∧
  s.elements.numEntityBlocks.toNat = s.elements.entityBlocks.length ∧
  s.nodes.minNodeTag ≤ s.nodes.maxNodeTag ∧ s.elements.minElementTag ≤ s.elements.maxElementTag

/-- What `validate_spec` accepts. -/
def MshSpec.Valid (s : MshSpec) : Prop :=
  s.CountsValid ∧
  (∀ b ∈ s.nodes.entityBlocks, b.Valid s.nodes.minNodeTag s.nodes.maxNodeTag) ∧
  ∀ b ∈ s.elements.entityBlocks, b.Valid s.nodes s.elements

end MshIO
