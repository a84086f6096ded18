import Verif.Model.Complain
import Verif.Spec.Valid

/-!
# Specification: what each message of `validate_spec` means

One rule per message.  A message is about the first thing that is wrong, so each rule also says that everything
before it is in order.
-/

namespace MshIO

/-- `validate_spec`'s ending with the message left out. -/
def Told.outcome : Told → Outcome Unit
  | .fine => .ok ()
  | .corrupt _ => .throw .corruptData
  | .ub => .ub

/-- What is wrong with a node block, tags being allowed from `lo` to `hi`. -/
inductive NodeBlock.Complaint (lo hi : UInt64) (b : NodeBlock) : Bytes → Prop where
  /-- The number of tags is not the number of nodes. -/
  | count : b.tags.length ≠ b.numNodesInBlock.toNat → Complaint lo hi b (b! "Inconsist number of node tags.")
  /-- A tag below the range, those before it being inside. -/
  | below (pre : List UInt64) (t : UInt64) (post : List UInt64) :
      b.tags.length = b.numNodesInBlock.toNat → b.tags = pre ++ t :: post → (∀ a ∈ pre, lo ≤ a ∧ a ≤ hi) → t < lo →
      Complaint lo hi b (b! "Node tag < min node tag.")
  /-- A tag above the range, those before it being inside. -/
  | above (pre : List UInt64) (t : UInt64) (post : List UInt64) :
      b.tags.length = b.numNodesInBlock.toNat → b.tags = pre ++ t :: post → (∀ a ∈ pre, lo ≤ a ∧ a ≤ hi) → lo ≤ t → hi < t →
      Complaint lo hi b (b! "Node tag > max node tag.")
  /-- Good tags, parametric, and not `3 + dim` doubles per node. -/
  | parametric : b.TagsValid lo hi → ¬ b.Overflows → 0 < b.parametric.toInt →
      ((b.numNodesInBlock.toNat : Int) * (3 + b.entityDim.toInt) - b.data.length) % 2 ^ 64 ≠ 0 →
      Complaint lo hi b (b! "Invalide node data size.")
  /-- Good tags, not parametric, and not three doubles per node. -/
  | plain : b.TagsValid lo hi → b.parametric.toInt ≤ 0 → ((b.numNodesInBlock.toNat : Int) * 3 - b.data.length) % 2 ^ 64 ≠ 0 →
      Complaint lo hi b (b! "Invalid node data size.")

/-- Entry `j` is in the range for its place: of element tags at the start of each group of `k`, else of node tags. -/
def EntryValid (n : Nodes) (e : Elements) (k j : Nat) (t : UInt64) : Prop :=
  if j % k = 0 then e.minElementTag ≤ t ∧ t ≤ e.maxElementTag else n.minNodeTag ≤ t ∧ t ≤ n.maxNodeTag

/-- What is wrong with one entry. -/
inductive EntryComplaint (n : Nodes) (e : Elements) (k j : Nat) (t : UInt64) : Bytes → Prop where
  | elementBelow : j % k = 0 → t < e.minElementTag → EntryComplaint n e k j t (b! "Element tag < min element tag.")
  | elementAbove : j % k = 0 → e.minElementTag ≤ t → e.maxElementTag < t → EntryComplaint n e k j t (b! "Element tag > max element tag.")
  | nodeBelow : j % k ≠ 0 → t < n.minNodeTag → EntryComplaint n e k j t (b! "Node tag in element < min node tag.")
  | nodeAbove : j % k ≠ 0 → n.minNodeTag ≤ t → n.maxNodeTag < t → EntryComplaint n e k j t (b! "Node tag in element > max node tag.")

/-- What is wrong with an element block. -/
inductive ElementBlock.Complaint (n : Nodes) (e : Elements) (b : ElementBlock) : Bytes → Prop where
  /-- The entries do not split evenly into groups of the (rounded) number of entries per element. -/
  | size : ¬ b.DividesByZero → b.data.length % (b.data.length / b.numElementsInBlock.toNat) ≠ 0 →
      Complaint n e b (b! "Invalid element data size.")
  /-- An entry out of range, those before it being inside. -/
  | entry (j : Nat) (t : UInt64) (m : Bytes) : ¬ b.DividesByZero → b.data.length % (b.data.length / b.numElementsInBlock.toNat) = 0 →
      b.data[j]? = some t → (∀ i a, i < j → b.data[i]? = some a → EntryValid n e (b.data.length / b.numElementsInBlock.toNat) i a) →
      EntryComplaint n e (b.data.length / b.numElementsInBlock.toNat) j t m → Complaint n e b m

/-- What is wrong with a spec. -/
inductive MshSpec.Complaint (s : MshSpec) : Bytes → Prop where
  | nodeCount : s.nodes.numEntityBlocks.toNat ≠ s.nodes.entityBlocks.length → Complaint s (b! "Inconsistent entity blocks in nodes.")
  | elementCount : s.nodes.numEntityBlocks.toNat = s.nodes.entityBlocks.length →
      s.elements.numEntityBlocks.toNat ≠ s.elements.entityBlocks.length → Complaint s (b! "Inconsistent entity blocks in elements.")
  | nodeRange : s.nodes.numEntityBlocks.toNat = s.nodes.entityBlocks.length →
      s.elements.numEntityBlocks.toNat = s.elements.entityBlocks.length →
      s.nodes.maxNodeTag < s.nodes.minNodeTag → Complaint s (b! "Min node tag > max node tag.")
  | elementRange : s.nodes.numEntityBlocks.toNat = s.nodes.entityBlocks.length →
      s.elements.numEntityBlocks.toNat = s.elements.entityBlocks.length → s.nodes.minNodeTag ≤ s.nodes.maxNodeTag →
      s.elements.maxElementTag < s.elements.minElementTag → Complaint s (b! "Min element tag > max element tag.")
  /-- A node block, those before it being acceptable. -/
  | node (pre : List NodeBlock) (b : NodeBlock) (post : List NodeBlock) (m : Bytes) : s.CountsValid →
      s.nodes.entityBlocks = pre ++ b :: post → (∀ a ∈ pre, a.Valid s.nodes.minNodeTag s.nodes.maxNodeTag) →
      b.Complaint s.nodes.minNodeTag s.nodes.maxNodeTag m → Complaint s m
  /-- An element block, the node blocks and the element blocks before it being acceptable. -/
  | element (pre : List ElementBlock) (b : ElementBlock) (post : List ElementBlock) (m : Bytes) : s.CountsValid →
      (∀ a ∈ s.nodes.entityBlocks, a.Valid s.nodes.minNodeTag s.nodes.maxNodeTag) →
      s.elements.entityBlocks = pre ++ b :: post → (∀ a ∈ pre, a.Valid s.nodes s.elements) →
      b.Complaint s.nodes s.elements m → Complaint s m

end MshIO
