import Verif.Spec.Consistent
import Verif.Model.Num

/-!
# Specification: version 2.2 meshes

A version 2.2 file lists nodes and elements one by one; blocks do not exist in it.  This file says, without
reference to the loader, which blocks a list of nodes and elements stands for.
-/

namespace MshIO

/-- A node: tag and position. -/
structure MeshNode where
  tag : UInt64
  x : Double
  y : Double
  z : Double
  deriving DecidableEq, Repr

/-- An element: tag, type, dimension and tag of the entity it lies on, node tags. -/
structure MeshElem where
  tag : UInt64
  type : Int32
  dim : Int32
  entity : Int32
  nodes : List UInt64
  deriving DecidableEq, Repr

/-- The nodes of a block: one tag and the first three of its coordinates each. -/
def NodeBlock.list (b : NodeBlock) : List MeshNode :=
  b.tags.zipIdx.map fun (t, i) =>
    ⟨t, b.data.getD (i * b.coords) Double.zero, b.data.getD (i * b.coords + 1) Double.zero,
      b.data.getD (i * b.coords + 2) Double.zero⟩

/-- The elements of a block: consecutive groups of one tag and the node tags. -/
def ElementBlock.list (b : ElementBlock) : List MeshElem :=
  (List.range b.numElementsInBlock.toNat).map fun i =>
    let n := (mshNodes b.elementType).getD 0
    { tag := b.data.getD (i * (n + 1)) 0
      type := b.elementType
      dim := b.entityDim
      entity := b.entityTag
      nodes := (b.data.drop (i * (n + 1) + 1)).take n }

/-- All nodes, in order. -/
def Nodes.list (n : Nodes) : List MeshNode := n.entityBlocks.flatMap NodeBlock.list

/-- All elements, in order. -/
def Elements.list (e : Elements) : List MeshElem := e.entityBlocks.flatMap ElementBlock.list

/-- The maximal runs of consecutive entries with equal key. -/
def runs {α κ : Type} [DecidableEq κ] (key : α → κ) (l : List α) : List (List α) :=
  l.splitBy fun a b => decide (key a = key b)

/-- The block of one run; `mk` builds it from the common key. -/
def runBlock {α κ β : Type} (key : α → κ) (mk : κ → List α → β) : List α → List β
  | [] => []
  | a :: r => [mk (key a) (a :: r)]

/-- One block per maximal run. -/
def runBlocks {α κ β : Type} [DecidableEq κ] (key : α → κ) (mk : κ → List α → β) (l : List α) : List β :=
  (runs key l).flatMap (runBlock key mk)

/-- What element blocks group by. -/
def MeshElem.key (e : MeshElem) : Int32 × Int32 × Int32 := (e.dim, e.entity, e.type)

/-- The block holding the elements `es` of the given dimension, entity and type. -/
def elementBlockOf (k : Int32 × Int32 × Int32) (es : List MeshElem) : ElementBlock where
  entityDim := k.1
  entityTag := k.2.1
  elementType := k.2.2
  numElementsInBlock := UInt64.ofNat es.length
  data := es.flatMap fun e => e.tag :: e.nodes

/-- The entity (dimension, tag) of the last element that uses node `t`; (0,0) if there is none. -/
def lastEntity (es : List MeshElem) (t : UInt64) : Int32 × Int32 :=
  match es.reverse.find? (fun e => decide (t ∈ e.nodes)) with
  | some e => (e.dim, e.entity)
  | none => (0, 0)

/-- The block holding the nodes `ns` on the given entity. -/
def nodeBlockOf (k : Int32 × Int32) (ns : List MeshNode) : NodeBlock where
  entityDim := k.1
  entityTag := k.2
  parametric := 0
  numNodesInBlock := UInt64.ofNat ns.length
  tags := ns.map (·.tag)
  data := ns.flatMap fun n => [n.x, n.y, n.z]

/-- The smallest and largest tag of a list (for the empty list: `2^64 - 1` and `0`). -/
def tagRange (ts : List UInt64) : UInt64 × UInt64 :=
  (ts.foldl min (UInt64.ofNat (2 ^ 64 - 1)), ts.foldl max 0)

/-- The node blocks of a mesh: maximal runs of nodes on the same entity. -/
def nodesOf (ns : List MeshNode) (es : List MeshElem) : Nodes :=
  let blocks := runBlocks (fun n => lastEntity es n.tag) nodeBlockOf ns
  { numEntityBlocks := UInt64.ofNat blocks.length
    numNodes := UInt64.ofNat ns.length
    minNodeTag := (tagRange (ns.map (·.tag))).1
    maxNodeTag := (tagRange (ns.map (·.tag))).2
    entityBlocks := blocks }

/-- The element blocks of a mesh: maximal runs of elements with equal dimension, entity and type. -/
def elementsOf (es : List MeshElem) : Elements :=
  let blocks := runBlocks MeshElem.key elementBlockOf es
  { numEntityBlocks := UInt64.ofNat blocks.length
    numElements := UInt64.ofNat es.length
    minElementTag := (tagRange (es.map (·.tag))).1
    maxElementTag := (tagRange (es.map (·.tag))).2
    entityBlocks := blocks }

/-- Every node of every element has a tag between the smallest and the largest node tag. -/
def NodesInRange (ns : List MeshNode) (es : List MeshElem) : Prop :=
  ∀ e ∈ es, ∀ t ∈ e.nodes, (∃ n ∈ ns, n.tag ≤ t) ∧ ∃ n ∈ ns, t ≤ n.tag

/-- An element as a version 2.2 file stores it: number, type, tags, nodes. -/
structure FileElem where
  num : Int32
  type : Int32
  tags : List Int32
  nodes : List Int32
  deriving DecidableEq, Repr

/-- The element has a known type and as many nodes as the type wants. -/
def FileElem.Ok (e : FileElem) : Prop := mshNodes e.type = some e.nodes.length

/-- The entity of a file element: its second tag; its only tag; or 1. -/
def FileElem.entity (e : FileElem) : Int32 :=
  match e.tags with
  | _ :: t :: _ => t
  | [t] => t
  | [] => 1

/-- What a file element stands for; its dimension is that of its type. -/
def FileElem.elem (e : FileElem) : MeshElem where
  tag := sizeOfInt e.num
  type := e.type
  dim := Int32.ofNat ((mshDim e.type).getD 0)
  entity := e.entity
  nodes := e.nodes.map sizeOfInt

/-- Entity `tag` of dimension `d` is mentioned with physical tag `p` by a file element: as its second and
first tag. -/
def FileElem.Mentions (e : FileElem) (d : Nat) (tag p : Int32) : Prop :=
  mshDim e.type = some d ∧ ∃ more, e.tags = p :: tag :: more

/-- `ents` (pairs of entity tag and its physical tags) are exactly the entities of dimension `d` mentioned by
the elements, each once, in increasing order, each with exactly the physical tags mentioned with it, in
increasing order. -/
structure EntitiesAre (es : List FileElem) (d : Nat) (ents : List (Int32 × List Int32)) : Prop where
  sorted : ents.Pairwise (fun a b => a.1 < b.1)
  sortedTags : ∀ e ∈ ents, e.2.Pairwise (· < ·)
  tags : ∀ t, (∃ e ∈ ents, e.1 = t) ↔ ∃ f ∈ es, ∃ p, f.Mentions d t p
  groups : ∀ e ∈ ents, ∀ p, p ∈ e.2 ↔ ∃ f ∈ es, f.Mentions d e.1 p

/-- Apply `g` to the coordinates. -/
def MeshNode.convert (g : Double → Double) (n : MeshNode) : MeshNode := ⟨n.tag, g n.x, g n.y, g n.z⟩

/-- The coordinates of every node replaced by `g`; tags and blocks stay as they are. -/
def Nodes.mapCoords (g : Double → Double) (n : Nodes) : Nodes :=
  { n with entityBlocks := n.entityBlocks.map fun b => { b with data := b.data.map g } }

/-- The entities listed by `ents`: only tags and physical tags are set. -/
def entitiesFrom (ents : Nat → List (Int32 × List Int32)) : Entities where
  points := (ents 0).map fun p => { tag := p.1, physicalGroupTags := p.2 }
  curves := (ents 1).map fun p => { tag := p.1, physicalGroupTags := p.2 }
  surfaces := (ents 2).map fun p => { tag := p.1, physicalGroupTags := p.2 }
  volumes := (ents 3).map fun p => { tag := p.1, physicalGroupTags := p.2 }

end MshIO
