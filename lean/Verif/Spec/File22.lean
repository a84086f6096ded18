import Verif.Spec.Mesh22
import Verif.Spec.Decimal
import Verif.Spec.Sections

/-!
# Specification: version 2.2 files as text and bytes
-/

namespace MshIO

/-! ## Text files -/

/-- The words of one node: tag and coordinates, printed in the format `P`. -/
def nodeWords (P : Fmt) (n : MeshNode) : List Bytes := [decU64 n.tag, fmtDouble P n.x, fmtDouble P n.y, fmtDouble P n.z]

/-- The words of one element: number, type, number of tags, tags, nodes. -/
def elemWords (e : FileElem) : List Bytes :=
  decI32 e.num :: decI32 e.type :: decI32 (Int32.ofNat e.tags.length) :: (e.tags.map decI32 ++ e.nodes.map decI32)

/-- The words of the `$Nodes` section. -/
def nodesWords (P : Fmt) (ns : List MeshNode) : List Bytes :=
  b! "$Nodes" :: decU64 (UInt64.ofNat ns.length) :: ns.flatMap (nodeWords P) ++ [b! "$EndNodes"]

/-- The words of the `$Elements` section. -/
def elementsWords (fs : List FileElem) : List Bytes :=
  b! "$Elements" :: decU64 (UInt64.ofNat fs.length) :: fs.flatMap elemWords ++ [b! "$EndElements"]

/-- The words of a version 2.2 text file with the given nodes and elements. -/
def file22Words (P : Fmt) (ns : List MeshNode) (fs : List FileElem) : List Bytes :=
  [b! "$MeshFormat", b! "2.2", b! "0", b! "8", b! "$EndMeshFormat"] ++ nodesWords P ns ++ elementsWords fs

/-- The tags of an element can be held by a vector and counted by an `int`. -/
def FileElem.Small (cfg : Cfg) (e : FileElem) : Prop := e.tags.length ≤ cfg.maxCount ∧ e.tags.length < 2 ^ 31

/-! ## Binary files -/

/-- Bytes of one node: the tag as a 32-bit number, three doubles. -/
def nodeBytes (n : MeshNode) : Bytes := encI32 (intOfSize n.tag) ++ [n.x, n.y, n.z].flatMap encDouble

/-- A group of elements of one type with the same number of tags. -/
structure FileGroup where
  type : Int32
  ntags : Nat
  elems : List FileElem
  deriving DecidableEq, Repr

/-- Bytes of one element: number, tags, nodes. -/
def elemBytes (e : FileElem) : Bytes := encI32 e.num ++ (e.tags.flatMap encI32 ++ e.nodes.flatMap encI32)

/-- Bytes of one group: type, number of elements, number of tags, the elements. -/
def FileGroup.bytes (g : FileGroup) : Bytes :=
  encI32 g.type ++ (encI32 (Int32.ofNat g.elems.length) ++ (encI32 (Int32.ofNat g.ntags) ++ g.elems.flatMap elemBytes))

/-- A group as the format wants it: not empty, elements of the announced type and number of tags, counters
that are nonnegative 32-bit numbers. -/
structure FileGroup.Ok (cfg : Cfg) (g : FileGroup) : Prop where
  same : ∀ e ∈ g.elems, e.type = g.type ∧ e.tags.length = g.ntags
  elems : ∀ e ∈ g.elems, e.Ok
  ne : g.elems ≠ []
  count : g.elems.length < 2 ^ 31
  tags : g.ntags ≤ cfg.maxCount ∧ 4 * g.ntags < 2 ^ 31

/-- Bytes of the `$Nodes` section; `w` is white space in front of the end marker. -/
def nodesBytes (w : Bytes) (ns : List MeshNode) : Bytes :=
  b! "$Nodes\n" ++ decU64 (UInt64.ofNat ns.length) ++ b! "\n" ++ ns.flatMap nodeBytes ++ w ++ b! "$EndNodes\n"

/-- Bytes of the `$Elements` section; `w` is white space in front of the end marker. -/
def elementsBytes (w : Bytes) (gs : List FileGroup) : Bytes :=
  b! "$Elements\n" ++ decU64 (UInt64.ofNat (gs.flatMap FileGroup.elems).length) ++ b! "\n" ++
    gs.flatMap FileGroup.bytes ++ w ++ b! "$EndElements\n"

/-- A version 2.2 binary file with the given nodes and elements. -/
def file22Bytes (w : Bytes) (ns : List MeshNode) (gs : List FileGroup) : Bytes :=
  b! "$MeshFormat\n2.2 1 8\n" ++ encI32 1 ++ b! "\n$EndMeshFormat\n" ++ nodesBytes w ns ++ elementsBytes w gs

/-- The node after a binary file, which keeps 32 bits of the tag. -/
def MeshNode.wrap (n : MeshNode) : MeshNode := { n with tag := wrap32 n.tag }

/-! ## Sizes -/

/-- All vectors the loader needs for the nodes `ns` and elements `es` can be allocated; one of them has an entry
for every number between the smallest and the largest node tag. -/
structure Fits22 (cfg : Cfg) (ns : List MeshNode) (es : List MeshElem) : Prop where
  two : 2 ≤ cfg.maxCount
  coords : 3 * ns.length ≤ cfg.maxCount
  span : ∀ a ∈ ns, ∀ b ∈ ns, b.tag.toNat - a.tag.toNat < cfg.maxCount
  entries : (es.map fun e => e.nodes.length + 1).sum ≤ cfg.maxCount

/-! ## Files that store a mesh -/

/-- `file` is a version 2.2 file, text or binary, made of the header, one `$Nodes` and one `$Elements` section, that stores the nodes `ns` and the
elements `fs` (known types, the right number of nodes).  Text: words separated by any white space, coordinates printed in some format.  Binary:
tags of nodes have 32 bits, elements come in groups. -/
inductive Is22 (cfg : Cfg) : Bytes → List MeshNode → List FileElem → Prop
  | ascii {P : Fmt} {ns : List MeshNode} {fs : List FileElem} {lead : Bytes} {words : List (Bytes × Bytes)} :
      (∀ n ∈ ns, Printable P n.x ∧ Printable P n.y ∧ Printable P n.z) → (∀ f ∈ fs, f.Ok ∧ f.Small cfg) →
      words.map Prod.fst = file22Words P ns fs → Blank lead → (∀ q ∈ words, Blank q.2 ∧ q.2 ≠ []) →
      Is22 cfg (Spaced lead words) (ns.map fun n => ⟨n.tag, reread P n.x, reread P n.y, reread P n.z⟩) fs
  | binary {ns : List MeshNode} {gs : List FileGroup} {lead w : Bytes} :
      (∀ g ∈ gs, g.Ok cfg) → Blank lead → Blank w →
      Is22 cfg (lead ++ file22Bytes w ns gs) (ns.map MeshNode.wrap) (gs.flatMap FileGroup.elems)

/-! ## What a spec becomes when it is stored as version 2.2 -/

/-- The nodes of a spec with `w` applied to tags and `g` to coordinates. -/
def MshSpec.nodes22 (w : UInt64 → UInt64) (g : Double → Double) (s : MshSpec) : List MeshNode :=
  s.nodes.list.map fun n => ⟨w n.tag, g n.x, g n.y, g n.z⟩

/-- The elements of a spec with `w` applied to the element and node tags; the dimension is that of the type. -/
def MshSpec.elems22 (w : UInt64 → UInt64) (s : MshSpec) : List MeshElem :=
  s.elements.list.map fun e => ⟨w e.tag, e.type, Int32.ofNat ((mshDim e.type).getD 0), e.entity, e.nodes.map w⟩

/-- The spec a version 2.2 file written from `s` stands for: nodes and elements are listed one by one and grouped
anew, entities are not stored; `w` is applied to the tags of nodes and elements, the rest is as in version 4.1. -/
def MshSpec.convert22 (ext : Bool) (t w : UInt64 → UInt64) (f g : Double → Double) (s : MshSpec) : MshSpec :=
  { s.convert ext t f g with
    entities := {}
    nodes := if s.nodes.numNodes = 0 then {} else nodesOf (s.nodes22 w g) (s.elems22 w)
    elements := if s.elements.numElements = 0 then {} else elementsOf (s.elems22 w) }

/-- The doubles that a version 2.2 file stores. -/
def MshSpec.doubles22 (s : MshSpec) : List Double :=
  s.nodes.list.flatMap (fun n => [n.x, n.y, n.z]) ++ s.realTags ++
  (s.nodeData ++ s.elementData ++ s.elementNodeData).flatMap (fun d => d.entries.flatMap (·.data)) ++
  s.curves.flatMap (·.data) ++ s.patches.flatMap (·.data)

/-- The section counters agree with the blocks. -/
structure MshSpec.Counted (s : MshSpec) : Prop where
  nodes : s.nodes.numNodes.toNat = (s.nodes.entityBlocks.map (·.numNodesInBlock.toNat)).sum
  elements : s.elements.numElements.toNat = (s.elements.entityBlocks.map (·.numElementsInBlock.toNat)).sum

end MshIO
