import Verif.Spec.Spelling
import Verif.Spec.File22

/-!
# Specification: text files of version 2.2 by any program
-/

namespace MshIO

/-- Tag and position. -/
def MeshNode.items (n : MeshNode) : List Item := [.size n.tag, .real n.x, .real n.y, .real n.z]

/-- Number, type, the tags after their number, nodes. -/
def FileElem.items (e : FileElem) : List Item :=
  .int e.num :: .int e.type :: .count e.tags :: (e.tags.map .int ++ e.nodes.map .int)

/-- The parts of a text file of version 2.2.  Except for header, nodes and elements they are as in version 4.1. -/
inductive Part22 where
  | format (dataSize : Int32)
  | nodes (ns : List MeshNode)
  | elements (fs : List FileElem)
  | common (p : Part)

namespace Part22

/-- The name of the section. -/
def name : Part22 → Bytes
  | format _ => b! "MeshFormat"
  | nodes _ => b! "Nodes"
  | elements _ => b! "Elements"
  | common p => p.name

/-- All of it. -/
def items : Part22 → List Item
  | format d => .word (b! "$MeshFormat") :: ([.word (b! "2.2"), .whole 0, .int d] ++ [.word (b! "$EndMeshFormat")])
  | nodes ns => .word (b! "$Nodes") :: ((.count ns :: ns.flatMap MeshNode.items) ++ [.word (b! "$EndNodes")])
  | elements fs => .word (b! "$Elements") :: ((.count fs :: fs.flatMap FileElem.items) ++ [.word (b! "$EndElements")])
  | common p => p.items

/-- What it adds to the mesh besides nodes and elements. -/
def add (p : Part22) (s : MshSpec) : MshSpec :=
  match p with
  | format d => { s with meshFormat := ⟨b! "2.2", 0, d⟩ }
  | nodes _ | elements _ => s
  | common p => p.add s

/-- The nodes. -/
def nodeList : Part22 → List MeshNode
  | nodes ns => ns
  | _ => []

/-- The elements. -/
def elemList : Part22 → List FileElem
  | elements fs => fs
  | _ => []

/-- It is a section of nodes. -/
def isNodes : Part22 → Bool
  | nodes _ => true
  | _ => false

/-- It is a section of elements. -/
def isElements : Part22 → Bool
  | elements _ => true
  | _ => false

/-- There may be several of this kind in a file. -/
def Repeats : Part22 → Prop
  | format _ => True
  | nodes _ | elements _ => False
  | common p => p.Repeats

/-- Nodes and elements can be read only after the header. -/
def NeedsFormat : Part22 → Prop
  | nodes _ | elements _ => True
  | _ => False

/-- A section that can be in a file: every element has a known type, as many nodes as the type wants, and not too many tags for memory; the rest as in version 4.1. -/
def Fits (cfg : Cfg) : Part22 → Prop
  | format _ => True
  | nodes _ => True
  | elements fs => ∀ f ∈ fs, f.Ok ∧ f.Small cfg
  | common p => p.Common ∧ p.Fits cfg

end Part22

/-- The nodes of a file. -/
def nodesIn (parts : List Part22) : List MeshNode := parts.flatMap Part22.nodeList
/-- The elements of a file. -/
def elementsIn (parts : List Part22) : List FileElem := parts.flatMap Part22.elemList
/-- The rest. -/
def restOf (parts : List Part22) : MshSpec := parts.foldl (fun s p => p.add s) {}

/-- The mesh a file consisting of these parts describes: nodes and elements are grouped into blocks (`Spec/Mesh22.lean`), the first two tags of the elements
make entities and their physical groups. -/
def MeshOf22 (parts : List Part22) (s : MshSpec) : Prop :=
  ∃ ents, (∀ d, EntitiesAre (elementsIn parts) d (ents d)) ∧
    s = { restOf parts with
      entities := entitiesFrom ents
      nodes := if parts.any Part22.isNodes then nodesOf (nodesIn parts) ((elementsIn parts).map FileElem.elem) else {}
      elements := if parts.any Part22.isElements then elementsOf ((elementsIn parts).map FileElem.elem) else {} }

/-- The files that describe the parts. -/
def TextFile22 (parts : List Part22) (file : Bytes) : Prop :=
  ∃ (lead : Bytes) (words : List (Bytes × Bytes)), file = Spaced lead words ∧ Blank lead ∧
    (∀ q ∈ words, Blank q.2) ∧ (∀ q ∈ words.dropLast, q.2 ≠ []) ∧ List.Forall₂ Item.Spelled (parts.flatMap Part22.items) (words.map Prod.fst)

end MshIO
