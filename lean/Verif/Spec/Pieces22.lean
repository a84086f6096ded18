import Verif.Spec.Pieces
import Verif.Spec.Spelling22

/-!
# Specification: binary files of version 2.2 by any program
-/

namespace MshIO

/-- An element in a binary file of version 2.2: number, tags, nodes. -/
def FileElem.data (e : FileElem) : Bytes := le32 e.num ++ e.tags.flatMap le32 ++ e.nodes.flatMap le32

/-- A group of elements: type, number of elements, number of tags of each, the elements. -/
def FileGroup.data (g : FileGroup) : Bytes := le32 g.type ++ le 4 g.elems.length ++ le 4 g.ntags ++ g.elems.flatMap FileElem.data

/-- The parts of a binary file of version 2.2.  Except for header, nodes and elements they are as in version 4.1. -/
inductive BinaryPart22 where
  | format (dataSize : Int32)
  | nodes (ns : List MeshNode)
  | elements (groups : List FileGroup)
  | common (p : Part)

namespace BinaryPart22

/-- The same in a text file. -/
def asText : BinaryPart22 → Part22
  | format d => .format d
  | nodes ns => .nodes ns
  | elements groups => .elements (groups.flatMap FileGroup.elems)
  | common p => .common p

/-- All of it. -/
def pieces : BinaryPart22 → List Piece
  | format d => .item (.word (b! "$MeshFormat")) :: ([.item (.word (b! "2.2")), .item (.whole 1), .item (.int d), .marker] ++ [.item (.word (b! "$EndMeshFormat"))])
  | nodes ns => .item (.word (b! "$Nodes")) :: ([.item (.count ns), .data (ns.flatMap node22Bytes)] ++ [.item (.word (b! "$EndNodes"))])
  | elements groups => .item (.word (b! "$Elements")) :: ([.item (.count (groups.flatMap FileGroup.elems)), .data (groups.flatMap FileGroup.data)] ++
      [.item (.word (b! "$EndElements"))])
  | common p => p.pieces

/-- Sections that are text also in a binary file; these may come before the header. -/
def AlwaysText : BinaryPart22 → Prop
  | common p => p.AlwaysText
  | _ => False

/-- A section that can be in a file: tags of nodes and numbers of elements are not negative and have 32 bits; if there are elements they come in groups that are not empty, of one known type
and one number of tags; the rest as in version 4.1. -/
def Fits (cfg : Cfg) : BinaryPart22 → Prop
  | format _ => True
  | nodes ns => ∀ n ∈ ns, n.tag.toNat < 2 ^ 31
  | elements groups => groups ≠ [] ∧ ∀ g ∈ groups, g.Ok cfg ∧ ∀ e ∈ g.elems, 0 ≤ e.num.toInt
  | common p => p.Common ∧ p.Fits cfg ∧ p.SmallTags

end BinaryPart22

/-- The mesh a binary file consisting of these parts describes: that of the text file, except for the file type. -/
def BinaryMeshOf22 (parts : List BinaryPart22) (s : MshSpec) : Prop :=
  ∃ t, MeshOf22 (parts.map BinaryPart22.asText) t ∧ s = { t with meshFormat := { t.meshFormat with fileType := 1 } }

/-- The binary files that describe the parts. -/
def BinaryFile22 (parts : List BinaryPart22) (file : Bytes) : Prop :=
  ∃ gap bytes trail, Written false (parts.flatMap BinaryPart22.pieces) gap bytes ∧ Blank trail ∧ file = bytes ++ trail

end MshIO
