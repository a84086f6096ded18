import Verif.Spec.Spelling
import Verif.Spec.Format
import Verif.Spec.White

/-!
# Specification: binary files of version 4.1 by any program

A binary file is a sequence of pieces: items written as text, the number 1 that shows the order of the bytes, and data.  What the pieces of each section are is the file
format (<https://gmsh.info/doc/texinfo/gmsh.html#MSH-file-format>); how an item is spelled and which white space is around it is up to the program that writes the file.
-/

namespace MshIO

/-- One piece of a binary file. -/
inductive Piece where
  | item (i : Item)
  | data (d : Bytes)
  | marker

/-- The ways to write pieces one after the other.  An item has white space in front of it, which must not be empty if an item precedes (`gap`).  Data has exactly one of line feed, carriage return,
space and tab in front of it; the marker one or more.  `gap'` says whether the last piece is an item. -/
inductive Written : Bool → List Piece → Bool → Bytes → Prop
  | nil {gap} : Written gap [] gap []
  | item {gap gap' i ps w text rest} : Blank w → (gap = true → w ≠ []) → Item.Spelled i text → Written true ps gap' rest → Written gap (.item i :: ps) gap' (w ++ text ++ rest)
  | data {gap gap' c d ps rest} : Skipped c → Written false ps gap' rest → Written gap (.data d :: ps) gap' ([c] ++ d ++ rest)
  | marker {gap gap' w ps rest} : w ≠ [] → (∀ c ∈ w, Skipped c) → w.length < 2 ^ 64 → Written false ps gap' rest → Written gap (.marker :: ps) gap' (w ++ le 4 1 ++ rest)

/-- String tags, real tags and integer tags, each list after its number. -/
def DataHeader.items (h : DataHeader) : List Item :=
  .count h.stringTags :: (h.stringTags.map .name ++ (.count h.realTags :: (h.realTags.map .real ++ (.count h.intTags :: h.intTags.map .int))))

/-- Tag, type, degree, number of control points, number of knots, whether there are weights. -/
def Curve.headItems (c : Curve) : List Item :=
  [.size c.curveTag, .size c.curveType, .size c.curveDegree, .size c.numControlPoints, .size c.numKnots, .size c.withWeights]

/-- Tag, type, two degrees, number of control points, two numbers of knots, whether there are weights. -/
def Patch.headItems (c : Patch) : List Item :=
  [.size c.patchTag, .size c.patchType, .size c.degreeU, .size c.degreeV, .size c.numControlPoints, .size c.numUKnots, .size c.numVKnots, .size c.withWeights]

/-- The head as text, then the entries. -/
def Data.pieces (isElementNode : Bool) (d : Data) : List Piece :=
  d.header.items.map .item ++ [.data (d.entries.flatMap (dataEntryBytes isElementNode))]

/-- The head as text, then the numbers. -/
def Curve.pieces (c : Curve) : List Piece := c.headItems.map .item ++ [.data (c.data.flatMap leDouble)]

/-- The head as text, then the numbers. -/
def Patch.pieces (c : Patch) : List Piece := c.headItems.map .item ++ [.data (c.data.flatMap leDouble)]

namespace Part

/-- What is between the first and the last line of the section in a binary file. -/
def binaryBody : Part → List Piece
  | format => [.item (.word (b! "4.1")), .item (.whole 1), .item (.whole 8), .marker]
  | entities e => [.data (entitiesBytes e)]
  | nodes n => [.data (nodes41Bytes n)]
  | elements n => [.data (elements41Bytes n)]
  | nodeData d => d.pieces false
  | elementData d => d.pieces false
  | elementNodeData d => d.pieces true
  | curves cs => .item (.count cs) :: cs.flatMap Curve.pieces
  | patches ps => .item (.count ps) :: ps.flatMap Patch.pieces
  | p => p.body.map .item

/-- All of it. -/
def pieces (p : Part) : List Piece :=
  match p with
  | stray w => [.item (.word w)]
  | _ => .item (.word (b! "$" ++ p.name)) :: (p.binaryBody ++ [.item (.word (b! "$End" ++ p.name))])

/-- Sections that are text also in a binary file; these may come before the header. -/
def AlwaysText : Part → Prop
  | names _ | splines _ | other _ _ | stray _ => True
  | _ => False

/-- The tags of the entries of data sections have 32 bits in a binary file. -/
def SmallTags (p : Part) : Prop :=
  ∀ d ∈ (p.add {}).nodeData ++ (p.add {}).elementData ++ (p.add {}).elementNodeData, ∀ e ∈ d.entries, e.tag.toNat < 2 ^ 31

end Part

/-- The mesh a binary file consisting of these parts describes. -/
def binaryMeshOf (parts : List Part) : MshSpec := { meshOf parts with meshFormat := ⟨b! "4.1", 1, 8⟩ }

/-- The binary files that describe the parts.  After the last word there may be white space. -/
def BinaryFile (parts : List Part) (file : Bytes) : Prop :=
  ∃ gap bytes trail, Written false (parts.flatMap Part.pieces) gap bytes ∧ Blank trail ∧ file = bytes ++ trail

end MshIO
