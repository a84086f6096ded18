import Verif.Model.MshSpec

/-!
# Specification: text that is valid UTF-8, and what `repr(spec)` shows of a spec
-/

namespace MshIO

/-- The bytes are the UTF-8 encoding of a sequence of characters (`String.utf8EncodeChar` is Lean's encoder). -/
def Utf8 (b : Bytes) : Prop := ∃ chars : List Char, b = chars.flatMap String.utf8EncodeChar

/-- What is shown of a data entry: its tag, its node count, and how many numbers it has. -/
structure EntryShown where
  tag : UInt64
  nodes : Int32
  size : Nat
  deriving DecidableEq

/-- What is shown of a data section: the number of tags of each kind, and its entries. -/
structure DataShown where
  strings : Nat
  reals : Nat
  ints : Nat
  entries : List EntryShown
  deriving DecidableEq

/-- What is shown of a spec: the format, the eight numbers of the node and element headers, the number of entities of each
dimension, the physical groups in full, and the outline of the data sections. No node, no element, no coordinate, no
datum. -/
structure SpecShown where
  format : MeshFormat
  nodes : UInt64 × UInt64 × UInt64 × UInt64
  elements : UInt64 × UInt64 × UInt64 × UInt64
  entities : Nat × Nat × Nat × Nat
  groups : List PhysicalGroup
  nodeData : List DataShown
  elementData : List DataShown
  elementNodeData : List DataShown
  deriving DecidableEq

def DataEntry.shown (e : DataEntry) : EntryShown := ⟨e.tag, e.numNodesPerElement, e.data.length⟩

def Data.shown (d : Data) : DataShown :=
  ⟨d.header.stringTags.length, d.header.realTags.length, d.header.intTags.length, d.entries.map DataEntry.shown⟩

def MshSpec.shown (s : MshSpec) : SpecShown where
  format := s.meshFormat
  nodes := (s.nodes.numEntityBlocks, s.nodes.numNodes, s.nodes.minNodeTag, s.nodes.maxNodeTag)
  elements := (s.elements.numEntityBlocks, s.elements.numElements, s.elements.minElementTag, s.elements.maxElementTag)
  entities := (s.entities.points.length, s.entities.curves.length, s.entities.surfaces.length, s.entities.volumes.length)
  groups := s.physicalGroups
  nodeData := s.nodeData.map Data.shown
  elementData := s.elementData.map Data.shown
  elementNodeData := s.elementNodeData.map Data.shown

/-- The vectors whose sizes are shown are not longer than memory allows: fewer than `2^64` elements. -/
structure MshSpec.Sized (s : MshSpec) : Prop where
  points : s.entities.points.length < 2 ^ 64
  curves : s.entities.curves.length < 2 ^ 64
  surfaces : s.entities.surfaces.length < 2 ^ 64
  volumes : s.entities.volumes.length < 2 ^ 64
  data : ∀ d ∈ s.nodeData ++ s.elementData ++ s.elementNodeData,
    d.header.stringTags.length < 2 ^ 64 ∧ d.header.realTags.length < 2 ^ 64 ∧ d.header.intTags.length < 2 ^ 64 ∧
      ∀ e ∈ d.entries, e.data.length < 2 ^ 64

/-- No comma in the version and no closing parenthesis in a group name. -/
structure MshSpec.Delimited (s : MshSpec) : Prop where
  version : (44 : UInt8) ∉ s.meshFormat.version
  names : ∀ g ∈ s.physicalGroups, (41 : UInt8) ∉ g.name

/-! ## The texts -/

/-- Texts with a comma and a space between them. -/
def commas : List Bytes → Bytes
  | [] => []
  | [x] => x
  | x :: y :: r => x ++ b! ", " ++ commas (y :: r)

/-- `Class(name=value, name=value)`. -/
def objText (cls : Bytes) (fields : List (Bytes × Bytes)) : Bytes :=
  cls ++ b! "(" ++ commas (fields.map fun f => f.1 ++ b! "=" ++ f.2) ++ b! ")"

/-- `[item, item]`. -/
def listText (items : List Bytes) : Bytes := b! "[" ++ commas items ++ b! "]"

end MshIO
