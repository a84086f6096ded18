import Verif.Spec.Consistent

/-!
# Specification: specs whose vectors agree with their counters, and what cannot be saved
-/

namespace MshIO

/-- A known element type has one tag plus the type's nodes per element; nothing is asked of an unknown type. -/
def ElementBlock.Shaped (b : ElementBlock) : Prop :=
  ∀ n, mshNodes b.elementType = some n → b.data.length = b.numElementsInBlock.toNat * (n + 1)

/-- The vectors a saver walks through agree with the counters it walks by.  Nothing is asked of the data sections,
of the version, of the file type or of element types; curves and patches only matter to builds with the extension. -/
structure MshSpec.Shaped (ext : Bool) (s : MshSpec) : Prop where
  nodeBlocks : s.nodes.entityBlocks.length = s.nodes.numEntityBlocks.toNat
  node : ∀ b ∈ s.nodes.entityBlocks, b.Ok
  elementBlocks : s.elements.entityBlocks.length = s.elements.numEntityBlocks.toNat
  element : ∀ b ∈ s.elements.entityBlocks, b.Shaped
  curve : ext = true → ∀ c ∈ s.curves, c.Ok
  patch : ext = true → ∀ p ∈ s.patches, p.Ok

/-- Every vector has fewer than `2^60` entries, as every C++ vector of 8-byte numbers does on this platform. -/
def MshSpec.InMemory (s : MshSpec) : Prop := ∀ n ∈ s.sizes, n < 2 ^ 60

/-- The version is one the library writes. -/
def MshSpec.KnownVersion (s : MshSpec) : Prop := s.meshFormat.version = b! "4.1" ∨ s.meshFormat.version = b! "2.2"

/-- Something that only exists in known versions has to be written: entities, nodes or elements. -/
def MshSpec.HasMesh (s : MshSpec) : Prop :=
  s.entities.points ≠ [] ∨ s.entities.curves ≠ [] ∨ s.entities.surfaces ≠ [] ∨ s.entities.volumes ≠ [] ∨
    s.nodes.numNodes ≠ 0 ∨ s.elements.numElements ≠ 0

/-- Elements have to be written in a format that looks up the element type, and one type is unknown. -/
def MshSpec.UnknownElement (s : MshSpec) : Prop :=
  s.elements.numElements ≠ 0 ∧ ¬ (s.meshFormat.version = b! "4.1" ∧ s.meshFormat.fileType ≠ 0) ∧
    ∃ b ∈ s.elements.entityBlocks, mshNodes b.elementType = none

/-- What makes `save_msh` throw `UnsupportedFeature`. -/
def MshSpec.Unsupported (s : MshSpec) : Prop := ¬ s.KnownVersion ∧ s.HasMesh ∨ s.KnownVersion ∧ s.UnknownElement

/-- What makes `save_msh` throw `InvalidFormat` (when nothing is `Unsupported`): binary data sections of an unknown
version. -/
def MshSpec.InvalidData (s : MshSpec) : Prop :=
  ¬ s.KnownVersion ∧ 0 < s.meshFormat.fileType.toInt ∧ (s.nodeData ≠ [] ∨ s.elementData ≠ [] ∨ s.elementNodeData ≠ [])

end MshIO
