import Verif.Model.MshSpec

/-!
# Specification: which exceptions reading a section can throw
-/

namespace MshIO

/-- The exceptions with which reading the section `name` of a file of format `f` can end.  `alloc` stands for the `std::bad_alloc` and `std::length_error` of vectors. -/
def sectionThrows (ext : Bool) (f : MeshFormat) (name : Bytes) : List Exc :=
  if name = b! "$MeshFormat" then [.unsupportedFeature]
  else if name = b! "$Entities" then if f.version = b! "2.2" then [.invalidFormat] else [.alloc]
  else if name = b! "$PhysicalNames" ∨ name = b! "$Nodes" then [.alloc]
  else if name = b! "$Elements" then
    if f.version = b! "2.2" ∧ f.fileType ≠ 0 then [.alloc, .unsupportedFeature, .invalidFormat] else [.alloc, .unsupportedFeature]
  else if name = b! "$NodeData" ∨ name = b! "$ElementData" ∨ name = b! "$ElementNodeData" then [.alloc, .invalidFormat]
  else if ext = true ∧ (name = b! "$Curves" ∨ name = b! "$Patches") then [.alloc]
  else []

end MshIO
