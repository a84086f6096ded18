import Verif.Spec.Execution

/-!
# Specification: sections in which `load_msh` can get stuck
-/

namespace MshIO

/-- The sections whose readers can leave the stream failed before the end of the file, in a build with or without assertions and with or without the extension, for a
file of format `f`: the format section; curves and patches, if read at all; elements of version 2.2; and, in builds without assertions, the physical names, the three
data sections, the nodes of version 2.2, and nodes, elements and entities of text files of version 4.1. -/
def stuckSections (asserts ext : Bool) (f : MeshFormat) : List Bytes :=
  [b! "MeshFormat"] ++ (if ext then [b! "Curves", b! "Patches"] else []) ++ (if f.version = b! "2.2" then [b! "Elements"] else []) ++
  if asserts then [] else
    [b! "PhysicalNames", b! "NodeData", b! "ElementData", b! "ElementNodeData"] ++
    (if f.version = b! "2.2" then [b! "Nodes"] else []) ++
    (if f.version = b! "4.1" ∧ f.fileType = 0 then [b! "Nodes", b! "Elements", b! "Entities"] else [])

end MshIO
