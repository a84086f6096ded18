import Verif.Spec.Sections

/-!
# Specification: the format section of a file
-/

namespace MshIO

/-- The formats `load_msh` accepts (`src/load_msh_format.cpp:18-36`): version 2.2, or version 4.1 with 8 byte sizes. -/
def Accepted (f : MeshFormat) : Prop :=
  f.version = b! "2.2" ∨ f.version = b! "4.1" ∧ f.dataSize = 8

/-- `A` is a `$MeshFormat` section that announces the format `f`: the three words of the header, then, if the
file type is not 0, a line break and the integer one in little-endian byte order, then the end tag.  Any white space may
stand between the words, and after the integer. -/
def Announces (f : MeshFormat) (A : Bytes) : Prop :=
  ∃ w1 w2 w3 w4 w5 : Bytes, (Blank w1 ∧ w1 ≠ []) ∧ (Blank w2 ∧ w2 ≠ []) ∧ (Blank w3 ∧ w3 ≠ []) ∧ Blank w4 ∧ (Blank w5 ∧ w5 ≠ []) ∧
    ((f.fileType = 0 ∧ w4 ≠ [] ∧
      A = b! "$MeshFormat" ++ w1 ++ f.version ++ w2 ++ b! "0" ++ w3 ++ decI32 f.dataSize ++ w4 ++ b! "$EndMeshFormat" ++ w5) ∨
     (f.fileType ≠ 0 ∧
      A = b! "$MeshFormat" ++ w1 ++ f.version ++ w2 ++ decI32 f.fileType ++ w3 ++ decI32 f.dataSize ++ b! "\n" ++
        [1, 0, 0, 0] ++ w4 ++ b! "$EndMeshFormat" ++ w5))

end MshIO
