import Verif.Model.LoadBasic

/-!
# The message `load_mesh_format` throws (`src/load_msh_format.cpp`)

`loadMeshFormat` (`Model/LoadBasic.lean`) leaves out the text of the `UnsupportedFeature` it throws.  Here the same
code is modelled with the text; `C83_same_outcome` shows that the two agree on when it throws.
-/

namespace MshIO

/-- `load_mesh_format` (`src/load_msh_format.cpp:14-44`): `what()` of the exception it throws, or none if it returns.
`sizeof(size_t)` is 8; the message streams are in the "C" locale. -/
def formatMessage (f : MeshFormat) : Rd (Option Bytes) := do
  let version ← inString f.version
  if version ≠ b! "2.2" ∧ version ≠ b! "4.1" then return some (b! "Unsupported MSH version: " ++ version)
  else do
    let fileType ← inInt f.fileType
    let dataSize ← inInt f.dataSize
    if version = b! "4.1" ∧ sizeOfInt dataSize ≠ 8 then
      return some (b! "MSH file (v4.1) requested data size of " ++ decI32 dataSize ++
        b! " bytes, which is different than `size_t` (" ++ decU64 8 ++ b! " bytes)")
    else if fileType ≠ 0 then do
      eatWhiteSpace (2 ^ 64 - 1)
      let one ← readInt 0
      if one ≠ 1 then return some (b! "MSH file (v" ++ version ++ b! ") is encoded with unsupported endianness!")
      else return none
    else return none

end MshIO
