import Verif.Spec.Consistent
import Verif.Model.OStream

/-!
# Specification: element blocks in version 4.1 files
-/

namespace MshIO

/-- The words in front of the elements of a block: dimension and tag of the entity, element type, number of
elements. -/
def blockHeadWords (b : ElementBlock) : List Bytes :=
  [decI32 b.entityDim, decI32 b.entityTag, decI32 b.elementType, decU64 b.numElementsInBlock]

/-- The words of a block in an ASCII file: the head, then tag and nodes of every element. -/
def blockWords (b : ElementBlock) : List Bytes := blockHeadWords b ++ b.data.map decU64

/-- The bytes in front of the elements of a block in a binary file. -/
def blockHeadBytes (b : ElementBlock) : Bytes :=
  encI32 b.entityDim ++ encI32 b.entityTag ++ encI32 b.elementType ++ encU64 b.numElementsInBlock

/-- The bytes of a block in a binary file. -/
def blockBytes (b : ElementBlock) : Bytes := blockHeadBytes b ++ b.data.flatMap encU64

end MshIO
