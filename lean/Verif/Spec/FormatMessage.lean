import Verif.Spec.Rejected
import Verif.Spec.Format

/-!
# Specification: what each message about a `$MeshFormat` section means
-/

namespace MshIO

/-- The complaint about a `$MeshFormat` section when `f` has been read before; what cannot be read is as in `f`. -/
inductive FormatComplaint (f : MeshFormat) (x : Place) : Bytes → Prop where
  /-- The version is neither 2.2 nor 4.1. -/
  | version (w : Option Bytes) (y : Place) : TakesWord x w y → w.getD f.version ∉ [b! "2.2", b! "4.1"] →
      FormatComplaint f x (b! "Unsupported MSH version: " ++ w.getD f.version)
  /-- The version is 4.1 and the size of data is not 8. -/
  | size (w : Option Bytes) (y : Place) (t : Option Int32) (y1 : Place) (z : Option Int32) (y2 : Place) :
      TakesWord x w y → TakesInt y t y1 → TakesInt y1 z y2 → w.getD f.version = b! "4.1" → z.getD f.dataSize ≠ 8 →
      FormatComplaint f x (b! "MSH file (v4.1) requested data size of " ++ intText (z.getD f.dataSize).toInt ++
        b! " bytes, which is different than `size_t` (8 bytes)")
  /-- Version and size of data are in order, the file type is not zero, and no `1` follows as a binary `int` of this
  machine; of an `int` that is cut off, the bytes that are missing count as zero. -/
  | order (w : Option Bytes) (y : Place) (t : Option Int32) (y1 : Place) (z : Option Int32) (y2 : Place) (d : Bytes) :
      TakesWord x w y → TakesInt y t y1 → TakesInt y1 z y2 → w.getD f.version ∈ [b! "2.2", b! "4.1"] →
      (w.getD f.version = b! "4.1" → z.getD f.dataSize = 8) → t.getD f.fileType ≠ 0 → DataPast y2 d → Over d (encI32 0) ≠ encI32 1 →
      FormatComplaint f x (b! "MSH file (v" ++ w.getD f.version ++ b! ") is encoded with unsupported endianness!")

end MshIO
