import Verif.Spec.Sections

/-! # White space before binary data (property C57) -/

namespace MshIO

/-- A line feed, carriage return, space or tab. -/
def Skipped (c : UInt8) : Prop := c = 10 ∨ c = 13 ∨ c = 32 ∨ c = 9

/-- A vertical tab or form feed: white space for formatted reads, but not skipped before binary data. -/
def Kept (c : UInt8) : Prop := c = 11 ∨ c = 12

end MshIO
