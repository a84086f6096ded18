import Verif.Model.IStream

/-!
# Specification: quoted strings

Physical names and string tags appear in files between double quotes.
-/

namespace MshIO

/-- A string with a backslash in front of every double quote and every backslash. -/
def escaped : Bytes → Bytes
  | [] => []
  | c :: s => if [c] = b! "\"" ∨ [c] = b! "\\" then b! "\\" ++ c :: escaped s else c :: escaped s

/-- A string between double quotes. -/
def quoted (s : Bytes) : Bytes := b! "\"" ++ escaped s ++ b! "\""

/-- A way to spell the string `s` between double quotes: every character is either itself, unless it is a double
quote or a backslash, or comes after a backslash. -/
inductive Spells : Bytes → Bytes → Prop
  | nil : Spells [] []
  | plain {c t s} : [c] ≠ b! "\"" → [c] ≠ b! "\\" → Spells t s → Spells (c :: t) (c :: s)
  | escape {c t s} : Spells t s → Spells (b! "\\" ++ c :: t) (c :: s)

/-- How a name may appear in a file: spelled between double quotes, or as a bare word that does not start with a
double quote. -/
def NameText (text name : Bytes) : Prop :=
  (∃ t, Spells t name ∧ text = b! "\"" ++ t ++ b! "\"") ∨
  (text = name ∧ name ≠ [] ∧ (∀ c ∈ name, isSpace c = false) ∧ ¬ b! "\"" <+: name)

end MshIO
