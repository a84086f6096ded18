import Verif.Spec.Sections
import Verif.Spec.Spelling22
import Verif.Spec.Pieces22
import Verif.Model.Warn

/-!
# Specification: warnings about skipped sections
-/

namespace MshIO

/-- The bytes `load_msh` writes to the standard error stream while it reads a file. -/
def warnings (cfg : Cfg) (file : Bytes) : Bytes := (loadMshE cfg file).1

/-- The line about the section `$name`. -/
def warningLine (name : Bytes) : Bytes := b! "Warning: skipping section \"$" ++ name ++ b! "\"\n"

/-- If a round of the main loop that reads this word finds a section no build knows: its name. -/
def unknownName : Bytes → List Bytes
  | 36 :: name => if name ∈ knownSections true then [] else [name]
  | _ => []

/-- The names of the unknown sections that complete rounds of the main loop find. -/
def unknownNames (ms : List Meets) : List Bytes := ms.flatMap fun m => unknownName m.word

/-- The name of the unknown section a round that starts in `s` finds. -/
def unknownNext (s : Stream) : List Bytes :=
  if s.eof then [] else
    match inString [] s with
    | .ok (word, _) => unknownName word
    | _ => []

/-- Nothing new happens from `x` on: the loop is over, or the round that starts in `x` does not come to its end, or it comes back to `x`. -/
def Final (cfg : Cfg) (x : MshSpec × Stream) : Prop :=
  x.2.eof = true ∨ (∀ y, ¬ MainIter cfg x y) ∨ MainIter cfg x x

/-- The name of the section, if no build of MshIO knows it. -/
def Part.unknown : Part → List Bytes
  | .other name _ => if name ∈ knownSections true then [] else [name]
  | _ => []

/-- The name of the section, if no build of MshIO knows it. -/
def Part22.unknown : Part22 → List Bytes
  | .common p => p.unknown
  | _ => []

end MshIO
