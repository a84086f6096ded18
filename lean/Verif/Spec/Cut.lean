import Verif.Spec.Execution

/-!
# Specification: where a file ends
-/

namespace MshIO

/-- The end of the file `p` is met in the section `$name`, while `f` is the format announced by the file: the main loop reaches a round that reads the word
`$name` and comes back with the end of the file reached. -/
def EndsIn (cfg : Cfg) (p name : Bytes) (f : MeshFormat) : Prop :=
  ∃ spec st st' x, Arrives cfg (Stream.ofBytes p) (spec, st) ∧ st.eof = false ∧ spec.meshFormat = f ∧
    inString [] st = .ok (36 :: name, st') ∧ loadRound cfg spec st = .ok x ∧ x.2.eof = true

/-- The sections whose readers do not check, at their end, that the stream is still good: the format and, in builds with the extension, curves and patches;
in version 2.2 also the elements and, in binary files, the nodes. -/
def uncheckedSections (ext : Bool) (f : MeshFormat) : List Bytes :=
  [b! "MeshFormat", b! "NanoSplineFormat"] ++ (if ext then [b! "Curves", b! "Patches"] else []) ++
  if f.version = b! "2.2" then b! "Elements" :: (if f.fileType = 0 then [] else [b! "Nodes"]) else []

/-- The bytes of the first `k` sections of a list of sections, each given by its name and its bytes. -/
def firstSections (k : Nat) (L : List (Bytes × Bytes)) : Bytes := ((L.take k).map Prod.snd).flatten

end MshIO
