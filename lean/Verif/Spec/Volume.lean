import Verif.Spec.Consistent
import Verif.Spec.Execution

/-!
# Specification: how much a spec holds, and files that are read past their end
-/

namespace MshIO

/-- How much memory a spec needs: the number of entries of all its vectors, and the characters of the names of physical groups and of the string tags of data. -/
def MshSpec.volume (s : MshSpec) : Nat :=
  s.sizes.sum + (s.physicalGroups.map (·.name.length)).sum +
    ((s.nodeData ++ s.elementData ++ s.elementNodeData).map fun d => (d.header.stringTags.map List.length).sum).sum

/-- Reading `file`, the main loop reaches the section `$name`, while `f` is the format announced by the file, and an extraction or a read fails while the section is read;
the reader comes back all the same. -/
def Overrun (cfg : Cfg) (file name : Bytes) (f : MeshFormat) : Prop :=
  ∃ spec st st' x, Arrives cfg (Stream.ofBytes file) (spec, st) ∧ st.eof = false ∧ spec.meshFormat = f ∧
    inString [] st = .ok (36 :: name, st') ∧ loadSection cfg (36 :: name) spec st' = .ok x ∧ x.2.fail = true

end MshIO
