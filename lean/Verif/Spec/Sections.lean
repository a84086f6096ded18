import Verif.Spec.Execution
import Verif.Spec.Consistent
import Verif.Model.OStream
import Verif.Spec.Quoted

/-!
# Specification: sections of a file
-/

namespace MshIO

/-- White space separated words: some white space, then words, each followed by non-empty white space. -/
def Spaced (lead : Bytes) (words : List (Bytes × Bytes)) : Bytes :=
  lead ++ (words.map fun q => q.1 ++ q.2).flatten

/-- Only white space. -/
def Blank (w : Bytes) : Prop := ∀ c ∈ w, isSpace c = true

/-- `A` is one section named `name` that the main loop, holding `spec`, reads in one round up to trailing
white space, after which it holds `spec'`. -/
structure IsSection (cfg : Cfg) (spec : MshSpec) (name A : Bytes) (spec' : MshSpec) : Prop where
  start : ∃ r, A = 36 :: name ++ r ∧ ∃ c r', r = c :: r' ∧ isSpace c = true
  word : ∀ c ∈ name, isSpace c = false
  round : ∃ w, Blank w ∧ MainIter cfg (spec, ⟨A, false, false⟩) (spec', ⟨w, false, false⟩)

/-- A run of sections, each a name and its bytes, that the main loop reads one after the other. -/
inductive Chain (cfg : Cfg) : MshSpec → List (Bytes × Bytes) → MshSpec → Prop
  | nil (s) : Chain cfg s [] s
  | cons {s t u name A L} : IsSection cfg s name A t → Chain cfg t L u → Chain cfg s ((name, A) :: L) u

/-- Two orders of the same sections that keep the relative order of equally named ones: one comes from the
other by exchanging neighbours of different names. -/
inductive Reorder : List (Bytes × Bytes) → List (Bytes × Bytes) → Prop
  | refl (L) : Reorder L L
  | swap {p q : Bytes × Bytes} (K L) : p.1 ≠ q.1 → Reorder (K ++ p :: q :: L) (K ++ q :: p :: L)
  | trans {L M N} : Reorder L M → Reorder M N → Reorder L N

/-- `put name t s`: `s` with the member that the section `name` of a v4.1 file fills taken from `t`. -/
def MshSpec.put (name : Bytes) (t s : MshSpec) : MshSpec where
  meshFormat := if name = b! "MeshFormat" then t.meshFormat else s.meshFormat
  nodes := if name = b! "Nodes" then t.nodes else s.nodes
  elements := if name = b! "Elements" then t.elements else s.elements
  entities := if name = b! "Entities" then t.entities else s.entities
  physicalGroups := if name = b! "PhysicalNames" then t.physicalGroups else s.physicalGroups
  nodeData := if name = b! "NodeData" then t.nodeData else s.nodeData
  elementData := if name = b! "ElementData" then t.elementData else s.elementData
  elementNodeData := if name = b! "ElementNodeData" then t.elementNodeData else s.elementNodeData
  nanosplineVersion := if name = b! "NanoSplineFormat" then t.nanosplineVersion else s.nanosplineVersion
  curves := if name = b! "Curves" then t.curves else s.curves
  patches := if name = b! "Patches" then t.patches else s.patches

/-- What a round of the main loop meets: the word it reads, the format announced so far, and the stream
right after the word. -/
structure Meets where
  word : Bytes
  format : MeshFormat
  stream : Stream

/-- The rounds of the main loop from `x` to `y`, with what they meet. -/
inductive Rounds (cfg : Cfg) : MshSpec × Stream → List Meets → MshSpec × Stream → Prop
  | nil (x) : Rounds cfg x [] x
  | cons {x y z word s ws} : inString [] x.2 = .ok (word, s) → MainIter cfg x y → Rounds cfg y ws z →
      Rounds cfg x (⟨word, x.1.meshFormat, s⟩ :: ws) z

/-- The words of a data section header with the given tags, doubles printed in the format `P`. -/
def headerWords (P : Fmt) (strs : List Bytes) (reals : List Double) (ints : List Int32) : List Bytes :=
  decNat strs.length :: strs.map quoted ++ decNat reals.length :: reals.map (fmtDouble P) ++
    decNat ints.length :: ints.map decI32

end MshIO
