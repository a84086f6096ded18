import Verif.Spec.Sections
import Verif.Spec.Numeral
import Verif.Model.IStream
import Verif.Spec.White
import Verif.Spec.Format

/-!
# Specification: files without the features that make `load_msh` undefined
-/

namespace MshIO

/-- Ten digits in a row only follow a decimal point: digits that do not follow another digit or a decimal point are at most nine. -/
def NineDigits (F : Bytes) : Prop :=
  ∀ a d b, F = a ++ d ++ b → (∀ c ∈ a.getLast?, isDigit c = false ∧ c ≠ 46) → (∀ c ∈ d, isDigit c = true) → d.length ≤ 9

/-- Sections that start with a counter in text, which is read into an uninitialised variable. -/
def countedSections (ext : Bool) : List Bytes := b! "$PhysicalNames" :: if ext then [b! "$Curves", b! "$Patches"] else []

/-- Sections with post-processing data. -/
def dataSections : List Bytes := [b! "$NodeData", b! "$ElementData", b! "$ElementNodeData"]

/-- Reading `file`, the main loop arrives with `s` read at a section: white space, the name of the section, and `r`, which is empty or begins with white space. -/
def ArrivesAt (cfg : Cfg) (file : Bytes) (s : MshSpec) (name r : Bytes) : Prop :=
  (∀ c ∈ r.head?, isSpace c = true) ∧ ∃ w, Blank w ∧ Arrives cfg (Stream.ofBytes file) (s, ⟨w ++ name ++ r, false, false⟩)

/-- The main loop arrives at a counted section that is cut off before its counter. -/
def CounterMissing (cfg : Cfg) (file : Bytes) : Prop := ∃ s r, ∃ n ∈ countedSections cfg.nanospline, ArrivesAt cfg file s n r ∧ Blank r

/-! ## Data sections -/

/-- What follows the name of a data section: white space, the words of its head with the `int` tags `ints`, in which white space follows every word but the last, the character
`c` and the data `d`.  Doubles may be printed in any format, and the tags can be allocated. -/
def StartsData (cfg : Cfg) (r : Bytes) (ints : List Int32) (c : UInt8) (d : Bytes) : Prop :=
  ∃ lead words t P strs reals, r = Spaced lead words ++ (t ++ c :: d) ∧ Blank lead ∧ lead ≠ [] ∧ (∀ q ∈ words, Blank q.2 ∧ q.2 ≠ []) ∧
    words.map Prod.fst ++ [t] = headerWords P strs reals ints ∧ (∀ x ∈ reals, Printable P x) ∧
    strs.length ≤ cfg.maxCount ∧ reals.length ≤ cfg.maxCount ∧ ints.length ≤ cfg.maxCount

/-- A data section in text whose head is complete: white space follows it, and `$ElementNodeData` does not have a negative number of components. -/
def TextData (cfg : Cfg) (name r : Bytes) : Prop :=
  ∃ ints c d, StartsData cfg r ints c d ∧ isSpace c = true ∧ (name = b! "$ElementNodeData" → ∀ f ∈ ints[1]?, 0 ≤ f.toInt)

/-- A data section in binary whose head is complete: a line feed, carriage return, space or tab follows it. -/
def BinaryData (cfg : Cfg) (r : Bytes) : Prop := ∃ ints c d, StartsData cfg r ints c d ∧ Skipped c

/-- The data begin with the tag of an entry, in `$ElementNodeData` followed by its number of nodes, and `r`; the entry has `k` values when `f` is the number of components,
and these can be allocated. -/
def StartsEntry (cfg : Cfg) (elementNode : Prop) (f : Int32) (d : Bytes) (k : Nat) (r : Bytes) : Prop :=
  ((¬ elementNode ∧ ∃ tag, d = encI32 tag ++ r ∧ f.toInt = k) ∨
    (elementNode ∧ ∃ tag npe : Int32, d = encI32 tag ++ (encI32 npe ++ r) ∧ f.toInt * npe.toInt = k)) ∧ k ≤ cfg.maxCount

/-- Reading `n` entries from the data is undefined: there is an entry of which
* the tag is cut off; or
* in version 2.2 the number of nodes is cut off; or
* in version 4.1 the number of nodes is cut off, the number that the bytes present stand for can be allocated, and another entry is to be read; or
* the values are cut off, and another entry is to be read. -/
inductive EntriesUndefined (cfg : Cfg) (v22 elementNode : Prop) (f : Int32) : Nat → Bytes → Prop
  | tag {n d} : d.length < 4 → EntriesUndefined cfg v22 elementNode f (n + 1) d
  | count {n d} : v22 → elementNode → d.length < 8 → EntriesUndefined cfg v22 elementNode f (n + 1) d
  | short {n tag npe r} : ¬ v22 → elementNode → r.length < 4 → encI32 npe = r ++ List.replicate (4 - r.length) 0 → 0 ≤ f.toInt * npe.toInt →
      f.toInt * npe.toInt ≤ cfg.maxCount → EntriesUndefined cfg v22 elementNode f (n + 2) (encI32 tag ++ r)
  | values {n d k r} : StartsEntry cfg elementNode f d k r → r.length < 8 * k → EntriesUndefined cfg v22 elementNode f (n + 2) d
  | next {n d k r} : StartsEntry cfg elementNode f d k r → 8 * k ≤ r.length → EntriesUndefined cfg v22 elementNode f n (r.drop (8 * k)) →
      EntriesUndefined cfg v22 elementNode f (n + 1) d

/-- The data of the kind of a section read so far. -/
def MshSpec.dataIn (s : MshSpec) (name : Bytes) : List Data :=
  if name = b! "$NodeData" then s.nodeData else if name = b! "$ElementData" then s.elementData else s.elementNodeData

/-- Reading a binary data section is undefined: there is room for it and for its entries, and reading these is undefined. -/
def DataUndefined (cfg : Cfg) (s : MshSpec) (name : Bytes) (ints : List Int32) (d : Bytes) : Prop :=
  (s.dataIn name).length < cfg.maxCount ∧ ∃ g f n more, ints = g :: f :: n :: more ∧ 0 ≤ n.toInt ∧ n.toInt ≤ cfg.maxCount ∧
    EntriesUndefined cfg (s.meshFormat.version = b! "2.2") (name = b! "$ElementNodeData") f n.toInt.toNat d

/-- In a file with the format `fmt`, the main loop arrives at a binary data section that is undefined.  Data sections are binary if the file type is positive. -/
def DataCutOff (cfg : Cfg) (fmt : MeshFormat) (file : Bytes) : Prop := 0 < fmt.fileType ∧ ∃ s r ints c d, ∃ n ∈ dataSections, ArrivesAt cfg file s n r ∧
  s.meshFormat = fmt ∧ StartsData cfg r ints c d ∧ Skipped c ∧ DataUndefined cfg s n ints d

/-! ## Entities -/

/-- What follows the name of an `$Entities` section in text, when the section is complete: its words, with white space after each, and anything.  Doubles may be printed in
any format, and the entities can be allocated. -/
def TextEntities (cfg : Cfg) (r : Bytes) : Prop :=
  ∃ lead words t P e, r = Spaced lead words ++ t ∧ Blank lead ∧ (∀ q ∈ words, Blank q.2 ∧ q.2 ≠ []) ∧ words.map Prod.fst = (entitiesLines P e).flatten ∧
    (∀ x ∈ ({ entities := e } : MshSpec).doubles, Printable P x) ∧ ∀ n ∈ ({ entities := e } : MshSpec).sizes, n ≤ cfg.maxCount

/-- Lists of tags, each after so many bytes and its length, are cut off: there is a list of which
* the length is cut off; or
* the tags, which can be allocated, are cut off, and another list is to be read. -/
inductive ListsUndefined (cfg : Cfg) : List Nat → Bytes → Prop
  | length {g gaps d} : d.length < g + 8 → ListsUndefined cfg (g :: gaps) d
  | tags {g g' gaps skipped n r} : skipped.length = g → n.toNat ≤ cfg.maxCount → r.length < 4 * n.toNat →
      ListsUndefined cfg (g :: g' :: gaps) (skipped ++ (encU64 n ++ r))
  | next {g gaps skipped n r} : skipped.length = g → n.toNat ≤ cfg.maxCount → 4 * n.toNat ≤ r.length → ListsUndefined cfg gaps (r.drop (4 * n.toNat)) →
      ListsUndefined cfg (g :: gaps) (skipped ++ (encU64 n ++ r))

/-- Reading the data `d` of a binary `$Entities` section is undefined in a build with `NDEBUG`: one of the four counts is cut off, and those before it can be allocated; or all
can be allocated, and the lists of tags are cut off.  A point has one list, after its tag and three coordinates; a curve, surface or volume has two, the first one after its tag
and six coordinates. -/
def EntitiesUndefined (cfg : Cfg) (d : Bytes) : Prop :=
  (∃ (counts : List UInt64) (r : Bytes), d = counts.flatMap encU64 ++ r ∧ (∀ n ∈ counts, n.toNat ≤ cfg.maxCount) ∧ counts.length < 4 ∧ r.length < 8) ∨
  ∃ p c s v r, d = [p, c, s, v].flatMap encU64 ++ r ∧ (∀ n ∈ [p, c, s, v], n.toNat ≤ cfg.maxCount) ∧
    ListsUndefined cfg (List.replicate p.toNat (4 + 3 * 8) ++ (List.replicate (c.toNat + s.toNat + v.toNat) [4 + 6 * 8, 0]).flatten) r

/-- Where binary data start after the name of a section: after one line feed, carriage return, space or tab, if there is one. -/
def DataAfter (r d : Bytes) : Prop := (∃ c, r = c :: d ∧ Skipped c) ∨ (d = r ∧ ∀ c ∈ r.head?, ¬ Skipped c)

/-- In a file with the format `fmt`, the main loop arrives at a binary `$Entities` section that is undefined, in a build with `NDEBUG`. -/
def EntitiesCutOff (cfg : Cfg) (fmt : MeshFormat) (file : Bytes) : Prop :=
  cfg.asserts = false ∧ ∃ s r d, ArrivesAt cfg file s (b! "$Entities") r ∧ s.meshFormat = fmt ∧ DataAfter r d ∧ EntitiesUndefined cfg d

/-! ## Nodes of version 4.1 -/

/-- What `old` becomes when it is read into from the data `d`, which may be too short. -/
def Over (d old : Bytes) : Bytes := d.take old.length ++ old.drop d.length

/-- The head of a block of nodes: dimension, tag, whether there are parametric coordinates, number of nodes. -/
def blockHead (dim tag par : Int32) (num : UInt64) : Bytes := encI32 dim ++ (encI32 tag ++ (encI32 par ++ encU64 num))

/-- The head of a block read from the data `d`; `b` is what the block held before. -/
def ReadsHead (b : NodeBlock) (d : Bytes) (dim tag par : Int32) (num : UInt64) : Prop :=
  blockHead dim tag par num = Over d (blockHead b.entityDim b.entityTag b.parametric b.numNodesInBlock)

/-- Reading blocks of nodes from the data `d` is undefined, `bs` being what the blocks held before: three cannot be added to the dimension of a block with parametric coordinates
whose tags can be allocated; and everything before can be allocated.  What is cut off keeps what was there before; in builds with assertions that stops the program. -/
inductive BlocksUndefined (cfg : Cfg) : List NodeBlock → Bytes → Prop
  | here {b bs d dim tag num} : ReadsHead b d dim tag 1 num → num.toNat ≤ cfg.maxCount → 2 ^ 31 ≤ dim.toInt + 3 →
      (cfg.asserts = true → 20 + 8 * num.toNat ≤ d.length) → BlocksUndefined cfg (b :: bs) d
  | next {b bs d dim tag par num} {k : Nat} : ReadsHead b d dim tag par num → num.toNat ≤ cfg.maxCount → ¬ (par = 1 ∧ 2 ^ 31 ≤ dim.toInt + 3) →
      (k : Int) = num.toNat * (3 + if par = 1 then dim.toInt else 0) % 2 ^ 64 → k ≤ cfg.maxCount →
      (cfg.asserts = true → 20 + 8 * num.toNat + 8 * k ≤ d.length) → BlocksUndefined cfg bs (d.drop (20 + 8 * num.toNat + 8 * k)) → BlocksUndefined cfg (b :: bs) d

/-- Reading the data `d` of a binary `$Nodes` section of version 4.1 is undefined when `n` has been read before: the number of blocks is the first of four numbers. -/
def Nodes41Undefined (cfg : Cfg) (n : Nodes) (d : Bytes) : Prop :=
  (cfg.asserts = true → 32 ≤ d.length) ∧ ∃ N : UInt64, encU64 N = Over d (encU64 n.numEntityBlocks) ∧ N.toNat ≤ cfg.maxCount ∧
    BlocksUndefined cfg (n.entityBlocks.take N.toNat ++ List.replicate (N.toNat - n.entityBlocks.length) ({} : NodeBlock)) (d.drop 32)

/-- In a file with the format `fmt`, the main loop arrives at a binary `$Nodes` section that is undefined. -/
def NodesOverflow (cfg : Cfg) (fmt : MeshFormat) (file : Bytes) : Prop :=
  ∃ s r d, ArrivesAt cfg file s (b! "$Nodes") r ∧ s.meshFormat = fmt ∧ DataAfter r d ∧ Nodes41Undefined cfg s.nodes d

/-! ## Version 4.1 -/

/-- What follows the header of a text file, when it does not use the features that can be undefined: no second `$MeshFormat`, no incomplete entities or heads of data sections,
no number with ten or more digits before its decimal point.  Nothing else is asked: the bytes may be malformed, truncated or random. -/
structure Harmless (cfg : Cfg) (F : Bytes) : Prop where
  format : ¬ b! "$MeshFormat" <:+: F
  entities : ∀ r, b! "$Entities" ++ r <:+ F → TextEntities cfg r
  data : ∀ n ∈ dataSections, ∀ r, n ++ r <:+ F → TextData cfg n r
  digits : NineDigits F

/-- What follows the header of a binary file, when it does not use the features that can be undefined: no second `$MeshFormat`, no incomplete heads of data sections.
Data sections are binary if the file type `t` is positive.  Nothing else is asked. -/
structure HarmlessBinary (cfg : Cfg) (t : Int32) (F : Bytes) : Prop where
  format : ¬ b! "$MeshFormat" <:+: F
  data : ∀ n ∈ dataSections, ∀ r, n ++ r <:+ F → 0 < t ∧ BinaryData cfg r

/-! ## Version 2.2 -/

/-- An integer of at most nine digits, perhaps with a sign. -/
def ShortInt (t : Bytes) : Prop := ∃ (s : Option Bool) (l : List (Fin 10)), t = signText s ++ digitsText l ∧ l ≠ [] ∧ l.length ≤ 9

/-- What follows the name of an `$Elements` section that is not cut off or malformed before its second element: the number of elements and, unless that
is zero, the number and the type of the first element, and then anything but the end of the file. -/
def StartsElements (r : Bytes) : Prop :=
  ∃ lead words t, r = Spaced lead words ++ t ∧ Blank lead ∧ (∀ q ∈ words, ShortInt q.1 ∧ Blank q.2 ∧ q.2 ≠ []) ∧
    ((words.length = 3 ∧ ∃ c ∈ t.head?, isSpace c = false) ∨ words.map Prod.fst = [b! "0"])

/-- What follows the header of a text file of version 2.2, when it does not use the features that can be undefined: no second `$MeshFormat`, no
incomplete heads of data sections, no `$Elements` section cut off or malformed in its first element.  Nothing else is asked. -/
structure Harmless22 (cfg : Cfg) (F : Bytes) : Prop where
  format : ¬ b! "$MeshFormat" <:+: F
  data : ∀ n ∈ dataSections, ∀ r, n ++ r <:+ F → TextData cfg n r
  elements : ∀ r, b! "$Elements" ++ r <:+ F → StartsElements r

/-- The length of the table of node tags that is made after a file of version 2.2 has been read (`src/load_msh_post_process.cpp:17-18`), computed modulo `2^64`:
from the least node tag to the greatest one. -/
def MshSpec.tableSize (s : MshSpec) : Int := ((s.nodes.maxNodeTag.toNat : Int) - s.nodes.minNodeTag.toNat + 1) % 2 ^ 64

/-- The place of a tag in the table, computed modulo `2^64` (`src/load_msh_post_process.cpp:19-21`). -/
def MshSpec.tableIndex (s : MshSpec) (tag : UInt64) : Int := ((tag.toNat : Int) - s.nodes.minNodeTag.toNat) % 2 ^ 64

/-- The tags looked up in the table: those of the nodes and those of the nodes of the elements, which follow the tag of the element. -/
def MshSpec.LooksUp (s : MshSpec) (tag : UInt64) : Prop :=
  (∃ b ∈ s.nodes.entityBlocks, tag ∈ b.tags) ∨ ∃ b ∈ s.elements.entityBlocks, tag ∈ b.data.tail

/-- Binary data of version 2.2 starts with a group of elements: the type of the elements, their number and the number of tags of each of them, followed by
`r`.  A group of a known type has `k` nodes per element (`mshNodes`). -/
def StartsGroup (d : Bytes) (ty nb nt : Int32) (k : Nat) (r : Bytes) : Prop :=
  d = encI32 ty ++ (encI32 nb ++ (encI32 nt ++ r)) ∧ mshNodes ty = some k

/-- The bytes of a group of elements: the number, the tags and the nodes of each element. -/
def groupBytes (nb nt : Int32) (k : Nat) : Nat := nb.toInt.toNat * (4 * (1 + nt.toInt.toNat + k))

/-- Reading the data `d` of an `$Elements` section of a binary version 2.2 file is undefined when `p` of `N` elements have been read, and there is memory
for `R` of them: some element is missing and
* there is no complete header of another group; or
* there is one of a known type with elements (or a negative number of them), but not the number of the first of these; or
* its number of tags can be allocated, but four times that number does not fit into `int`; or
* the group is cut off later, and is not the last one; or
* the group is complete, and what follows is undefined. -/
inductive GroupsUndefined (cfg : Cfg) (N R : Nat) : Nat → Bytes → Prop
  | header {p d} : p ≠ N → p ≤ R → d.length < 12 → GroupsUndefined cfg N R p d
  | first {p d ty nb nt k r} : p ≠ N → p ≤ R → StartsGroup d ty nb nt k r → 0 ≤ nt.toInt → nt.toInt ≤ cfg.maxCount → nb ≠ 0 → r.length < 4 →
      GroupsUndefined cfg N R p d
  | tags {p d ty nb nt k r} : p ≠ N → p ≤ R → StartsGroup d ty nb nt k r → 2 ^ 29 ≤ nt.toInt → nt.toInt ≤ cfg.maxCount → nb ≠ 0 →
      GroupsUndefined cfg N R p d
  | cut {p d ty nb nt k r} : StartsGroup d ty nb nt k r → 0 ≤ nt.toInt → nt.toInt < 2 ^ 29 → nt.toInt ≤ cfg.maxCount → 0 < nb.toInt →
      p + nb.toInt.toNat < N → p + nb.toInt.toNat ≤ R → r.length < groupBytes nb nt k → GroupsUndefined cfg N R p d
  | next {p d ty nb nt k r} : p ≠ N → StartsGroup d ty nb nt k r → 0 ≤ nt.toInt → nt.toInt < 2 ^ 29 ∨ nb = 0 → nt.toInt ≤ cfg.maxCount → 0 ≤ nb.toInt →
      p + nb.toInt.toNat ≤ N → groupBytes nb nt k ≤ r.length → GroupsUndefined cfg N R (p + nb.toInt.toNat) (r.drop (groupBytes nb nt k)) →
      GroupsUndefined cfg N R p d

/-- What follows the name of a section are white space, a count that is written plainly, a line feed, carriage return, space or tab, and the data `d`. -/
def Counted (r : Bytes) (N : UInt64) (d : Bytes) : Prop :=
  ∃ w c, r = w ++ decU64 N ++ c :: d ∧ Blank w ∧ w ≠ [] ∧ Skipped c

/-- Reading a `$Nodes` section with the data `d` of a binary version 2.2 file is undefined: the nodes can be allocated, and the data end before the number of the
last node is complete.  In builds with assertions one of these stops the program instead if the data are empty or end after the number of a node. -/
def NodesUndefined (cfg : Cfg) (s : MshSpec) (N : UInt64) (d : Bytes) : Prop :=
  s.nodes.entityBlocks.length < cfg.maxCount ∧ 3 * N.toNat ≤ cfg.maxCount ∧ d.length + 24 < 28 * N.toNat ∧
    (cfg.asserts = true → d ≠ [] ∧ d.length % 28 < 4)

/-- Reading an `$Elements` section with the data `d` of a binary version 2.2 file is undefined. -/
def ElementsUndefined (cfg : Cfg) (s : MshSpec) (N : UInt64) (d : Bytes) : Prop :=
  N.toNat ≤ cfg.maxCount ∧ GroupsUndefined cfg N.toNat (cfg.maxCount - s.elements.entityBlocks.length) 0 d

/-- What follows the header of a binary file of version 2.2: no second `$MeshFormat`, no incomplete heads of data sections, and the numbers of nodes and elements are there
and written plainly.  Nothing else is asked. -/
structure Harmless22b (cfg : Cfg) (t : Int32) (F : Bytes) : Prop where
  format : ¬ b! "$MeshFormat" <:+: F
  data : ∀ n ∈ dataSections, ∀ r, n ++ r <:+ F → 0 < t ∧ BinaryData cfg r
  nodes : ∀ r, b! "$Nodes" ++ r <:+ F → ∃ N d, Counted r N d
  elements : ∀ r, b! "$Elements" ++ r <:+ F → ∃ N d, Counted r N d

end MshIO
