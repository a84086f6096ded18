import Verif.Spec.Text
import Verif.Spec.Hazards

/-!
# Specification: the sections that make `load_msh` undefined

For every section name and every text or data that may follow it, however malformed or cut off.
-/

namespace MshIO

/-- An `int` converted to `size_t`. -/
def asSize (x : Int32) : Nat := (x.toInt % 2 ^ 64).toNat

/-- Where binary data start: after one line feed, carriage return, space or tab, if there is one.  Nothing can be read after a failure. -/
def DataFrom : Place → Bytes → Prop
  | .on r, d => DataAfter r d
  | .stuck, d => d = []
  | .ended, d => d = []

/-- Reading a counter into an uninitialised variable and going on with `P` is undefined: nothing is stored; or the number stored can be allocated, and the rest is undefined. -/
def CounterUndefined (cfg : Cfg) (x : Place) (P : Nat → Place → Prop) : Prop :=
  ∃ v y, TakesSize x v y ∧ ∀ n ∈ v, n.toNat ≤ cfg.maxCount ∧ P n.toNat y

/-- Reading a table of so many numbers into a vector, whose length is computed modulo `2^64`, and going on with `P` is undefined: the vector can be allocated, and the table does
not fit, or the rest is undefined. -/
def TableUndefined (cfg : Cfg) (R : Place → Place → Prop) (total : Nat) (x : Place) (P : Place → Prop) : Prop :=
  total % 2 ^ 64 ≤ cfg.maxCount ∧ (2 ^ 64 ≤ total ∨ ∃ y, Many R total x y ∧ P y)

/-! ## Data sections -/

/-- Reading `int`s one after the other; where nothing is stored, zero remains. -/
inductive TakesInts : Nat → Place → List Int32 → Place → Prop
  | zero {x} : TakesInts 0 x [] x
  | next {n x v y l z} : TakesInt x v y → TakesInts n y l z → TakesInts (n + 1) x (v.getD 0 :: l) z

/-- Reading `n` entries of `$ElementNodeData` in text is undefined: the tag, the number of nodes, a table with `f` values for each node, and the other entries. -/
def EntriesTextUndefined (cfg : Cfg) (f : Int32) : Nat → Place → Prop
  | 0, _ => False
  | n + 1, x => ∃ y w z, SkipsSize x y ∧ TakesInt y w z ∧ TableUndefined cfg TakesReal (asSize f * asSize (w.getD 0)) z (EntriesTextUndefined cfg f n)

/-- Reading a data section is undefined: three counters with strings, reals and `int`s, then entries.  Data sections are binary if the file type is positive. -/
def DataSectionUndefined (cfg : Cfg) (s : MshSpec) (name : Bytes) (x : Place) : Prop :=
  (s.dataIn name).length < cfg.maxCount ∧
    CounterUndefined cfg x fun n x => ∃ y, Many TakesQuoted n x y ∧
    CounterUndefined cfg y fun n x => ∃ y, Many TakesReal n x y ∧
    CounterUndefined cfg y fun n x => ∃ ints y, TakesInts n x ints y ∧ (cfg.asserts = true → y.Good) ∧
    ∃ g f n more, ints = g :: f :: n :: more ∧ 0 ≤ n.toInt ∧ n.toInt ≤ cfg.maxCount ∧
      if 0 < s.meshFormat.fileType then
        ∃ d, DataFrom y d ∧ EntriesUndefined cfg (s.meshFormat.version = b! "2.2") (name = b! "$ElementNodeData") f n.toInt.toNat d
      else name = b! "$ElementNodeData" ∧ EntriesTextUndefined cfg f n.toInt.toNat y

/-! ## Entities -/

/-- Reading lists of tags in text is undefined, each after something else and its length. -/
def ListsTextUndefined (cfg : Cfg) : List (Place → Place → Prop) → Place → Prop
  | [], _ => False
  | before :: more, x => ∃ y, before x y ∧ CounterUndefined cfg y fun n y => ∃ z, Many SkipsInt n y z ∧ ListsTextUndefined cfg more z

/-- A tag and `k` coordinates. -/
def SkipsHead (k : Nat) (x z : Place) : Prop := ∃ y, SkipsInt x y ∧ Many TakesReal k y z

/-- Reading an `$Entities` section in text is undefined: four counts, then lists of tags.  A point has one list, after its tag and three coordinates; a curve, surface or volume
has two, the first one after its tag and six coordinates. -/
def EntitiesTextUndefined (cfg : Cfg) (x : Place) : Prop :=
  ∃ np x1 nc x2 ns x3 nv y, TakesSize x np x1 ∧ TakesSize x1 nc x2 ∧ TakesSize x2 ns x3 ∧ TakesSize x3 nv y ∧ (cfg.asserts = true → y.Good) ∧
    ∀ p ∈ np, p.toNat ≤ cfg.maxCount ∧ ∀ c ∈ nc, c.toNat ≤ cfg.maxCount ∧ ∀ s ∈ ns, s.toNat ≤ cfg.maxCount ∧ ∀ v ∈ nv, v.toNat ≤ cfg.maxCount ∧
      ListsTextUndefined cfg (List.replicate p.toNat (SkipsHead 3) ++ (List.replicate (c.toNat + s.toNat + v.toNat) [SkipsHead 6, Eq]).flatten) y

/-! ## Nodes and elements of version 4.1 -/

/-- Reading blocks of nodes in text is undefined; `b` is what a block held before, and what is not stored keeps that.  Three cannot be added to the dimension of a block with
parametric coordinates; or the coordinates do not fit. -/
def BlocksTextUndefined (cfg : Cfg) : List NodeBlock → Place → Prop
  | [], _ => False
  | b :: bs, x => ∃ d x1 x2 p x3 v x4 x5, TakesInt x d x1 ∧ SkipsInt x1 x2 ∧ TakesInt x2 p x3 ∧ TakesSize x3 v x4 ∧ (cfg.asserts = true → x4.Good) ∧
      (v.getD b.numNodesInBlock).toNat ≤ cfg.maxCount ∧ Many SkipsSize (v.getD b.numNodesInBlock).toNat x4 x5 ∧
      (cfg.asserts = true → x5.Good ∧ 0 ≤ (p.getD b.parametric).toInt ∧ (p.getD b.parametric).toInt ≤ 3) ∧
      if p.getD b.parametric = 1 ∧ 2 ^ 31 ≤ (d.getD b.entityDim).toInt + 3 then True
      else TableUndefined cfg TakesReal ((v.getD b.numNodesInBlock).toNat * (if p.getD b.parametric = 1 then (3 + (d.getD b.entityDim).toInt) % 2 ^ 64 else 3).toNat) x5
        fun y => (cfg.asserts = true → y.Good) ∧ BlocksTextUndefined cfg bs y

/-- The blocks that remain when `n` blocks are to be read: those read before, and new ones. -/
def blocksFor {α : Type} (before : List α) (n : Nat) (new : α) : List α := before.take n ++ List.replicate (n - before.length) new

/-- Reading a `$Nodes` section of version 4.1 in text is undefined when `n` has been read before: the number of blocks is the first of four numbers. -/
def Nodes41TextUndefined (cfg : Cfg) (n : Nodes) (x : Place) : Prop :=
  ∃ v x1 y, TakesSize x v x1 ∧ Many SkipsSize 3 x1 y ∧ (cfg.asserts = true → y.Good) ∧ (v.getD n.numEntityBlocks).toNat ≤ cfg.maxCount ∧
    BlocksTextUndefined cfg (blocksFor n.entityBlocks (v.getD n.numEntityBlocks).toNat {}) y

/-- Reading blocks of elements in text is undefined: the tags of a block of a known type do not fit. -/
def ElementBlocksTextUndefined (cfg : Cfg) : List ElementBlock → Place → Prop
  | [], _ => False
  | b :: bs, x => ∃ x1 x2 t x3 v y, SkipsInt x x1 ∧ SkipsInt x1 x2 ∧ TakesInt x2 t x3 ∧ TakesSize x3 v y ∧ ∃ k ∈ mshNodes (t.getD b.elementType),
      TableUndefined cfg SkipsSize ((v.getD b.numElementsInBlock).toNat * (k + 1)) y fun y => (cfg.asserts = true → y.Good) ∧ ElementBlocksTextUndefined cfg bs y

/-- Reading an `$Elements` section of version 4.1 in text is undefined when `e` has been read before: the number of blocks is the first of four numbers. -/
def Elements41TextUndefined (cfg : Cfg) (e : Elements) (x : Place) : Prop :=
  ∃ v x1 y, TakesSize x v x1 ∧ Many SkipsSize 3 x1 y ∧ (cfg.asserts = true → y.Good) ∧ (v.getD e.numEntityBlocks).toNat ≤ cfg.maxCount ∧
    ElementBlocksTextUndefined cfg (blocksFor e.entityBlocks (v.getD e.numEntityBlocks).toNat {}) y

/-! ## Elements of version 2.2 -/

/-- Reading an `$Elements` section of version 2.2 in text is undefined: the number of elements is not stored; or it is not zero, and the third number of the first element, its
number of tags, is not stored. -/
def Elements22TextUndefined (x : Place) : Prop :=
  ∃ v y, TakesSize x v y ∧ ∀ n ∈ v, n ≠ 0 ∧ ∃ z, Many SkipsInt 2 y z ∧ ∃ z', TakesInt z none z'

/-! ## All sections -/

/-- Reading a `$Nodes` section is undefined. -/
def NodesSectionUndefined (cfg : Cfg) (s : MshSpec) (x : Place) : Prop :=
  if s.meshFormat.version = b! "4.1" then
    if s.meshFormat.fileType = 0 then Nodes41TextUndefined cfg s.nodes x else ∃ d, DataFrom x d ∧ Nodes41Undefined cfg s.nodes d
  else s.meshFormat.fileType ≠ 0 ∧ ∃ v y d, TakesSize x v y ∧ DataFrom y d ∧ NodesUndefined cfg s (v.getD 0) d

/-- Reading an `$Elements` section is undefined. -/
def ElementsSectionUndefined (cfg : Cfg) (s : MshSpec) (x : Place) : Prop :=
  if s.meshFormat.version = b! "4.1" then s.meshFormat.fileType = 0 ∧ Elements41TextUndefined cfg s.elements x
  else if s.meshFormat.fileType = 0 then Elements22TextUndefined x
  else ∃ v y d, TakesSize x v y ∧ DataFrom y d ∧ ElementsUndefined cfg s (v.getD s.elements.numElements) d

/-- Reading an `$Entities` section is undefined. -/
def EntitiesSectionUndefined (cfg : Cfg) (s : MshSpec) (x : Place) : Prop :=
  s.meshFormat.version = b! "4.1" ∧
    if s.meshFormat.fileType = 0 then EntitiesTextUndefined cfg x else cfg.asserts = false ∧ ∃ d, DataFrom x d ∧ EntitiesUndefined cfg d

/-- Reading the section `name`, when `s` has been read before and `r` follows the name, is undefined. -/
def SectionUndefined (cfg : Cfg) (s : MshSpec) (name r : Bytes) : Prop :=
  (name ∈ countedSections cfg.nanospline ∧ Blank r) ∨
  (name ∈ dataSections ∧ DataSectionUndefined cfg s name (.on r)) ∨
  (name = b! "$Entities" ∧ EntitiesSectionUndefined cfg s (.on r)) ∨
  (name = b! "$Nodes" ∧ NodesSectionUndefined cfg s (.on r)) ∨
  (name = b! "$Elements" ∧ ElementsSectionUndefined cfg s (.on r))

/-! ## After reading -/

/-- Reading `file`, the main loop arrives at `$MeshFormat` only before nodes and elements have been read. -/
def FormatFirst (cfg : Cfg) (file : Bytes) : Prop := ∀ s r, ArrivesAt cfg file s (b! "$MeshFormat") r → s.nodes.entityBlocks = [] ∧ s.elements.entityBlocks = []

/-- What follows reading is undefined when `s` has been read: in version 2.2 the table of node tags can be allocated, and a tag looked up lies outside it. -/
def TagOutside (cfg : Cfg) (s : MshSpec) : Prop :=
  s.meshFormat.version = b! "2.2" ∧ s.tableSize ≤ cfg.maxCount ∧ ∃ tag, s.LooksUp tag ∧ s.tableSize ≤ s.tableIndex tag

end MshIO
