import Verif.Spec.Undefined

/-!
# Specification: the sections that `load_msh` rejects

`UnsupportedFeature` and `InvalidFormat` are the exceptions with which `load_msh` says what it does not like about a file.  Which sections are answered with one of them is
written down here for every section name and every text or data that may follow it, however malformed or cut off.
-/

namespace MshIO

/-! ## Format -/

/-- Reading a `std::string`: the next word is stored, or nothing. -/
inductive TakesWord : Place → Option Bytes → Place → Prop
  | word {lead c w r'} : Blank lead → (∀ d ∈ c :: w, isSpace d = false) → (∀ d ∈ r'.head?, isSpace d = true) → TakesWord (.on (lead ++ (c :: w ++ r'))) (some (c :: w)) (.on r')
  | blank {r} : Blank r → TakesWord (.on r) none .ended
  | stuck : TakesWord .stuck none .stuck
  | ended : TakesWord .ended none .ended

/-- Where binary data start when `2^64 - 1` line feeds, carriage returns, spaces and tabs are skipped, or as many as there are.  Nothing can be read after a failure. -/
def DataPast : Place → Bytes → Prop
  | .on r, d => ∃ w, r = w ++ d ∧ (∀ c ∈ w, Skipped c) ∧ w.length ≤ 2 ^ 64 - 1 ∧ (w.length = 2 ^ 64 - 1 ∨ ∀ c ∈ d.head?, ¬ Skipped c)
  | .stuck, d => d = []
  | .ended, d => d = []

/-- A `$MeshFormat` section is rejected when `f` has been read before: the version is not 2.2 or 4.1; or it is 4.1 and the size of data is not 8; or the file type is not zero
and no `1` follows as a binary `int` of this machine; of an `int` that is cut off, the bytes that are missing count as zero. -/
def FormatRejected (f : MeshFormat) (x : Place) : Prop :=
  ∃ w y, TakesWord x w y ∧ (w.getD f.version ∉ [b! "2.2", b! "4.1"] ∨
    ∃ t y1 z y2, TakesInt y t y1 ∧ TakesInt y1 z y2 ∧
      (w.getD f.version = b! "4.1" ∧ z.getD f.dataSize ≠ 8 ∨
        t.getD f.fileType ≠ 0 ∧ ∃ d, DataPast y2 d ∧ Over d (encI32 0) ≠ encI32 1))

/-! ## Data sections -/

/-- A counter that can be allocated is read, and `P` holds of it and what follows. -/
def CounterRead (cfg : Cfg) (x : Place) (P : Nat → Place → Prop) : Prop :=
  ∃ n y, TakesSize x (some n) y ∧ n.toNat ≤ cfg.maxCount ∧ P n.toNat y

/-- A data section is rejected: there are less than three `int` tags.  Everything before can be allocated and, in a build with assertions, reading has not failed or reached
the end. -/
def DataSectionRejected (cfg : Cfg) (s : MshSpec) (name : Bytes) (x : Place) : Prop :=
  (s.dataIn name).length < cfg.maxCount ∧
    CounterRead cfg x fun n x => ∃ y, Many TakesQuoted n x y ∧
    CounterRead cfg y fun n x => ∃ y, Many TakesReal n x y ∧
    CounterRead cfg y fun n x => n < 3 ∧ ∃ y, Many SkipsInt n x y ∧ (cfg.asserts = true → y.Good)

/-! ## Elements of version 4.1 -/

/-- One of the blocks of elements in text has an unknown type; `b` is what a block held before, and what is not stored keeps that.  Everything before can be allocated. -/
def ElementBlocksTextUnknown (cfg : Cfg) : List ElementBlock → Place → Prop
  | [], _ => False
  | b :: bs, x => ∃ x1 x2 t x3 v y, SkipsInt x x1 ∧ SkipsInt x1 x2 ∧ TakesInt x2 t x3 ∧ TakesSize x3 v y ∧
      (mshNodes (t.getD b.elementType) = none ∨ ∃ k ∈ mshNodes (t.getD b.elementType), ∃ z, (v.getD b.numElementsInBlock).toNat * (k + 1) ≤ cfg.maxCount ∧
        Many SkipsSize ((v.getD b.numElementsInBlock).toNat * (k + 1)) y z ∧ (cfg.asserts = true → z.Good) ∧ ElementBlocksTextUnknown cfg bs z)

/-- An `$Elements` section of version 4.1 in text is rejected when `e` has been read before. -/
def Elements41TextRejected (cfg : Cfg) (e : Elements) (x : Place) : Prop :=
  ∃ v x1 y, TakesSize x v x1 ∧ Many SkipsSize 3 x1 y ∧ (cfg.asserts = true → y.Good) ∧ (v.getD e.numEntityBlocks).toNat ≤ cfg.maxCount ∧
    ElementBlocksTextUnknown cfg (blocksFor e.entityBlocks (v.getD e.numEntityBlocks).toNat {}) y

/-- One of the blocks of elements in binary has an unknown type.  The size of the table of tags is computed modulo `2^64`.  What is cut off keeps what was there before; in builds
with assertions that stops the program at the end of the table. -/
def ElementBlocksUnknown (cfg : Cfg) : List ElementBlock → Bytes → Prop
  | [], _ => False
  | b :: bs, d => ∃ (t : Int32) (num : UInt64), encI32 t ++ encU64 num = Over (d.drop 8) (encI32 b.elementType ++ encU64 b.numElementsInBlock) ∧
      (mshNodes t = none ∨ ∃ k ∈ mshNodes t, ∃ n, n = num.toNat * (k + 1) % 2 ^ 64 ∧ n ≤ cfg.maxCount ∧ (cfg.asserts = true → 20 + 8 * n ≤ d.length) ∧
        ElementBlocksUnknown cfg bs (d.drop (20 + 8 * n)))

/-- The data `d` of a binary `$Elements` section of version 4.1 are rejected when `e` has been read before. -/
def Elements41Rejected (cfg : Cfg) (e : Elements) (d : Bytes) : Prop :=
  (cfg.asserts = true → 32 ≤ d.length) ∧ ∃ N : UInt64, encU64 N = Over d (encU64 e.numEntityBlocks) ∧ N.toNat ≤ cfg.maxCount ∧
    ElementBlocksUnknown cfg (blocksFor e.entityBlocks N.toNat {}) (d.drop 32)

/-! ## Elements of version 2.2 -/

/-- One of the next `n` elements in text has an unknown type, and everything before can be allocated, when there is room for `room` blocks.  `ty` and `nt` are the type and the
number of tags of the element before, if there is one; they are used again when nothing is stored. -/
def ElementsTextUnknown (cfg : Cfg) : Nat → Nat → Option Int32 → Option Int32 → Place → Prop
  | 0, _, _, _, _ => False
  | n + 1, room, ty, nt, x => ∃ x1 t x2 k y, SkipsInt x x1 ∧ TakesInt x1 t x2 ∧ TakesInt x2 k y ∧
      ∃ nt' ∈ k.or nt, 0 ≤ nt'.toInt ∧ nt'.toInt ≤ cfg.maxCount ∧ ∃ z, Many SkipsInt nt'.toInt.toNat y z ∧
      ∃ ty' ∈ t.or ty, mshNodes ty' = none ∨ ∃ m ∈ mshNodes ty', ∃ z', Many SkipsInt m z z' ∧ 0 < room ∧ ElementsTextUnknown cfg n (room - 1) (some ty') (some nt') z'

/-- An `$Elements` section of version 2.2 in text is rejected when `e` has been read before: the number of elements is stored, and one of them has an unknown type. -/
def Elements22TextRejected (cfg : Cfg) (e : Elements) (x : Place) : Prop :=
  ∃ n y, TakesSize x (some n) y ∧ ElementsTextUnknown cfg n.toNat (cfg.maxCount - e.entityBlocks.length) none none y

/-- Groups of elements are rejected with an exception, when `p` of `N` elements have been read, and `R` fit:
* a group has an unknown type, and its tags can be allocated; or
* a group has more elements than there are left, whether or not they are there, as long as the number of the first one is; and there is room for one more than `N`.  The number
  of elements of a group is converted to `size_t`. -/
inductive GroupsRejected (cfg : Cfg) (N R : Nat) : Exc → Nat → Bytes → Prop
  | type {p : Nat} {ty nb nt : Int32} {r : Bytes} : p ≠ N → p ≤ R → mshNodes ty = none → 0 ≤ nt.toInt → nt.toInt ≤ cfg.maxCount →
      GroupsRejected cfg N R .unsupportedFeature p (encI32 ty ++ (encI32 nb ++ (encI32 nt ++ r)))
  | many {p d ty nb nt k r} : p ≠ N → StartsGroup d ty nb nt k r → 0 ≤ nt.toInt → nt.toInt < 2 ^ 29 → nt.toInt ≤ cfg.maxCount → 4 ≤ r.length →
      N < p + asSize nb → N < R → GroupsRejected cfg N R .invalidFormat p d
  | next {e p d ty nb nt k r} : p ≠ N → StartsGroup d ty nb nt k r → 0 ≤ nt.toInt → (nt.toInt < 2 ^ 29 ∨ nb = 0) → nt.toInt ≤ cfg.maxCount → 0 ≤ nb.toInt →
      p + nb.toInt.toNat ≤ N → groupBytes nb nt k ≤ r.length → GroupsRejected cfg N R e (p + nb.toInt.toNat) (r.drop (groupBytes nb nt k)) → GroupsRejected cfg N R e p d

/-! ## All sections -/

/-- An `$Elements` section is rejected. -/
def ElementsSectionRejected (cfg : Cfg) (s : MshSpec) (x : Place) (e : Exc) : Prop :=
  if s.meshFormat.version = b! "4.1" then
    e = .unsupportedFeature ∧ if s.meshFormat.fileType = 0 then Elements41TextRejected cfg s.elements x else ∃ d, DataFrom x d ∧ Elements41Rejected cfg s.elements d
  else if s.meshFormat.fileType = 0 then e = .unsupportedFeature ∧ Elements22TextRejected cfg s.elements x
  else ∃ v y d, TakesSize x v y ∧ DataFrom y d ∧ (v.getD s.elements.numElements).toNat ≤ cfg.maxCount ∧
    GroupsRejected cfg (v.getD s.elements.numElements).toNat (cfg.maxCount - s.elements.entityBlocks.length) e 0 d

/-- The section `name`, when `s` has been read before and `r` follows the name, is rejected with the exception `e`. -/
def SectionRejected (cfg : Cfg) (s : MshSpec) (name r : Bytes) (e : Exc) : Prop :=
  (name = b! "$MeshFormat" ∧ e = .unsupportedFeature ∧ FormatRejected s.meshFormat (.on r)) ∨
  (name = b! "$Entities" ∧ e = .invalidFormat ∧ s.meshFormat.version = b! "2.2") ∨
  (name = b! "$Elements" ∧ ElementsSectionRejected cfg s (.on r) e) ∨
  (name ∈ dataSections ∧ e = .invalidFormat ∧ DataSectionRejected cfg s name (.on r))

end MshIO
