import Verif.Spec.Rejected

/-!
# Specification: the sections that stop a build with assertions, and those that make `load_msh` loop forever

For every section name and every text or data that may follow it, however malformed or cut off.
-/

namespace MshIO

/-- How reading a section ends. -/
inductive Ending where
  /-- An assertion fails, which stops the program. -/
  | stops
  /-- Reading has failed in front of something, which is not noticed: the search for the end of the section never ends. -/
  | sticks

/-- The section is read up to `x`. -/
def ReadTo (k : Ending) (x : Place) : Prop := k = .sticks ∧ x = .stuck

/-- `assert(in.good())` at the place `x`, and then `P`. -/
def Asserted (cfg : Cfg) (k : Ending) (x : Place) (P : Prop) : Prop :=
  (k = .stops ∧ cfg.asserts = true ∧ ¬ x.Good) ∨ ((cfg.asserts = true → x.Good) ∧ P)

/-! ## Format -/

/-- The format section leaves reading stuck when `f` has been read before: the file type or the size of data is not a number, and what is known of them is in order. -/
def FormatSticks (f : MeshFormat) (x : Place) : Prop :=
  ∃ w y t y1 z, TakesWord x w y ∧ TakesInt y t y1 ∧ TakesInt y1 z .stuck ∧ w.getD f.version ∈ [b! "2.2", b! "4.1"] ∧
    (w.getD f.version = b! "4.1" → z.getD f.dataSize = 8) ∧ t.getD f.fileType = 0

/-! ## Physical names -/

/-- Reading a physical group: its dimension, its tag and its name. -/
def SkipsGroup (x z : Place) : Prop := ∃ x1 x2, SkipsInt x x1 ∧ SkipsInt x1 x2 ∧ TakesQuoted x2 z

/-- The closing quote of the name of the last of `n` physical groups is the last byte of the file.  Reading it does not notice that. -/
def LastQuote (n : Nat) (x : Place) : Prop :=
  ∃ m y x1 x2 lead t s, n = m + 1 ∧ Many SkipsGroup m x y ∧ SkipsInt y x1 ∧ SkipsInt x1 x2 ∧ x2 = .on (lead ++ (b! "\"" ++ (t ++ b! "\""))) ∧ Blank lead ∧ Spells t s

/-- Reading physical names ends with `k`: there are a number, which can be allocated, and so many groups. -/
def NamesEnd (cfg : Cfg) (k : Ending) (x : Place) : Prop :=
  ∃ n y z, TakesInt x (some n) y ∧ 0 ≤ n.toInt ∧ n.toInt ≤ cfg.maxCount ∧ Many SkipsGroup n.toInt.toNat y z ∧
    ((k = .stops ∧ cfg.asserts = true ∧ ¬ z.Good ∧ ¬ LastQuote n.toInt.toNat y) ∨ (k = .sticks ∧ cfg.asserts = false ∧ z = .stuck))

/-! ## Data sections -/

/-- An entry in text: the tag; in `$ElementNodeData` the number of nodes; the values, which can be allocated. -/
def SkipsEntry (cfg : Cfg) (elementNode : Prop) (f : Int32) (x z : Place) : Prop :=
  (¬ elementNode ∧ asSize f ≤ cfg.maxCount ∧ ∃ y, SkipsSize x y ∧ Many TakesReal (asSize f) y z) ∨
  (elementNode ∧ ∃ y w y', SkipsSize x y ∧ TakesInt y w y' ∧ asSize f * asSize (w.getD 0) ≤ cfg.maxCount ∧ Many TakesReal (asSize f * asSize (w.getD 0)) y' z)

/-- The last of `n` entries is cut off in its values, or in version 4.1 in its number of nodes, but not in its tag. -/
inductive LastEntryCut (cfg : Cfg) (v22 elementNode : Prop) (f : Int32) : Nat → Bytes → Prop
  | short {tag npe r} : ¬ v22 → elementNode → r.length < 4 → encI32 npe = r ++ List.replicate (4 - r.length) 0 → 0 ≤ f.toInt * npe.toInt →
      f.toInt * npe.toInt ≤ cfg.maxCount → LastEntryCut cfg v22 elementNode f 1 (encI32 tag ++ r)
  | values {d k r} : StartsEntry cfg elementNode f d k r → r.length < 8 * k → LastEntryCut cfg v22 elementNode f 1 d
  | next {n d k r} : StartsEntry cfg elementNode f d k r → 8 * k ≤ r.length → LastEntryCut cfg v22 elementNode f n (r.drop (8 * k)) →
      LastEntryCut cfg v22 elementNode f (n + 1) d

/-- Reading a data section ends with `k`. -/
def DataSectionEnds (cfg : Cfg) (k : Ending) (s : MshSpec) (name : Bytes) (x : Place) : Prop :=
  (s.dataIn name).length < cfg.maxCount ∧
    CounterRead cfg x fun n x => ∃ y, Many TakesQuoted n x y ∧
    CounterRead cfg y fun n x => ∃ y, Many TakesReal n x y ∧
    CounterRead cfg y fun n x => ∃ ints y, TakesInts n x ints y ∧ Asserted cfg k y
      (∃ g f n more, ints = g :: f :: n :: more ∧ 0 ≤ n.toInt ∧ n.toInt ≤ cfg.maxCount ∧
        if 0 < s.meshFormat.fileType then
          (k = .stops ∧ cfg.asserts = true ∧ ∃ d, DataFrom y d ∧
            (n = 0 ∧ d = [] ∨ LastEntryCut cfg (s.meshFormat.version = b! "2.2") (name = b! "$ElementNodeData") f n.toInt.toNat d)) ∨
          (k = .sticks ∧ n = 0 ∧ y = .stuck)
        else ∃ z, Many (SkipsEntry cfg (name = b! "$ElementNodeData") f) n.toInt.toNat y z ∧ Asserted cfg k z (ReadTo k z))

/-! ## Entities -/

/-- Reading lists of tags in text, each after something else and its length, which can be allocated. -/
def SkipsLists (cfg : Cfg) : List (Place → Place → Prop) → Place → Place → Prop
  | [], x, z => x = z
  | before :: more, x, z => ∃ y, before x y ∧ CounterRead cfg y fun n y => ∃ y', Many SkipsInt n y y' ∧ SkipsLists cfg more y' z

/-- Reading an `$Entities` section in text ends with `k`: four counts, then lists of tags. -/
def EntitiesTextEnds (cfg : Cfg) (k : Ending) (x : Place) : Prop :=
  ∃ np x1 nc x2 ns x3 nv y, TakesSize x np x1 ∧ TakesSize x1 nc x2 ∧ TakesSize x2 ns x3 ∧ TakesSize x3 nv y ∧ Asserted cfg k y
    (∃ p ∈ np, ∃ c ∈ nc, ∃ s ∈ ns, ∃ v ∈ nv, p.toNat ≤ cfg.maxCount ∧ c.toNat ≤ cfg.maxCount ∧ s.toNat ≤ cfg.maxCount ∧ v.toNat ≤ cfg.maxCount ∧
      ∃ z, SkipsLists cfg (List.replicate p.toNat (SkipsHead 3) ++ (List.replicate (c.toNat + s.toNat + v.toNat) [SkipsHead 6, Eq]).flatten) y z ∧ Asserted cfg k z (ReadTo k z))

/-- Lists of tags in binary, each after so many bytes and its length, are cut off.  The lists before can be allocated. -/
inductive ListsCut (cfg : Cfg) : List Nat → Bytes → Prop
  | length {g gaps d} : d.length < g + 8 → ListsCut cfg (g :: gaps) d
  | tags {g gaps skipped n r} : skipped.length = g → n.toNat ≤ cfg.maxCount → r.length < 4 * n.toNat → ListsCut cfg (g :: gaps) (skipped ++ (encU64 n ++ r))
  | next {g gaps skipped n r} : skipped.length = g → n.toNat ≤ cfg.maxCount → 4 * n.toNat ≤ r.length → ListsCut cfg gaps (r.drop (4 * n.toNat)) →
      ListsCut cfg (g :: gaps) (skipped ++ (encU64 n ++ r))

/-- The data `d` of a binary `$Entities` section are cut off: in the four counts, or in the lists of tags. -/
def EntitiesCut (cfg : Cfg) (d : Bytes) : Prop :=
  d.length < 32 ∨ ∃ p c s v r, d = [p, c, s, v].flatMap encU64 ++ r ∧ (∀ n ∈ [p, c, s, v], n.toNat ≤ cfg.maxCount) ∧
    ListsCut cfg (List.replicate p.toNat (4 + 3 * 8) ++ (List.replicate (c.toNat + s.toNat + v.toNat) [4 + 6 * 8, 0]).flatten) r

/-! ## Nodes and elements of version 4.1 -/

/-- Reading blocks of nodes in text ends with `k`; `b` is what a block held before, and what is not stored keeps that.  In text there is an assertion that the number that says
whether there are parametric coordinates is at most 3. -/
def BlocksTextEnd (cfg : Cfg) (k : Ending) : List NodeBlock → Place → Prop
  | [], x => ReadTo k x
  | b :: bs, x => ∃ d x1 x2 p x3 v x4, TakesInt x d x1 ∧ SkipsInt x1 x2 ∧ TakesInt x2 p x3 ∧ TakesSize x3 v x4 ∧ Asserted cfg k x4
      ((v.getD b.numNodesInBlock).toNat ≤ cfg.maxCount ∧ ∃ x5, Many SkipsSize (v.getD b.numNodesInBlock).toNat x4 x5 ∧ Asserted cfg k x5
        (if cfg.asserts = true ∧ ¬ (0 ≤ (p.getD b.parametric).toInt ∧ (p.getD b.parametric).toInt ≤ 3) then k = .stops
        else ¬ (p.getD b.parametric = 1 ∧ 2 ^ 31 ≤ (d.getD b.entityDim).toInt + 3) ∧ ∃ total y,
          total = (v.getD b.numNodesInBlock).toNat * (if p.getD b.parametric = 1 then (3 + (d.getD b.entityDim).toInt) % 2 ^ 64 else 3).toNat ∧ total ≤ cfg.maxCount ∧
          Many TakesReal total x5 y ∧ Asserted cfg k y (BlocksTextEnd cfg k bs y)))

/-- Reading a `$Nodes` section of version 4.1 in text ends with `k` when `n` has been read before. -/
def Nodes41TextEnds (cfg : Cfg) (k : Ending) (n : Nodes) (x : Place) : Prop :=
  ∃ v x1 y, TakesSize x v x1 ∧ Many SkipsSize 3 x1 y ∧ Asserted cfg k y
    ((v.getD n.numEntityBlocks).toNat ≤ cfg.maxCount ∧ BlocksTextEnd cfg k (blocksFor n.entityBlocks (v.getD n.numEntityBlocks).toNat {}) y)

/-- Blocks of nodes in binary are cut off, in the head, the tags or the coordinates of one of them.  Everything before can be allocated. -/
inductive BlocksCut (cfg : Cfg) : Nat → Bytes → Prop
  | head {n d} : d.length < 20 → BlocksCut cfg (n + 1) d
  | tags {n dim tag par num r} : num.toNat ≤ cfg.maxCount → r.length < 8 * num.toNat → BlocksCut cfg (n + 1) (blockHead dim tag par num ++ r)
  | data {n dim tag par num r} {k : Nat} : num.toNat ≤ cfg.maxCount → 8 * num.toNat ≤ r.length → ¬ (par = 1 ∧ 2 ^ 31 ≤ dim.toInt + 3) →
      (k : Int) = num.toNat * (3 + if par = 1 then dim.toInt else 0) % 2 ^ 64 → k ≤ cfg.maxCount → r.length < 8 * num.toNat + 8 * k →
      BlocksCut cfg (n + 1) (blockHead dim tag par num ++ r)
  | next {n dim tag par num r} {k : Nat} : num.toNat ≤ cfg.maxCount → ¬ (par = 1 ∧ 2 ^ 31 ≤ dim.toInt + 3) →
      (k : Int) = num.toNat * (3 + if par = 1 then dim.toInt else 0) % 2 ^ 64 → k ≤ cfg.maxCount → 8 * num.toNat + 8 * k ≤ r.length →
      BlocksCut cfg n (r.drop (8 * num.toNat + 8 * k)) → BlocksCut cfg (n + 1) (blockHead dim tag par num ++ r)

/-- The data `d` of a binary `$Nodes` section of version 4.1 are cut off: in the four numbers, of which the first is the number of blocks, or in the blocks. -/
def Nodes41Cut (cfg : Cfg) (d : Bytes) : Prop :=
  d.length < 32 ∨ ∃ (N : UInt64) (r : Bytes), d = encU64 N ++ r ∧ 24 ≤ r.length ∧ N.toNat ≤ cfg.maxCount ∧ BlocksCut cfg N.toNat (r.drop 24)

/-- Reading blocks of elements in text ends with `k`: the blocks are of known types. -/
def ElementBlocksTextEnd (cfg : Cfg) (k : Ending) : List ElementBlock → Place → Prop
  | [], x => ReadTo k x
  | b :: bs, x => ∃ x1 x2 t x3 v y, SkipsInt x x1 ∧ SkipsInt x1 x2 ∧ TakesInt x2 t x3 ∧ TakesSize x3 v y ∧ ∃ m ∈ mshNodes (t.getD b.elementType), ∃ z,
      (v.getD b.numElementsInBlock).toNat * (m + 1) ≤ cfg.maxCount ∧ Many SkipsSize ((v.getD b.numElementsInBlock).toNat * (m + 1)) y z ∧
      Asserted cfg k z (ElementBlocksTextEnd cfg k bs z)

/-- Reading an `$Elements` section of version 4.1 in text ends with `k` when `e` has been read before. -/
def Elements41TextEnds (cfg : Cfg) (k : Ending) (e : Elements) (x : Place) : Prop :=
  ∃ v x1 y, TakesSize x v x1 ∧ Many SkipsSize 3 x1 y ∧ Asserted cfg k y
    ((v.getD e.numEntityBlocks).toNat ≤ cfg.maxCount ∧ ElementBlocksTextEnd cfg k (blocksFor e.entityBlocks (v.getD e.numEntityBlocks).toNat {}) y)

/-- Blocks of elements in binary are cut off.  There is no assertion between the head and the table: what is cut off of the head keeps what was there before.  The blocks before
are of known types, and can be allocated. -/
def ElementBlocksCut (cfg : Cfg) : List ElementBlock → Bytes → Prop
  | [], _ => False
  | b :: bs, d => ∃ (t : Int32) (num : UInt64), encI32 t ++ encU64 num = Over (d.drop 8) (encI32 b.elementType ++ encU64 b.numElementsInBlock) ∧
      ∃ m ∈ mshNodes t, ∃ n, n = num.toNat * (m + 1) % 2 ^ 64 ∧ n ≤ cfg.maxCount ∧ (d.length < 20 + 8 * n ∨ ElementBlocksCut cfg bs (d.drop (20 + 8 * n)))

/-- The data `d` of a binary `$Elements` section of version 4.1 are cut off when `e` has been read before. -/
def Elements41Cut (cfg : Cfg) (e : Elements) (d : Bytes) : Prop :=
  d.length < 32 ∨ ∃ (N : UInt64) (r : Bytes), d = encU64 N ++ r ∧ 24 ≤ r.length ∧ N.toNat ≤ cfg.maxCount ∧ ElementBlocksCut cfg (blocksFor e.entityBlocks N.toNat {}) (r.drop 24)

/-! ## Nodes of version 2.2 -/

/-- Reading a node in text: its number and its coordinates. -/
def SkipsNode (x z : Place) : Prop := ∃ y, SkipsSize x y ∧ Many TakesReal 3 y z

/-- Reading a `$Nodes` section of version 2.2 in text ends with `k`. -/
def Nodes22TextEnds (cfg : Cfg) (k : Ending) (s : MshSpec) (x : Place) : Prop :=
  s.nodes.entityBlocks.length < cfg.maxCount ∧ ∃ v y, TakesSize x v y ∧ Asserted cfg k y
    (3 * (v.getD 0).toNat ≤ cfg.maxCount ∧ ∃ z, Many SkipsNode (v.getD 0).toNat y z ∧ Asserted cfg k z (ReadTo k z))

/-- Reading a binary `$Nodes` section of version 2.2 ends with `k`: with assertions, there are no data, or they end after the number of a node, which is not the last one. -/
def Nodes22Ends (cfg : Cfg) (k : Ending) (s : MshSpec) (x : Place) : Prop :=
  s.nodes.entityBlocks.length < cfg.maxCount ∧ ∃ v y, TakesSize x v y ∧ Asserted cfg k y
    (3 * (v.getD 0).toNat ≤ cfg.maxCount ∧
      ((k = .stops ∧ cfg.asserts = true ∧ ∃ d, DataFrom y d ∧ d.length + 24 < 28 * (v.getD 0).toNat ∧ (d = [] ∨ 4 ≤ d.length % 28)) ∨
        (k = .sticks ∧ v.getD 0 = 0 ∧ y = .stuck)))

/-! ## Elements of version 2.2 -/

/-- Reading `int`s into a vector; what is not stored keeps what was there before. -/
inductive TakesIntsOver : List Int32 → Place → List Int32 → Place → Prop
  | nil {x} : TakesIntsOver [] x [] x
  | cons {o os x v y l z} : TakesInt x v y → TakesIntsOver os y l z → TakesIntsOver (o :: os) x (v.getD o :: l) z

/-- Reading the next `n` elements in text, when there is room for `room` blocks.  `ty`, `nt` and `tags` are the type, the number of tags and the tags of the element before;
they are used again when nothing is stored.  `phys` are the dimensions and the second tags of the elements that have two tags. -/
inductive SkipsElements (cfg : Cfg) : Nat → Nat → Option Int32 → Option Int32 → List Int32 → Place → List (Nat × Int32) → Place → Prop
  | zero {room ty nt tags x} : SkipsElements cfg 0 room ty nt tags x [] x
  | next {n room ty nt tags x x1 t x2 k y nt' tags' z ty' m dim z' phys z''} : SkipsInt x x1 → TakesInt x1 t x2 → TakesInt x2 k y → nt' ∈ k.or nt → 0 ≤ nt'.toInt →
      nt'.toInt ≤ cfg.maxCount → TakesIntsOver (blocksFor tags nt'.toInt.toNat 0) y tags' z → ty' ∈ t.or ty → mshNodes ty' = some m → mshDim ty' = some dim →
      Many SkipsInt m z z' → 0 < room → SkipsElements cfg n (room - 1) (some ty') (some nt') tags' z' phys z'' →
      SkipsElements cfg (n + 1) room ty nt tags x ((tags'[1]?.map fun tag => (dim, tag)).toList ++ phys) z''

/-- There is room for entities of dimension `dim`, one for every tag, when there are `n` of them. -/
def RoomFor (cfg : Cfg) (phys : List (Nat × Int32)) (dim n : Nat) : Prop :=
  ∃ tags : List Int32, tags.Nodup ∧ (∀ t, t ∈ tags ↔ (dim, t) ∈ phys) ∧ tags.length ≤ cfg.maxCount - n

/-- Reading an `$Elements` section of version 2.2 in text leaves reading stuck when `s` has been read before. -/
def Elements22TextSticks (cfg : Cfg) (s : MshSpec) (x : Place) : Prop :=
  ∃ n y phys, TakesSize x (some n) y ∧ SkipsElements cfg n.toNat (cfg.maxCount - s.elements.entityBlocks.length) none none [] y phys .stuck ∧
    RoomFor cfg phys 0 s.entities.points.length ∧ RoomFor cfg phys 1 s.entities.curves.length ∧ RoomFor cfg phys 2 s.entities.surfaces.length ∧
    RoomFor cfg phys 3 s.entities.volumes.length

/-! ## Curves and patches -/

/-- Where reading stands after `n` doubles in binary, one white space character before them being skipped. -/
def SkipsData (n : Nat) : Place → Place → Prop
  | .stuck, z => z = .stuck
  | .ended, z => z = .ended
  | .on r, z => ∃ d, DataAfter r d ∧ if d ≠ [] ∧ 8 * n ≤ d.length then z = .on (d.drop (8 * n)) else z = .ended

/-- Reading `n` doubles, in text or in binary. -/
def SkipsDoubles (text : Prop) (n : Nat) (x z : Place) : Prop := (text ∧ Many TakesReal n x z) ∨ (¬ text ∧ SkipsData n x z)

/-- Reading `size_t`s; what is not stored keeps what was there before. -/
inductive TakesSizesOver : List UInt64 → Place → List UInt64 → Place → Prop
  | nil {x} : TakesSizesOver [] x [] x
  | cons {o os x v y l z} : TakesSize x v y → TakesSizesOver os y l z → TakesSizesOver (o :: os) x (v.getD o :: l) z

/-- The number of values of a curve or patch with `points` control points, modulo `2^64`. -/
def splineSize (points weights knots : Nat) : Nat := (points * (if 0 < weights then 4 else 3) + knots) % 2 ^ 64

/-- Reading curves: six numbers, which are the tag, the type, the degree, the number of control points, the number of knots and whether there are weights, and values. -/
def SkipsCurves (cfg : Cfg) (text : Prop) : List Curve → Place → Place → Prop
  | [], x, z => x = z
  | c :: cs, x, z => ∃ tag type degree points knots weights y y',
      TakesSizesOver [c.curveTag, c.curveType, c.curveDegree, c.numControlPoints, c.numKnots, c.withWeights] x [tag, type, degree, points, knots, weights] y ∧
      splineSize points.toNat weights.toNat knots.toNat ≤ cfg.maxCount ∧ SkipsDoubles text (splineSize points.toNat weights.toNat knots.toNat) y y' ∧ SkipsCurves cfg text cs y' z

/-- Reading patches: eight numbers, which are the tag, the type, two degrees, the number of control points, two numbers of knots and whether there are weights, and values. -/
def SkipsPatches (cfg : Cfg) (text : Prop) : List Patch → Place → Place → Prop
  | [], x, z => x = z
  | p :: ps, x, z => ∃ tag type degreeU degreeV points knotsU knotsV weights y y',
      TakesSizesOver [p.patchTag, p.patchType, p.degreeU, p.degreeV, p.numControlPoints, p.numUKnots, p.numVKnots, p.withWeights] x
        [tag, type, degreeU, degreeV, points, knotsU, knotsV, weights] y ∧
      splineSize points.toNat weights.toNat (knotsU.toNat + knotsV.toNat) ≤ cfg.maxCount ∧
      SkipsDoubles text (splineSize points.toNat weights.toNat (knotsU.toNat + knotsV.toNat)) y y' ∧ SkipsPatches cfg text ps y' z

/-! ## All sections -/

/-- Reading an `$Entities` section ends with `k`. -/
def EntitiesSectionEnds (cfg : Cfg) (k : Ending) (s : MshSpec) (x : Place) : Prop :=
  s.meshFormat.version = b! "4.1" ∧
    if s.meshFormat.fileType = 0 then EntitiesTextEnds cfg k x else k = .stops ∧ cfg.asserts = true ∧ ∃ d, DataFrom x d ∧ EntitiesCut cfg d

/-- Reading a `$Nodes` section ends with `k`. -/
def NodesSectionEnds (cfg : Cfg) (k : Ending) (s : MshSpec) (x : Place) : Prop :=
  if s.meshFormat.version = b! "4.1" then
    if s.meshFormat.fileType = 0 then Nodes41TextEnds cfg k s.nodes x else k = .stops ∧ cfg.asserts = true ∧ ∃ d, DataFrom x d ∧ Nodes41Cut cfg d
  else if s.meshFormat.fileType = 0 then Nodes22TextEnds cfg k s x else Nodes22Ends cfg k s x

/-- Reading an `$Elements` section ends with `k`. -/
def ElementsSectionEnds (cfg : Cfg) (k : Ending) (s : MshSpec) (x : Place) : Prop :=
  if s.meshFormat.version = b! "4.1" then
    if s.meshFormat.fileType = 0 then Elements41TextEnds cfg k s.elements x else k = .stops ∧ cfg.asserts = true ∧ ∃ d, DataFrom x d ∧ Elements41Cut cfg s.elements d
  else k = .sticks ∧ if s.meshFormat.fileType = 0 then Elements22TextSticks cfg s x else ∃ v, TakesSize x v .stuck ∧ v.getD s.elements.numElements = 0

/-- Reading the section `name`, when `s` has been read before and `r` follows the name, ends with `k`. -/
def SectionEnds (cfg : Cfg) (k : Ending) (s : MshSpec) (name r : Bytes) : Prop :=
  (name = b! "$MeshFormat" ∧ k = .sticks ∧ FormatSticks s.meshFormat (.on r)) ∨
  (name = b! "$PhysicalNames" ∧ NamesEnd cfg k (.on r)) ∨
  (name = b! "$Entities" ∧ EntitiesSectionEnds cfg k s (.on r)) ∨
  (name = b! "$Nodes" ∧ NodesSectionEnds cfg k s (.on r)) ∨
  (name = b! "$Elements" ∧ ElementsSectionEnds cfg k s (.on r)) ∨
  (name ∈ dataSections ∧ DataSectionEnds cfg k s name (.on r)) ∨
  (name = b! "$Curves" ∧ k = .sticks ∧ cfg.nanospline = true ∧ CounterRead cfg (.on r) fun n y =>
    SkipsCurves cfg (s.meshFormat.fileType = 0) (blocksFor s.curves n {}) y .stuck) ∨
  (name = b! "$Patches" ∧ k = .sticks ∧ cfg.nanospline = true ∧ CounterRead cfg (.on r) fun n y =>
    SkipsPatches cfg (s.meshFormat.fileType = 0) (blocksFor s.patches n {}) y .stuck)

end MshIO
