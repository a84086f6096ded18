import Verif.Spec.Endings

/-!
# Specification: the sections for which there is not enough memory

A vector holds at most `cfg.maxCount` entries; asking for more throws an exception of the standard library.  Which sections ask for more is written down here for every section
name and every text or data that may follow it, however malformed or cut off.
-/

namespace MshIO

/-- A counter is read; so many entries cannot be allocated, or they can, and `P` holds. -/
def CounterExhausts (cfg : Cfg) (x : Place) (P : Nat → Place → Prop) : Prop :=
  ∃ n y, TakesSize x (some n) y ∧ (cfg.maxCount < n.toNat ∨ P n.toNat y)

/-- A table of so many numbers is read into a vector, whose length is computed modulo `2^64`; the vector cannot be allocated, or it can hold the table, and `P` holds. -/
def TableExhausts (cfg : Cfg) (R : Place → Place → Prop) (total : Nat) (x : Place) (P : Place → Prop) : Prop :=
  cfg.maxCount < total % 2 ^ 64 ∨ (total ≤ cfg.maxCount ∧ ∃ y, Many R total x y ∧ P y)

/-! ## Data sections -/

/-- One of `n` entries in text has too many values: the tag; in `$ElementNodeData` the number of nodes; the values. -/
def EntriesTextExhaust (cfg : Cfg) (elementNode : Prop) (f : Int32) : Nat → Place → Prop
  | 0, _ => False
  | n + 1, x => ∃ y, SkipsSize x y ∧
      ((¬ elementNode ∧ (cfg.maxCount < asSize f ∨ ∃ z, Many TakesReal (asSize f) y z ∧ EntriesTextExhaust cfg elementNode f n z)) ∨
        (elementNode ∧ ∃ w z, TakesInt y w z ∧ TableExhausts cfg TakesReal (asSize f * asSize (w.getD 0)) z (EntriesTextExhaust cfg elementNode f n)))

/-- One of `n` entries in binary has too many values, or a negative number of them; the entries before are complete.  In version 4.1 a number of nodes that is cut off counts with
the bytes that are there. -/
inductive EntriesExhaust (cfg : Cfg) (v22 elementNode : Prop) (f : Int32) : Nat → Bytes → Prop
  | values {n tag r} : ¬ elementNode → f.toInt < 0 ∨ cfg.maxCount < f.toInt → EntriesExhaust cfg v22 elementNode f (n + 1) (encI32 tag ++ r)
  | nodes {n tag npe r} : elementNode → f.toInt * npe.toInt < 0 ∨ cfg.maxCount < f.toInt * npe.toInt → EntriesExhaust cfg v22 elementNode f (n + 1) (encI32 tag ++ (encI32 npe ++ r))
  | short {n tag npe r} : ¬ v22 → elementNode → r.length < 4 → encI32 npe = r ++ List.replicate (4 - r.length) 0 →
      f.toInt * npe.toInt < 0 ∨ cfg.maxCount < f.toInt * npe.toInt → EntriesExhaust cfg v22 elementNode f (n + 1) (encI32 tag ++ r)
  | next {n d k r} : StartsEntry cfg elementNode f d k r → 8 * k ≤ r.length → EntriesExhaust cfg v22 elementNode f n (r.drop (8 * k)) →
      EntriesExhaust cfg v22 elementNode f (n + 1) d

/-- There is not enough memory for a data section: for one more of its kind; or for its strings, reals or `int`s; or for its entries, of which there may also be a negative number. -/
def DataSectionExhausts (cfg : Cfg) (s : MshSpec) (name : Bytes) (x : Place) : Prop :=
  cfg.maxCount ≤ (s.dataIn name).length ∨
    CounterExhausts cfg x fun n x => ∃ y, Many TakesQuoted n x y ∧
    CounterExhausts cfg y fun n x => ∃ y, Many TakesReal n x y ∧
    CounterExhausts cfg y fun n x => ∃ ints y, TakesInts n x ints y ∧ (cfg.asserts = true → y.Good) ∧
    ∃ g f n more, ints = g :: f :: n :: more ∧ (n.toInt < 0 ∨ cfg.maxCount < n.toInt ∨
      if 0 < s.meshFormat.fileType then
        ∃ d, DataFrom y d ∧ EntriesExhaust cfg (s.meshFormat.version = b! "2.2") (name = b! "$ElementNodeData") f n.toInt.toNat d
      else EntriesTextExhaust cfg (name = b! "$ElementNodeData") f n.toInt.toNat y)

/-! ## Entities -/

/-- One of the lists of tags in text, each after something else and its length, is too long. -/
def ListsTextExhaust (cfg : Cfg) : List (Place → Place → Prop) → Place → Prop
  | [], _ => False
  | before :: more, x => ∃ y, before x y ∧ CounterExhausts cfg y fun n y => ∃ z, Many SkipsInt n y z ∧ ListsTextExhaust cfg more z

/-- There is not enough memory for an `$Entities` section in text: one of the four counts is too large, and those before are stored; or one of the lists of tags is too long. -/
def EntitiesTextExhaust (cfg : Cfg) (x : Place) : Prop :=
  ∃ np x1 nc x2 ns x3 nv y, TakesSize x np x1 ∧ TakesSize x1 nc x2 ∧ TakesSize x2 ns x3 ∧ TakesSize x3 nv y ∧ (cfg.asserts = true → y.Good) ∧
    ∃ p ∈ np, cfg.maxCount < p.toNat ∨ ∃ c ∈ nc, cfg.maxCount < c.toNat ∨ ∃ s ∈ ns, cfg.maxCount < s.toNat ∨ ∃ v ∈ nv, cfg.maxCount < v.toNat ∨
      ListsTextExhaust cfg (List.replicate p.toNat (SkipsHead 3) ++ (List.replicate (c.toNat + s.toNat + v.toNat) [SkipsHead 6, Eq]).flatten) y

/-- One of the lists of tags in binary, each after so many bytes and its length, is too long; the lists before are complete. -/
inductive ListsExhaust (cfg : Cfg) : List Nat → Bytes → Prop
  | here {g gaps skipped n r} : skipped.length = g → cfg.maxCount < n.toNat → ListsExhaust cfg (g :: gaps) (skipped ++ (encU64 n ++ r))
  | next {g gaps skipped n r} : skipped.length = g → n.toNat ≤ cfg.maxCount → 4 * n.toNat ≤ r.length → ListsExhaust cfg gaps (r.drop (4 * n.toNat)) →
      ListsExhaust cfg (g :: gaps) (skipped ++ (encU64 n ++ r))

/-- There is not enough memory for a binary `$Entities` section with the data `d`: one of the four counts is too large, and the ones before are not (in builds with assertions all
four have to be there); or one of the lists of tags is too long. -/
def EntitiesExhaust (cfg : Cfg) (d : Bytes) : Prop :=
  ((cfg.asserts = true → 32 ≤ d.length) ∧ ∃ (counts : List UInt64) (n : UInt64) (r : Bytes), d = (counts ++ [n]).flatMap encU64 ++ r ∧ counts.length < 4 ∧
    (∀ m ∈ counts, m.toNat ≤ cfg.maxCount) ∧ cfg.maxCount < n.toNat) ∨
  ∃ p c s v r, d = [p, c, s, v].flatMap encU64 ++ r ∧ (∀ n ∈ [p, c, s, v], n.toNat ≤ cfg.maxCount) ∧
    ListsExhaust cfg (List.replicate p.toNat (4 + 3 * 8) ++ (List.replicate (c.toNat + s.toNat + v.toNat) [4 + 6 * 8, 0]).flatten) r

/-! ## Nodes and elements of version 4.1 -/

/-- One of the blocks of nodes in text has too many nodes or coordinates; `b` is what a block held before, and what is not stored keeps that. -/
def BlocksTextExhaust (cfg : Cfg) : List NodeBlock → Place → Prop
  | [], _ => False
  | b :: bs, x => ∃ d x1 x2 p x3 v x4, TakesInt x d x1 ∧ SkipsInt x1 x2 ∧ TakesInt x2 p x3 ∧ TakesSize x3 v x4 ∧ (cfg.asserts = true → x4.Good) ∧
      (cfg.maxCount < (v.getD b.numNodesInBlock).toNat ∨ ∃ x5, Many SkipsSize (v.getD b.numNodesInBlock).toNat x4 x5 ∧ (cfg.asserts = true → x5.Good) ∧
        (cfg.asserts = true → 0 ≤ (p.getD b.parametric).toInt ∧ (p.getD b.parametric).toInt ≤ 3) ∧ ¬ (p.getD b.parametric = 1 ∧ 2 ^ 31 ≤ (d.getD b.entityDim).toInt + 3) ∧
        TableExhausts cfg TakesReal ((v.getD b.numNodesInBlock).toNat * (if p.getD b.parametric = 1 then (3 + (d.getD b.entityDim).toInt) % 2 ^ 64 else 3).toNat) x5
          fun y => (cfg.asserts = true → y.Good) ∧ BlocksTextExhaust cfg bs y)

/-- There is not enough memory for a `$Nodes` section of version 4.1 in text when `n` has been read before. -/
def Nodes41TextExhaust (cfg : Cfg) (n : Nodes) (x : Place) : Prop :=
  ∃ v x1 y, TakesSize x v x1 ∧ Many SkipsSize 3 x1 y ∧ (cfg.asserts = true → y.Good) ∧
    (cfg.maxCount < (v.getD n.numEntityBlocks).toNat ∨ BlocksTextExhaust cfg (blocksFor n.entityBlocks (v.getD n.numEntityBlocks).toNat {}) y)

/-- One of the blocks of nodes in binary has too many nodes, or too many coordinates, whose number is computed modulo `2^64`.  What is cut off keeps what was there before; in builds
with assertions that stops the program. -/
inductive BlocksExhaust (cfg : Cfg) : List NodeBlock → Bytes → Prop
  | tags {b bs d dim tag par num} : ReadsHead b d dim tag par num → (cfg.asserts = true → 20 ≤ d.length) → cfg.maxCount < num.toNat → BlocksExhaust cfg (b :: bs) d
  | data {b bs d dim tag par num} {k : Nat} : ReadsHead b d dim tag par num → num.toNat ≤ cfg.maxCount → (cfg.asserts = true → 20 + 8 * num.toNat ≤ d.length) →
      ¬ (par = 1 ∧ 2 ^ 31 ≤ dim.toInt + 3) → (k : Int) = num.toNat * (3 + if par = 1 then dim.toInt else 0) % 2 ^ 64 → cfg.maxCount < k → BlocksExhaust cfg (b :: bs) d
  | next {b bs d dim tag par num} {k : Nat} : ReadsHead b d dim tag par num → num.toNat ≤ cfg.maxCount → ¬ (par = 1 ∧ 2 ^ 31 ≤ dim.toInt + 3) →
      (k : Int) = num.toNat * (3 + if par = 1 then dim.toInt else 0) % 2 ^ 64 → k ≤ cfg.maxCount →
      (cfg.asserts = true → 20 + 8 * num.toNat + 8 * k ≤ d.length) → BlocksExhaust cfg bs (d.drop (20 + 8 * num.toNat + 8 * k)) → BlocksExhaust cfg (b :: bs) d

/-- There is not enough memory for a binary `$Nodes` section of version 4.1 with the data `d` when `n` has been read before. -/
def Nodes41Exhaust (cfg : Cfg) (n : Nodes) (d : Bytes) : Prop :=
  (cfg.asserts = true → 32 ≤ d.length) ∧ ∃ N : UInt64, encU64 N = Over d (encU64 n.numEntityBlocks) ∧
    (cfg.maxCount < N.toNat ∨ BlocksExhaust cfg (blocksFor n.entityBlocks N.toNat {}) (d.drop 32))

/-- One of the blocks of elements in text is too large; the blocks up to it are of known types. -/
def ElementBlocksTextExhaust (cfg : Cfg) : List ElementBlock → Place → Prop
  | [], _ => False
  | b :: bs, x => ∃ x1 x2 t x3 v y, SkipsInt x x1 ∧ SkipsInt x1 x2 ∧ TakesInt x2 t x3 ∧ TakesSize x3 v y ∧ ∃ k ∈ mshNodes (t.getD b.elementType),
      TableExhausts cfg SkipsSize ((v.getD b.numElementsInBlock).toNat * (k + 1)) y fun z => (cfg.asserts = true → z.Good) ∧ ElementBlocksTextExhaust cfg bs z

/-- There is not enough memory for an `$Elements` section of version 4.1 in text when `e` has been read before. -/
def Elements41TextExhaust (cfg : Cfg) (e : Elements) (x : Place) : Prop :=
  ∃ v x1 y, TakesSize x v x1 ∧ Many SkipsSize 3 x1 y ∧ (cfg.asserts = true → y.Good) ∧
    (cfg.maxCount < (v.getD e.numEntityBlocks).toNat ∨ ElementBlocksTextExhaust cfg (blocksFor e.entityBlocks (v.getD e.numEntityBlocks).toNat {}) y)

/-- One of the blocks of elements in binary is too large.  The size of the table of tags is computed modulo `2^64`. -/
def ElementBlocksExhaust (cfg : Cfg) : List ElementBlock → Bytes → Prop
  | [], _ => False
  | b :: bs, d => ∃ (t : Int32) (num : UInt64), encI32 t ++ encU64 num = Over (d.drop 8) (encI32 b.elementType ++ encU64 b.numElementsInBlock) ∧
      ∃ k ∈ mshNodes t, ∃ n, n = num.toNat * (k + 1) % 2 ^ 64 ∧ (cfg.maxCount < n ∨
        ((cfg.asserts = true → 20 + 8 * n ≤ d.length) ∧ ElementBlocksExhaust cfg bs (d.drop (20 + 8 * n))))

/-- There is not enough memory for a binary `$Elements` section of version 4.1 with the data `d` when `e` has been read before. -/
def Elements41Exhaust (cfg : Cfg) (e : Elements) (d : Bytes) : Prop :=
  (cfg.asserts = true → 32 ≤ d.length) ∧ ∃ N : UInt64, encU64 N = Over d (encU64 e.numEntityBlocks) ∧
    (cfg.maxCount < N.toNat ∨ ElementBlocksExhaust cfg (blocksFor e.entityBlocks N.toNat {}) (d.drop 32))

/-! ## Version 2.2 -/

/-- There is not enough memory for a `$Nodes` section of version 2.2: for one more block, or for the coordinates of the nodes. -/
def Nodes22Exhaust (cfg : Cfg) (s : MshSpec) (x : Place) : Prop :=
  cfg.maxCount ≤ s.nodes.entityBlocks.length ∨ ∃ v y, TakesSize x v y ∧ (cfg.asserts = true → y.Good) ∧ cfg.maxCount < 3 * (v.getD 0).toNat

/-- One of the next `n` elements in text has too many tags, or a negative number of them; or there are more elements than the `room` there is for them.  `ty` and `nt` are the type
and the number of tags of the element before, which are used again when nothing is stored. -/
def ElementsTextExhaust (cfg : Cfg) : Nat → Nat → Option Int32 → Option Int32 → Place → Prop
  | 0, _, _, _, _ => False
  | n + 1, room, ty, nt, x => ∃ x1 t x2 k y, SkipsInt x x1 ∧ TakesInt x1 t x2 ∧ TakesInt x2 k y ∧ ∃ nt' ∈ k.or nt, (nt'.toInt < 0 ∨ cfg.maxCount < nt'.toInt) ∨
      ∃ z, Many SkipsInt nt'.toInt.toNat y z ∧ ∃ ty' ∈ t.or ty, ∃ m ∈ mshNodes ty', ∃ z', Many SkipsInt m z z' ∧
        (room = 0 ∨ ElementsTextExhaust cfg n (room - 1) (some ty') (some nt') z')

/-- There is room for the entities that `phys` stand for, when `s` has been read before. -/
def EntitiesFit (cfg : Cfg) (s : MshSpec) (phys : List (Nat × Int32)) : Prop :=
  RoomFor cfg phys 0 s.entities.points.length ∧ RoomFor cfg phys 1 s.entities.curves.length ∧ RoomFor cfg phys 2 s.entities.surfaces.length ∧
    RoomFor cfg phys 3 s.entities.volumes.length

/-- There is not enough memory for an `$Elements` section of version 2.2 in text: for the elements, or, when all of them have been read, for the entities they belong to. -/
def Elements22TextExhaust (cfg : Cfg) (s : MshSpec) (x : Place) : Prop :=
  ∃ n y, TakesSize x (some n) y ∧ (ElementsTextExhaust cfg n.toNat (cfg.maxCount - s.elements.entityBlocks.length) none none y ∨
    ∃ phys z, SkipsElements cfg n.toNat (cfg.maxCount - s.elements.entityBlocks.length) none none [] y phys z ∧ ¬ EntitiesFit cfg s phys)

/-- One of the groups of elements in binary, when `p` of `N` elements have been read and `R` fit,
* has too many tags, or a negative number of them; or
* has more elements than fit, at least when `N` do not fit with one to spare, whether or not they are there, as long as the number of the first one is. -/
inductive GroupsExhaust (cfg : Cfg) (N R : Nat) : Nat → Bytes → Prop
  | tags {p : Nat} {ty nb nt : Int32} {r : Bytes} : p ≠ N → p ≤ R → nt.toInt < 0 ∨ cfg.maxCount < nt.toInt → GroupsExhaust cfg N R p (encI32 ty ++ (encI32 nb ++ (encI32 nt ++ r)))
  | full {p d ty nb nt k r} : p ≠ N → p ≤ R → StartsGroup d ty nb nt k r → 0 ≤ nt.toInt → nt.toInt < 2 ^ 29 → nt.toInt ≤ cfg.maxCount → 4 ≤ r.length →
      R < p + asSize nb → R ≤ N → GroupsExhaust cfg N R p d
  | next {p d ty nb nt k r} : p ≠ N → StartsGroup d ty nb nt k r → 0 ≤ nt.toInt → (nt.toInt < 2 ^ 29 ∨ nb = 0) → nt.toInt ≤ cfg.maxCount → 0 ≤ nb.toInt →
      p + nb.toInt.toNat ≤ N → groupBytes nb nt k ≤ r.length → GroupsExhaust cfg N R (p + nb.toInt.toNat) (r.drop (groupBytes nb nt k)) → GroupsExhaust cfg N R p d

/-- Reading `n` elements of a group from the data `d`, each with `nt` tags and `k` nodes.  `tags` are those of the element before, and `tags'` those of the last one: what is cut
off keeps what was there before.  `phys` are the dimension and the second tags of the elements if they have two tags. -/
inductive SkipsMembers (dim nt k : Nat) : Nat → List Int32 → Bytes → List Int32 → List (Nat × Int32) → Prop
  | zero {tags d} : SkipsMembers dim nt k 0 tags d tags []
  | next {n tags d tags' tags'' phys} : tags'.flatMap encI32 = Over (d.drop 4) (tags.flatMap encI32) → SkipsMembers dim nt k n tags' (d.drop (4 * (1 + nt + k))) tags'' phys →
      SkipsMembers dim nt k (n + 1) tags d tags'' ((tags'[1]?.map fun tag => (dim, tag)).toList ++ phys)

/-- Reading the groups of a binary `$Elements` section, when `p` of `N` elements have been read and `R` fit.  Only the last group may be cut off, after the number of its first
element.  `tags` are the tags of the element before. -/
inductive SkipsGroups (cfg : Cfg) (N R : Nat) : Nat → List Int32 → Bytes → List (Nat × Int32) → Prop
  | done {tags d} : SkipsGroups cfg N R N tags d []
  | next {p tags d ty nb nt k dim r tags' phys phys'} : p ≠ N → StartsGroup d ty nb nt k r → mshDim ty = some dim → 0 ≤ nt.toInt → (nt.toInt < 2 ^ 29 ∨ nb = 0) →
      nt.toInt ≤ cfg.maxCount → 0 ≤ nb.toInt → (nb = 0 ∨ 4 ≤ r.length) → p + nb.toInt.toNat ≤ N → p + nb.toInt.toNat ≤ R →
      SkipsMembers dim nt.toInt.toNat k nb.toInt.toNat (blocksFor tags nt.toInt.toNat 0) r tags' phys →
      SkipsGroups cfg N R (p + nb.toInt.toNat) tags' (r.drop (groupBytes nb nt k)) phys' → SkipsGroups cfg N R p tags d (phys ++ phys')

/-- There is not enough memory for a binary `$Elements` section of version 2.2: for the announced number of elements, for the elements, or for the entities they belong to. -/
def Elements22Exhaust (cfg : Cfg) (s : MshSpec) (x : Place) : Prop :=
  ∃ v y, TakesSize x v y ∧ (cfg.maxCount < (v.getD s.elements.numElements).toNat ∨ ∃ d, DataFrom y d ∧
    (GroupsExhaust cfg (v.getD s.elements.numElements).toNat (cfg.maxCount - s.elements.entityBlocks.length) 0 d ∨
      ∃ phys, SkipsGroups cfg (v.getD s.elements.numElements).toNat (cfg.maxCount - s.elements.entityBlocks.length) 0 [] d phys ∧ ¬ EntitiesFit cfg s phys))

/-! ## Curves and patches -/

/-- One of the curves has too many values. -/
def CurvesExhaust (cfg : Cfg) (text : Prop) : List Curve → Place → Prop
  | [], _ => False
  | c :: cs, x => ∃ tag type degree points knots weights y,
      TakesSizesOver [c.curveTag, c.curveType, c.curveDegree, c.numControlPoints, c.numKnots, c.withWeights] x [tag, type, degree, points, knots, weights] y ∧
      (cfg.maxCount < splineSize points.toNat weights.toNat knots.toNat ∨
        ∃ y', SkipsDoubles text (splineSize points.toNat weights.toNat knots.toNat) y y' ∧ CurvesExhaust cfg text cs y')

/-- One of the patches has too many values. -/
def PatchesExhaust (cfg : Cfg) (text : Prop) : List Patch → Place → Prop
  | [], _ => False
  | p :: ps, x => ∃ tag type degreeU degreeV points knotsU knotsV weights y,
      TakesSizesOver [p.patchTag, p.patchType, p.degreeU, p.degreeV, p.numControlPoints, p.numUKnots, p.numVKnots, p.withWeights] x
        [tag, type, degreeU, degreeV, points, knotsU, knotsV, weights] y ∧
      (cfg.maxCount < splineSize points.toNat weights.toNat (knotsU.toNat + knotsV.toNat) ∨
        ∃ y', SkipsDoubles text (splineSize points.toNat weights.toNat (knotsU.toNat + knotsV.toNat)) y y' ∧ PatchesExhaust cfg text ps y')

/-! ## All sections -/

/-- There is not enough memory for the section `name`, when `s` has been read before and `r` follows the name. -/
def SectionExhausts (cfg : Cfg) (s : MshSpec) (name r : Bytes) : Prop :=
  (name = b! "$PhysicalNames" ∧ ∃ n y, TakesInt (.on r) (some n) y ∧ (n.toInt < 0 ∨ cfg.maxCount < n.toInt)) ∨
  (name = b! "$Entities" ∧ s.meshFormat.version = b! "4.1" ∧
    if s.meshFormat.fileType = 0 then EntitiesTextExhaust cfg (.on r) else ∃ d, DataAfter r d ∧ EntitiesExhaust cfg d) ∨
  (name = b! "$Nodes" ∧
    if s.meshFormat.version = b! "4.1" then
      if s.meshFormat.fileType = 0 then Nodes41TextExhaust cfg s.nodes (.on r) else ∃ d, DataAfter r d ∧ Nodes41Exhaust cfg s.nodes d
    else Nodes22Exhaust cfg s (.on r)) ∨
  (name = b! "$Elements" ∧
    if s.meshFormat.version = b! "4.1" then
      if s.meshFormat.fileType = 0 then Elements41TextExhaust cfg s.elements (.on r) else ∃ d, DataAfter r d ∧ Elements41Exhaust cfg s.elements d
    else if s.meshFormat.fileType = 0 then Elements22TextExhaust cfg s (.on r) else Elements22Exhaust cfg s (.on r)) ∨
  (name ∈ dataSections ∧ DataSectionExhausts cfg s name (.on r)) ∨
  (name = b! "$Curves" ∧ cfg.nanospline = true ∧ CounterExhausts cfg (.on r) fun n y => CurvesExhaust cfg (s.meshFormat.fileType = 0) (blocksFor s.curves n {}) y) ∨
  (name = b! "$Patches" ∧ cfg.nanospline = true ∧ CounterExhausts cfg (.on r) fun n y => PatchesExhaust cfg (s.meshFormat.fileType = 0) (blocksFor s.patches n {}) y)

end MshIO
