import Verif.Model.Load

/-!
# Input that can fail

`Model/IStream.lean` knows streams that end.  Here a stream may also break: reading past the bytes it holds is an error of the device (`broken`), not the end of the file.  Examples are a medium
that cannot be read, a network that is gone, and a directory, which `std::ifstream` opens on Linux and whose first `read` fails.  The buffer throws, the operation catches that and sets `badbit`;
`eofbit` stays clear.  `badbit` is part of `in.fail()`, so `fail` below stands for both.  What the operations store then follows libstdc++: a number is not stored, a word keeps the
characters that arrived, `in.read` leaves the bytes that arrived in the buffer.

The loaders are those of `Model/Load*.lean` again, line by line.
-/

namespace MshIO.Broken

/-- State of a `std::istream`; `broken` says that after `rem` comes an error and not the end. -/
structure Stream where
  rem : Bytes
  eof : Bool
  fail : Bool
  broken : Bool
  deriving DecidableEq, Repr

namespace Stream
/-- `in.good()`. -/
def good (s : Stream) : Bool := !s.eof && !s.fail
/-- The stream after it tried to read past `rem`; `fail` is what happens to `failbit` at the end of a file. -/
def past (s : Stream) (fail : Bool) : Stream := if s.broken then ⟨[], false, true, true⟩ else ⟨[], true, fail, false⟩
/-- The stream after it looked for more than what is left in `rest`. -/
def look (s : Stream) (rest : Bytes) (fail : Bool) : Stream := if rest.isEmpty then s.past fail else ⟨rest, false, fail, s.broken⟩
end Stream

/-- A computation that reads from the stream. -/
def Rd (α : Type) : Type := Stream → Outcome (α × Stream)

namespace Rd

/-- Return without touching the stream. -/
protected def pure {α : Type} (a : α) : Rd α := fun s => .ok (a, s)

/-- Sequencing. -/
protected def bind {α β : Type} (p : Rd α) (f : α → Rd β) : Rd β := fun s =>
  match p s with
  | .ok (a, s') => f a s'
  | .throw e => .throw e
  | .abort => .abort
  | .ub => .ub
  | .hang => .hang

instance : Monad Rd where
  pure := Rd.pure
  bind := Rd.bind

/-- Throw a C++ exception. -/
def throw {α : Type} (e : Exc) : Rd α := fun _ => .throw e
/-- Undefined behaviour. -/
def ub {α : Type} : Rd α := fun _ => .ub
/-- Run a computation that does not use the stream. -/
def lift {α : Type} (x : Outcome α) : Rd α := fun s =>
  match x with
  | .ok a => .ok (a, s)
  | .throw e => .throw e
  | .abort => .abort
  | .ub => .ub
  | .hang => .hang

end Rd

/-- `assert(c)`; does nothing when `NDEBUG` is defined. -/
def assertC (cfg : Cfg) (c : Bool) : Rd Unit := fun s =>
  if cfg.asserts && !c then .abort else .ok ((), s)

/-- `assert(in.good())`. -/
def assertGood (cfg : Cfg) : Rd Unit := fun s =>
  if cfg.asserts && !s.good then .abort else .ok ((), s)

/-- Use of a local variable that is `none` as long as nothing was stored in it:
reading an uninitialised variable is undefined. -/
def useVar {α : Type} (x : Option α) : Rd α :=
  match x with
  | some a => pure a
  | none => Rd.ub

/-- Formatted-input sentry, see `MshIO.sentry`. -/
def sentry (s : Stream) : Bool × Stream :=
  if s.good then
    match s.rem.dropWhile isSpace with
    | [] => (false, s.past true)
    | c :: r => (true, ⟨c :: r, false, false, s.broken⟩)
  else (false, { s with fail := true })

/-- `in >> x` for a `size_t x`; `none` = nothing was stored (the sentry failed, or the stream broke before the number was complete). -/
def extractSize : Rd (Option UInt64) := fun s =>
  match sentry s with
  | (false, s) => .ok (none, s)
  | (true, s) =>
    let (neg, ds, rest) := scanInt s.rem
    let (v, bad) := convertU64 neg ds
    if s.broken && rest.isEmpty then .ok (none, s.past true) else .ok (some v, s.look rest bad)

/-- `in >> x` for a `int x`; `none` = nothing was stored (the sentry failed, or the stream broke before the number was complete). -/
def extractInt : Rd (Option Int32) := fun s =>
  match sentry s with
  | (false, s) => .ok (none, s)
  | (true, s) =>
    let (neg, ds, rest) := scanInt s.rem
    let (v, bad) := convertI32 neg ds
    if s.broken && rest.isEmpty then .ok (none, s.past true) else .ok (some v, s.look rest bad)

/-- `in >> x` for a `double x`; `none` = nothing was stored (the sentry failed, or the stream broke before the number was complete). -/
def extractDouble : Rd (Option Double) := fun s =>
  match sentry s with
  | (false, s) => .ok (none, s)
  | (true, s) =>
    let f := scanFloat s.rem
    let (v, bad) := convertFloat f
    let rest := f.rest
    if s.broken && rest.isEmpty then .ok (none, s.past true) else .ok (some v, s.look rest bad)

/-- `in >> x` where `x` already holds `old`. -/
def inSize (old : UInt64) : Rd UInt64 := do return (← extractSize).getD old

/-- `in >> x` where `x` already holds `old`. -/
def inInt (old : Int32) : Rd Int32 := do return (← extractInt).getD old

/-- `in >> x` where `x` already holds `old`. -/
def inDouble (old : Double) : Rd Double := do return (← extractDouble).getD old

/-- `in >> x` where the local `x` may or may not be initialised (`none` = not). -/
def inIntVar (old : Option Int32) : Rd (Option Int32) := do
  match ← extractInt with
  | some v => return some v
  | none => return old

/-- `in >> str` for a `std::string` holding `old`. -/
def inString (old : Bytes) : Rd Bytes := fun s =>
  match sentry s with
  | (false, s) => .ok (old, s)
  | (true, s) => .ok (s.rem.takeWhile (fun c => !isSpace c), s.look (s.rem.dropWhile (fun c => !isSpace c)) false)

/-- Body of a quoted string after the opening `"`, see `MshIO.quotedBody`; `none` = the closing `"` did not come. -/
def quotedBody : Bytes → Bytes × Option Bytes
  | [] => ([], none)
  | 34 :: r => ([], some r)
  | 92 :: [] => ([], none)
  | 92 :: c :: r => let (t, s) := quotedBody r; (c :: t, s)
  | c :: r => let (t, s) := quotedBody r; (c :: t, s)

/-- `in >> std::quoted(str)`. -/
def inQuoted (old : Bytes) : Rd Bytes := fun s =>
  match sentry s with
  | (false, s) => .ok (old, s)
  | (true, s) =>
    match s.rem with
    | 34 :: r =>
      match quotedBody r with
      | (t, some r) => .ok (t, ⟨r, false, false, s.broken⟩)
      | (t, none) => .ok (t, s.past true)
    | _ => inString old s

/-- `in.read(p, n)` where the `n = old.length` bytes at `p` currently are `old`. -/
def readRaw (old : Bytes) : Rd Bytes := fun s =>
  if s.good then
    if old.length ≤ s.rem.length then
      .ok (s.rem.take old.length, ⟨s.rem.drop old.length, false, false, s.broken⟩)
    else .ok (s.rem ++ old.drop s.rem.length, s.past true)
  else .ok (old, { s with fail := true })

/-- `in.read(&x, sizeof(size_t))` where `x` holds `old`. -/
def readSize (old : UInt64) : Rd UInt64 := do return decodeU64 (← readRaw (encU64 old))

/-- `in.read(&x, sizeof(int))` where `x` holds `old`. -/
def readInt (old : Int32) : Rd Int32 := do return decodeI32 (← readRaw (encI32 old))

/-- `in.read(&x, sizeof(double))` where `x` holds `old`. -/
def readDouble (old : Double) : Rd Double := do
  return ⟨decodeU64 (← readRaw (encU64 old.bits))⟩

/-- `int32_t x; in.read(&x, 4);` with `x` uninitialised before the call when `old = none`. -/
def readIntVar (old : Option Int32) : Rd (Option Int32) := fun s =>
  match old with
  | some v => match readInt v s with
    | .ok (v', s') => .ok (some v', s')
    | .throw e => .throw e
    | .abort => .abort
    | .ub => .ub
    | .hang => .hang
  | none =>
    if s.good then
      if 4 ≤ s.rem.length then .ok (some (decodeI32 (s.rem.take 4)), ⟨s.rem.drop 4, false, false, s.broken⟩)
      else .ok (none, s.past true)
    else .ok (none, { s with fail := true })

/-- `in.read(v.data(), sizeof(size_t) * v.size())`. -/
def readSizes (old : List UInt64) : Rd (List UInt64) := do
  return decodeMany 8 decodeU64 old.length (← readRaw (old.flatMap encU64))

/-- `in.read(v.data(), sizeof(int) * v.size())`. -/
def readInts (old : List Int32) : Rd (List Int32) := do
  return decodeMany 4 decodeI32 old.length (← readRaw (old.flatMap encI32))

/-- `in.read(v.data(), sizeof(double) * v.size())`. -/
def readDoubles (old : List Double) : Rd (List Double) := do
  return decodeMany 8 (fun b => ⟨decodeU64 b⟩) old.length
    (← readRaw (old.flatMap (fun d => encU64 d.bits)))

/-- The loop of `eat_white_space`, see `MshIO.eatLoop`; `none` = it tried to read past the bytes. -/
def eatLoop : Nat → Bytes → Option Bytes
  | _, [] => none
  | 0, c :: r => some (c :: r)
  | count + 1, c :: r => if isEatSpace c then eatLoop count r else some (c :: r)

/-- `eat_white_space(in, count)` (`src/io_utils.cpp:7-20`). -/
def eatWhiteSpace (count : Nat) : Rd Unit := fun s =>
  if s.good then
    match eatLoop count s.rem with
    | some r => .ok ((), ⟨r, false, false, s.broken⟩)
    | none => .ok ((), s.past false)
  else .ok ((), { s with fail := true })

/-- `for (auto& x : v) x = f(x);` -/
def forEach {α : Type} (f : α → Rd α) : List α → Rd (List α)
  | [] => pure []
  | a :: as => do
    let a ← f a
    let as ← forEach f as
    return a :: as

/-- `for (size_t i = i₀; i < i₀ + n; i++) st = f(i, st);` -/
def loopN {σ : Type} (f : Nat → σ → Rd σ) : (n : Nat) → (i : Nat) → σ → Rd σ
  | 0, _, st => pure st
  | n + 1, i, st => do
    let st ← f i st
    loopN f n (i + 1) st

/-- `v.resize(n)` in the loader. -/
def resize {α : Type} (cfg : Cfg) (v : List α) (n : UInt64) (dflt : α) : Rd (List α) :=
  Rd.lift (vecResize cfg v n dflt)

/-- `v.emplace_back()` / `v.push_back(x)` in the loader. -/
def pushBack {α : Type} (cfg : Cfg) (v : List α) (x : α) : Rd (List α) :=
  Rd.lift (vecPush cfg v x)

/-- `in >> v[i]` for a vector of doubles: an index past the end is undefined behaviour. -/
def inDoubleAt (i : UInt64) (v : List Double) : Rd (List Double) :=
  match v[i.toNat]? with
  | none => Rd.ub
  | some old => do return v.set i.toNat (← inDouble old)

/-- `in >> v[i]` for a vector of `size_t`. -/
def inSizeAt (i : UInt64) (v : List UInt64) : Rd (List UInt64) :=
  match v[i.toNat]? with
  | none => Rd.ub
  | some old => do return v.set i.toNat (← inSize old)

/-- `load_mesh_format` (`src/load_msh_format.cpp:14-44`).
`sizeof(size_t) != format.data_size` compares after conversion to `size_t`. -/
def loadMeshFormat (f : MeshFormat) : Rd MeshFormat := do
  let version ← inString f.version
  if version ≠ b! "2.2" ∧ version ≠ b! "4.1" then Rd.throw .unsupportedFeature
  else do
    let fileType ← inInt f.fileType
    let dataSize ← inInt f.dataSize
    if version = b! "4.1" ∧ sizeOfInt dataSize ≠ 8 then Rd.throw .unsupportedFeature
    else if fileType ≠ 0 then do
      eatWhiteSpace (2 ^ 64 - 1)
      let one ← readInt 0
      if one ≠ 1 then Rd.throw .unsupportedFeature
      else return { version, fileType, dataSize }
    else return { version, fileType, dataSize }

/-- Body of the loop of `load_physical_groups` (`src/load_msh_physical_groups.cpp:18-23`). -/
def loadPhysicalGroup (g : PhysicalGroup) : Rd PhysicalGroup := do
  let dim ← inInt g.dim
  let tag ← inInt g.tag
  let name ← inQuoted g.name
  return { dim, tag, name }

/-- `load_physical_groups` (`src/load_msh_physical_groups.cpp:12-25`).  `num_groups` is an
uninitialised `int` local; `resize(num_groups)` converts it to `size_t`. -/
def loadPhysicalGroups (cfg : Cfg) (gs : List PhysicalGroup) : Rd (List PhysicalGroup) := do
  let numGroups ← useVar (← extractInt)
  let gs ← resize cfg gs (sizeOfInt numGroups) {}
  let gs ← forEach loadPhysicalGroup gs
  assertGood cfg
  return gs

/-- `load_nanospline_format` (`src/load_msh_nanospline_format.h:10-13`); compiled in every build. -/
def loadNanosplineFormat (version : Bytes) : Rd Bytes := inString version

/-- `in >> n; v.resize(n); for (...) in >> v[j];` with an uninitialised local `n`
(`src/load_msh_entities.cpp:34-39`, `:51-62`, `:74-85`, `:97-108`). -/
def loadIntListAscii (cfg : Cfg) (v : List Int32) : Rd (List Int32) := do
  let n ← useVar (← extractSize)
  let v ← resize cfg v n 0
  forEach inInt v

/-- Body of the point loop, ASCII (`src/load_msh_entities.cpp:28-40`). -/
def loadPointAscii (cfg : Cfg) (p : PointEntity) : Rd PointEntity := do
  let tag ← inInt p.tag
  let x ← inDouble p.x
  let y ← inDouble p.y
  let z ← inDouble p.z
  let physicalGroupTags ← loadIntListAscii cfg p.physicalGroupTags
  return { tag, x, y, z, physicalGroupTags }

/-- Body of the curve, surface and volume loops, ASCII
(`src/load_msh_entities.cpp:42-63`, `:65-86`, `:88-109`). -/
def loadBoxAscii (cfg : Cfg) (p : BoxEntity) : Rd BoxEntity := do
  let tag ← inInt p.tag
  let minX ← inDouble p.minX
  let minY ← inDouble p.minY
  let minZ ← inDouble p.minZ
  let maxX ← inDouble p.maxX
  let maxY ← inDouble p.maxY
  let maxZ ← inDouble p.maxZ
  let physicalGroupTags ← loadIntListAscii cfg p.physicalGroupTags
  let boundaryTags ← loadIntListAscii cfg p.boundaryTags
  return { tag, minX, minY, minZ, maxX, maxY, maxZ, physicalGroupTags, boundaryTags }

/-- `v41::load_entities_ascii` (`src/load_msh_entities.cpp:13-112`). -/
def loadEntitiesAscii41 (cfg : Cfg) (e : Entities) : Rd Entities := do
  let np ← extractSize
  let nc ← extractSize
  let ns ← extractSize
  let nv ← extractSize
  assertGood cfg
  let points ← resize cfg e.points (← useVar np) {}
  let curves ← resize cfg e.curves (← useVar nc) {}
  let surfaces ← resize cfg e.surfaces (← useVar ns) {}
  let volumes ← resize cfg e.volumes (← useVar nv) {}
  let points ← forEach (loadPointAscii cfg) points
  let curves ← forEach (loadBoxAscii cfg) curves
  let surfaces ← forEach (loadBoxAscii cfg) surfaces
  let volumes ← forEach (loadBoxAscii cfg) volumes
  assertGood cfg
  return { points, curves, surfaces, volumes }

/-- `size_t n; in.read(&n, 8);`: the local is usable only if all eight bytes arrived. -/
def readSizeVar : Rd (Option UInt64) := fun s =>
  if s.good then
    if 8 ≤ s.rem.length then .ok (some (decodeU64 (s.rem.take 8)), ⟨s.rem.drop 8, false, false, s.broken⟩)
    else .ok (none, s.past true)
  else .ok (none, { s with fail := true })

/-- `size_t n; in.read(&n, 8); assert(in.good()); v.resize(n); in.read(v.data(), 4*n);
assert(in.good());` (`src/load_msh_entities.cpp:136-143`, `:155-171`, `:183-199`, `:211-227`). -/
def loadIntListBinary (cfg : Cfg) (v : List Int32) : Rd (List Int32) := do
  let n ← readSizeVar
  assertGood cfg
  let v ← resize cfg v (← useVar n) 0
  let v ← readInts v
  assertGood cfg
  return v

/-- Body of the point loop, binary (`src/load_msh_entities.cpp:130-144`). -/
def loadPointBinary (cfg : Cfg) (p : PointEntity) : Rd PointEntity := do
  let tag ← readInt p.tag
  let x ← readDouble p.x
  let y ← readDouble p.y
  let z ← readDouble p.z
  let physicalGroupTags ← loadIntListBinary cfg p.physicalGroupTags
  return { tag, x, y, z, physicalGroupTags }

/-- Body of the curve, surface and volume loops, binary
(`src/load_msh_entities.cpp:146-172`, `:174-200`, `:202-228`). -/
def loadBoxBinary (cfg : Cfg) (p : BoxEntity) : Rd BoxEntity := do
  let tag ← readInt p.tag
  let minX ← readDouble p.minX
  let minY ← readDouble p.minY
  let minZ ← readDouble p.minZ
  let maxX ← readDouble p.maxX
  let maxY ← readDouble p.maxY
  let maxZ ← readDouble p.maxZ
  let physicalGroupTags ← loadIntListBinary cfg p.physicalGroupTags
  let boundaryTags ← loadIntListBinary cfg p.boundaryTags
  return { tag, minX, minY, minZ, maxX, maxY, maxZ, physicalGroupTags, boundaryTags }

/-- `v41::load_entities_binary` (`src/load_msh_entities.cpp:114-229`). -/
def loadEntitiesBinary41 (cfg : Cfg) (e : Entities) : Rd Entities := do
  eatWhiteSpace 1
  let np ← readSizeVar
  let nc ← readSizeVar
  let ns ← readSizeVar
  let nv ← readSizeVar
  assertGood cfg
  let points ← resize cfg e.points (← useVar np) {}
  let curves ← resize cfg e.curves (← useVar nc) {}
  let surfaces ← resize cfg e.surfaces (← useVar ns) {}
  let volumes ← resize cfg e.volumes (← useVar nv) {}
  let points ← forEach (loadPointBinary cfg) points
  let curves ← forEach (loadBoxBinary cfg) curves
  let surfaces ← forEach (loadBoxBinary cfg) surfaces
  let volumes ← forEach (loadBoxBinary cfg) volumes
  return { points, curves, surfaces, volumes }

/-- `load_entities` (`src/load_msh_entities.cpp:233-245`); any other version does nothing. -/
def loadEntities (cfg : Cfg) (f : MeshFormat) (e : Entities) : Rd Entities :=
  if f.version = b! "4.1" then
    if f.fileType = 0 then loadEntitiesAscii41 cfg e else loadEntitiesBinary41 cfg e
  else if f.version = b! "2.2" then Rd.throw .invalidFormat
  else pure e

/-- Body of the block loop of `v41::load_nodes_ascii` (`src/load_msh_nodes.cpp:26-50`). -/
def loadNodeBlockAscii41 (cfg : Cfg) (b : NodeBlock) : Rd NodeBlock := do
  let entityDim ← inInt b.entityDim
  let entityTag ← inInt b.entityTag
  let parametric ← inInt b.parametric
  let num ← inSize b.numNodesInBlock
  assertGood cfg
  let tags ← resize cfg b.tags num 0
  let tags ← forEach inSize tags
  assertGood cfg
  assertC cfg (0 ≤ parametric && parametric ≤ 3)
  let e ← Rd.lift (entriesPerNode parametric entityDim)
  let data ← resize cfg b.data (num * e) Double.zero
  let data ← loopN (fun j data =>
      loopN (fun k data => inDoubleAt (UInt64.ofNat j * e + UInt64.ofNat k) data) e.toNat 0 data)
    num.toNat 0 data
  assertGood cfg
  return { entityDim, entityTag, parametric, numNodesInBlock := num, tags, data }

/-- `v41::load_nodes_ascii` (`src/load_msh_nodes.cpp:17-51`). -/
def loadNodesAscii41 (cfg : Cfg) (n : Nodes) : Rd Nodes := do
  let numEntityBlocks ← inSize n.numEntityBlocks
  let numNodes ← inSize n.numNodes
  let minNodeTag ← inSize n.minNodeTag
  let maxNodeTag ← inSize n.maxNodeTag
  assertGood cfg
  let bs ← resize cfg n.entityBlocks numEntityBlocks {}
  let entityBlocks ← forEach (loadNodeBlockAscii41 cfg) bs
  return { numEntityBlocks, numNodes, minNodeTag, maxNodeTag, entityBlocks }

/-- Body of the block loop of `v41::load_nodes_binary` (`src/load_msh_nodes.cpp:63-83`).
After the two successful `resize` calls the byte counts of the two vector reads are exactly
`8 * tags.size()` and `8 * data.size()` (the counts stay below `2^60`). -/
def loadNodeBlockBinary41 (cfg : Cfg) (b : NodeBlock) : Rd NodeBlock := do
  let entityDim ← readInt b.entityDim
  let entityTag ← readInt b.entityTag
  let parametric ← readInt b.parametric
  let num ← readSize b.numNodesInBlock
  assertGood cfg
  let tags ← resize cfg b.tags num 0
  let tags ← readSizes tags
  assertGood cfg
  let e ← Rd.lift (entriesPerNode parametric entityDim)
  let data ← resize cfg b.data (num * e) Double.zero
  let data ← readDoubles data
  assertGood cfg
  return { entityDim, entityTag, parametric, numNodesInBlock := num, tags, data }

/-- `v41::load_nodes_binary` (`src/load_msh_nodes.cpp:53-84`). -/
def loadNodesBinary41 (cfg : Cfg) (n : Nodes) : Rd Nodes := do
  eatWhiteSpace 1
  let numEntityBlocks ← readSize n.numEntityBlocks
  let numNodes ← readSize n.numNodes
  let minNodeTag ← readSize n.minNodeTag
  let maxNodeTag ← readSize n.maxNodeTag
  assertGood cfg
  let bs ← resize cfg n.entityBlocks numEntityBlocks {}
  let entityBlocks ← forEach (loadNodeBlockBinary41 cfg) bs
  return { numEntityBlocks, numNodes, minNodeTag, maxNodeTag, entityBlocks }

/-- `v22::load_nodes_ascii` (`src/load_msh_nodes.cpp:90-120`). -/
def loadNodesAscii22 (cfg : Cfg) (n : Nodes) : Rd Nodes := do
  let blocks ← pushBack cfg n.entityBlocks {}
  let num ← inSize 0
  assertGood cfg
  let tags ← resize cfg [] num (0 : UInt64)
  let data ← resize cfg [] (num * 3) Double.zero
  let (tags, data) ← loopN (fun i (tags, data) => do
      let i := UInt64.ofNat i
      let tags ← inSizeAt i tags
      let data ← inDoubleAt (i * 3) data
      let data ← inDoubleAt (i * 3 + 1) data
      let data ← inDoubleAt (i * 3 + 2) data
      assertGood cfg
      return (tags, data)) num.toNat 0 (tags, data)
  let (lo, hi) := updateTagRange n tags
  return {
    numEntityBlocks := n.numEntityBlocks + 1
    numNodes := n.numNodes + num
    minNodeTag := lo
    maxNodeTag := hi
    entityBlocks := blocks.dropLast ++ [{ numNodesInBlock := num, tags, data }] }

/-- Body of the node loop of `v22::load_nodes_binary` (`src/load_msh_nodes.cpp:139-145`):
`tag` is an uninitialised `int`, used right after the read; the coordinates are read straight into
`data[3i .. 3i+2]`. -/
def loadNodeBinary22 (cfg : Cfg) (i : Nat) (st : List UInt64 × List Double) :
    Rd (List UInt64 × List Double) := do
  assertGood cfg
  let tag ← useVar (← readIntVar none)
  let tags ← Rd.lift (vecSet st.1 (UInt64.ofNat i) (sizeOfInt tag))
  let x ← Rd.lift (vecGet st.2 (UInt64.ofNat i * 3))
  let y ← Rd.lift (vecGet st.2 (UInt64.ofNat i * 3 + 1))
  let z ← Rd.lift (vecGet st.2 (UInt64.ofNat i * 3 + 2))
  let c ← readDoubles [x, y, z]
  return (tags, st.2.take (3 * i) ++ c ++ st.2.drop (3 * i + 3))

/-- `v22::load_nodes_binary` (`src/load_msh_nodes.cpp:122-153`). -/
def loadNodesBinary22 (cfg : Cfg) (n : Nodes) : Rd Nodes := do
  let blocks ← pushBack cfg n.entityBlocks {}
  let num ← inSize 0
  assertGood cfg
  let tags ← resize cfg [] num (0 : UInt64)
  let data ← resize cfg [] (num * 3) Double.zero
  eatWhiteSpace 1
  let (tags, data) ← loopN (loadNodeBinary22 cfg) num.toNat 0 (tags, data)
  let (lo, hi) := updateTagRange n tags
  return {
    numEntityBlocks := n.numEntityBlocks + 1
    numNodes := n.numNodes + num
    minNodeTag := lo
    maxNodeTag := hi
    entityBlocks := blocks.dropLast ++ [{ numNodesInBlock := num, tags, data }] }

/-- `load_nodes` (`src/load_msh_nodes.cpp:157-181`). -/
def loadNodes (cfg : Cfg) (f : MeshFormat) (n : Nodes) : Rd Nodes :=
  let n := if n.entityBlocks.length = 0 then
      { n with minNodeTag := sizeMax, maxNodeTag := 0, numNodes := 0 } else n
  if f.version = b! "4.1" then
    if f.fileType = 0 then loadNodesAscii41 cfg n else loadNodesBinary41 cfg n
  else if f.version = b! "2.2" then
    if f.fileType = 0 then loadNodesAscii22 cfg n else loadNodesBinary22 cfg n
  else Rd.throw .unsupportedFeature

/-- Body of the block loop of `v41::load_elements_ascii` (`src/load_msh_elements.cpp:33-49`). -/
def loadElementBlockAscii41 (cfg : Cfg) (b : ElementBlock) : Rd ElementBlock := do
  let entityDim ← inInt b.entityDim
  let entityTag ← inInt b.entityTag
  let elementType ← inInt b.elementType
  let num ← inSize b.numElementsInBlock
  let n ← Rd.lift (nodesPerElement elementType)
  let data ← resize cfg b.data (num * (n + 1)) 0
  let data ← loopN (fun j data =>
      loopN (fun k data => inSizeAt (UInt64.ofNat j * (n + 1) + UInt64.ofNat k) data)
        (n.toNat + 1) 0 data)
    num.toNat 0 data
  assertGood cfg
  return { entityDim, entityTag, elementType, numElementsInBlock := num, data }

/-- `v41::load_elements_ascii` (`src/load_msh_elements.cpp:23-50`). -/
def loadElementsAscii41 (cfg : Cfg) (e : Elements) : Rd Elements := do
  let numEntityBlocks ← inSize e.numEntityBlocks
  let numElements ← inSize e.numElements
  let minElementTag ← inSize e.minElementTag
  let maxElementTag ← inSize e.maxElementTag
  assertGood cfg
  let bs ← resize cfg e.entityBlocks numEntityBlocks {}
  let entityBlocks ← forEach (loadElementBlockAscii41 cfg) bs
  return { numEntityBlocks, numElements, minElementTag, maxElementTag, entityBlocks }

/-- Body of the block loop of `v41::load_elements_binary` (`src/load_msh_elements.cpp:63-76`). -/
def loadElementBlockBinary41 (cfg : Cfg) (b : ElementBlock) : Rd ElementBlock := do
  let entityDim ← readInt b.entityDim
  let entityTag ← readInt b.entityTag
  let elementType ← readInt b.elementType
  let num ← readSize b.numElementsInBlock
  let n ← Rd.lift (nodesPerElement elementType)
  let data ← resize cfg b.data (num * (n + 1)) 0
  let data ← readSizes data
  assertGood cfg
  return { entityDim, entityTag, elementType, numElementsInBlock := num, data }

/-- `v41::load_elements_binary` (`src/load_msh_elements.cpp:52-77`). -/
def loadElementsBinary41 (cfg : Cfg) (e : Elements) : Rd Elements := do
  eatWhiteSpace 1
  let numEntityBlocks ← readSize e.numEntityBlocks
  let numElements ← readSize e.numElements
  let minElementTag ← readSize e.minElementTag
  let maxElementTag ← readSize e.maxElementTag
  assertGood cfg
  let bs ← resize cfg e.entityBlocks numEntityBlocks {}
  let entityBlocks ← forEach (loadElementBlockBinary41 cfg) bs
  return { numEntityBlocks, numElements, minElementTag, maxElementTag, entityBlocks }

/-! ## Version 2.2 -/

/-- Body of the loop of `v22::load_elements_ascii` (`src/load_msh_elements.cpp:115-164`). -/
def loadElementAscii22 (cfg : Cfg) (st : Ascii22) : Rd Ascii22 := do
  let elementNum ← inIntVar st.elementNum
  let elementType ← inIntVar st.elementType
  let numTags ← inIntVar st.numTags
  let tags ← resize cfg st.tags (sizeOfInt (← useVar numTags)) 0
  let tags ← forEach inInt tags
  let et ← useVar elementType
  let n ← Rd.lift (nodesPerElement et)
  let nodeIds ← resize cfg st.nodeIds n 0
  let nodeIds ← forEach inInt nodeIds
  let en ← useVar elementNum
  let lo := if sizeOfInt en < st.lo then sizeOfInt en else st.lo
  let hi := if st.hi < sizeOfInt en then sizeOfInt en else st.hi
  let (blocks, maps) ← Rd.lift (makeElement22 cfg en et tags nodeIds st.blocks st.maps)
  return { elementNum, elementType, numTags, tags, nodeIds, lo, hi, blocks, maps }

/-- `v22::load_elements_ascii` (`src/load_msh_elements.cpp:97-170`). -/
def loadElementsAscii22 (cfg : Cfg) (e : Elements) (ents : Entities) : Rd (Elements × Entities) := do
  let num ← useVar (← extractSize)
  let st ← loopN (fun _ st => loadElementAscii22 cfg st) num.toNat 0
    { lo := e.minElementTag, hi := e.maxElementTag, blocks := e.entityBlocks }
  let ents ← Rd.lift (createAllEntities cfg st.maps ents)
  return ({
    numEntityBlocks := e.numEntityBlocks + num
    numElements := e.numElements + num
    minElementTag := st.lo
    maxElementTag := st.hi
    entityBlocks := st.blocks }, ents)

/-- Body of the inner loop of `v22::load_elements_binary` (`src/load_msh_elements.cpp:198-240`);
`elementId` is the local declared in the enclosing `while` body.
`4 * num_tags` is an `int` product. -/
def loadElementBinary22 (cfg : Cfg) (numElements : UInt64) (elementType numTags : Int32)
    (st : Option Int32 × Binary22) : Rd (Option Int32 × Binary22) := do
  let elementId ← readIntVar st.1
  if 2 ^ 31 ≤ 4 * numTags.toInt then Rd.ub
  else do
    let tags ← readInts st.2.tags
    let nodeIds ← readInts st.2.nodeIds
    let id ← useVar elementId
    let minTag := if id < st.2.minTag then id else st.2.minTag
    let maxTag := if st.2.maxTag < id then id else st.2.maxTag
    let (blocks, maps) ← Rd.lift (makeElement22 cfg id elementType tags nodeIds st.2.blocks st.2.maps)
    let processed := st.2.processed + 1
    if numElements < processed then Rd.throw .invalidFormat
    else return (elementId, { tags, nodeIds, minTag, maxTag, processed, blocks, maps })

/-- Body of the `while` loop of `v22::load_elements_binary` (`src/load_msh_elements.cpp:186-240`).
The inner loop compares `size_t i < int32_t num_elements_in_block` as `size_t`. -/
def loadElementGroupBinary22 (cfg : Cfg) (numElements : UInt64) (st : Binary22) : Rd Binary22 := do
  let elementType ← readIntVar none
  let numInBlock ← readIntVar none
  let numTags ← readIntVar none
  let nt ← useVar numTags
  let tags ← resize cfg st.tags (sizeOfInt nt) 0
  let et ← useVar elementType
  let n ← Rd.lift (nodesPerElement et)
  let nodeIds ← resize cfg st.nodeIds n 0
  let nb ← useVar numInBlock
  let (_, st) ← loopN (fun _ st => loadElementBinary22 cfg numElements et nt st)
    (sizeOfInt nb).toNat 0 (none, { st with tags, nodeIds })
  return st

/-- The `while (num_processed_elements != elements.num_elements)` loop
(`src/load_msh_elements.cpp:185-241`).  `fuel` is an upper bound on the number of rounds; running
out of it means `hang`.  The call below provides more rounds than the loop can make (every round
consumes 12 bytes or uses an uninitialised variable), which `Props` proves. -/
def loadElementGroups22 (cfg : Cfg) (numElements : UInt64) : Nat → Binary22 → Rd Binary22
  | 0, _ => fun _ => .hang
  | fuel + 1, st =>
    if st.processed = numElements then pure st
    else do
      let st ← loadElementGroupBinary22 cfg numElements st
      loadElementGroups22 cfg numElements fuel st

/-- `v22::load_elements_binary` (`src/load_msh_elements.cpp:172-251`). -/
def loadElementsBinary22 (cfg : Cfg) (e : Elements) (ents : Entities) : Rd (Elements × Entities) := do
  let numElements ← inSize e.numElements
  Rd.lift (vecReserve cfg numElements)
  eatWhiteSpace 1
  let st ← fun s =>
    loadElementGroups22 cfg numElements (s.rem.length + 2) { blocks := e.entityBlocks } s
  let ents ← Rd.lift (createAllEntities cfg st.maps ents)
  let lo := sizeOfInt st.minTag
  let hi := sizeOfInt st.maxTag
  return ({
    numEntityBlocks := sizeU st.blocks
    numElements
    minElementTag := if lo < e.minElementTag then lo else e.minElementTag
    maxElementTag := if e.maxElementTag < hi then hi else e.maxElementTag
    entityBlocks := st.blocks }, ents)

/-- `load_elements` (`src/load_msh_elements.cpp:255-279`). -/
def loadElements (cfg : Cfg) (f : MeshFormat) (e : Elements) (ents : Entities) :
    Rd (Elements × Entities) :=
  let e := if e.entityBlocks.length = 0 then
      { e with minElementTag := sizeMax, maxElementTag := 0 } else e
  if f.version = b! "4.1" then
    if f.fileType = 0 then do return (← loadElementsAscii41 cfg e, ents)
    else do return (← loadElementsBinary41 cfg e, ents)
  else if f.version = b! "2.2" then
    if f.fileType = 0 then loadElementsAscii22 cfg e ents else loadElementsBinary22 cfg e ents
  else Rd.throw .unsupportedFeature

/-- `internal::load_data_header` (`src/load_msh_data.cpp:16-38`); the three counters are
uninitialised locals. -/
def loadDataHeader (cfg : Cfg) (h : DataHeader) : Rd DataHeader := do
  let ns ← useVar (← extractSize)
  let stringTags ← resize cfg h.stringTags ns []
  let stringTags ← forEach inQuoted stringTags
  let nr ← useVar (← extractSize)
  let realTags ← resize cfg h.realTags nr Double.zero
  let realTags ← forEach inDouble realTags
  let ni ← useVar (← extractSize)
  let intTags ← resize cfg h.intTags ni 0
  let intTags ← forEach inInt intTags
  assertGood cfg
  return { stringTags, realTags, intTags }

/-- `internal::v41::load_data_entry` (`src/load_msh_data.cpp:41-60`). -/
def loadDataEntryBinary41 (cfg : Cfg) (fields : UInt64) (isElementNode : Bool) (e : DataEntry) :
    Rd DataEntry := do
  let tag ← useVar (← readIntVar none)
  if isElementNode then do
    let npe ← readInt e.numNodesPerElement
    let data ← resize cfg e.data (fields * sizeOfInt npe) Double.zero
    let data ← readDoubles data
    return { tag := sizeOfInt tag, numNodesPerElement := npe, data }
  else do
    let data ← resize cfg e.data fields Double.zero
    let data ← readDoubles data
    return { e with tag := sizeOfInt tag, data }

/-- `internal::v22::load_data_entry` (`src/load_msh_data.cpp:64-80`). -/
def loadDataEntryBinary22 (cfg : Cfg) (fields : UInt64) (isElementNode : Bool) (e : DataEntry) :
    Rd DataEntry := do
  let tag ← useVar (← readIntVar none)
  if isElementNode then do
    let npe ← useVar (← readIntVar none)
    let data ← resize cfg e.data (fields * sizeOfInt npe) Double.zero
    let data ← readDoubles data
    return { tag := sizeOfInt tag, numNodesPerElement := npe, data }
  else do
    let data ← resize cfg e.data fields Double.zero
    let data ← readDoubles data
    return { e with tag := sizeOfInt tag, data }

/-- Body of the ASCII entry loop (`src/load_msh_data.cpp:113-130`). -/
def loadDataEntryAscii (cfg : Cfg) (fields : UInt64) (isElementNode : Bool) (e : DataEntry) :
    Rd DataEntry := do
  let tag ← inSize e.tag
  if isElementNode then do
    let npe ← inInt e.numNodesPerElement
    let data ← resize cfg e.data (fields * sizeOfInt npe) Double.zero
    let data ← loopN (fun j data =>
        loopN (fun k data => inDoubleAt (UInt64.ofNat j * fields + UInt64.ofNat k) data)
          fields.toNat 0 data)
      (sizeOfInt npe).toNat 0 data
    return { tag, numNodesPerElement := npe, data }
  else do
    let data ← resize cfg e.data fields Double.zero
    let data ← forEach inDouble data
    return { e with tag, data }

/-- `internal::load_data` (`src/load_msh_data.cpp:83-133`) on a fresh `Data`. -/
def loadData (cfg : Cfg) (f : MeshFormat) (isElementNode : Bool) : Rd Data := do
  let header ← loadDataHeader cfg {}
  match header.intTags with
  | _ :: fieldsTag :: numTag :: _ => do
    let fields := sizeOfInt fieldsTag
    let entries ← resize cfg [] (sizeOfInt numTag) {}
    if 0 < f.fileType then do
      eatWhiteSpace 1
      if f.version = b! "4.1" then do
        let entries ← forEach (loadDataEntryBinary41 cfg fields isElementNode) entries
        assertGood cfg
        return { header, entries }
      else if f.version = b! "2.2" then do
        let entries ← forEach (loadDataEntryBinary22 cfg fields isElementNode) entries
        assertGood cfg
        return { header, entries }
      else Rd.throw .invalidFormat
    else do
      let entries ← forEach (loadDataEntryAscii cfg fields isElementNode) entries
      assertGood cfg
      return { header, entries }
  | _ => Rd.throw .invalidFormat

/-- `load_node_data`, `load_element_data`, `load_element_node_data`
(`src/load_msh_data.cpp:138-160`): append a fresh `Data` and fill it. -/
def loadDataSection (cfg : Cfg) (f : MeshFormat) (isElementNode : Bool) (ds : List Data) :
    Rd (List Data) := do
  let ds ← pushBack cfg ds {}
  let d ← loadData cfg f isElementNode
  return ds.dropLast ++ [d]

/-- The counters of one curve (`src/load_msh_curves.cpp:18-23`, `:45-50`). -/
def loadCurveHeader (c : Curve) : Rd Curve := do
  let curveTag ← inSize c.curveTag
  let curveType ← inSize c.curveType
  let curveDegree ← inSize c.curveDegree
  let numControlPoints ← inSize c.numControlPoints
  let numKnots ← inSize c.numKnots
  let withWeights ← inSize c.withWeights
  return { curveTag, curveType, curveDegree, numControlPoints, numKnots, withWeights, data := c.data }

/-- Loop body of `load_curves_ascii` (`src/load_msh_curves.cpp:16-31`). -/
def loadCurveAscii (cfg : Cfg) (c : Curve) : Rd Curve := do
  let c ← loadCurveHeader c
  let data ← resize cfg c.data c.numEntries Double.zero
  let data ← forEach inDouble data
  return { c with data }

/-- Loop body of `load_curves_binary` (`src/load_msh_curves.cpp:43-57`). -/
def loadCurveBinary (cfg : Cfg) (c : Curve) : Rd Curve := do
  let c ← loadCurveHeader c
  eatWhiteSpace 1
  let data ← resize cfg c.data c.numEntries Double.zero
  let data ← readDoubles data
  return { c with data }

/-- `load_curves` (`src/load_msh_curves.cpp:8-71`); does nothing without the extension. -/
def loadCurves (cfg : Cfg) (f : MeshFormat) (cs : List Curve) : Rd (List Curve) :=
  if cfg.nanospline then do
    let n ← useVar (← extractSize)
    let cs ← resize cfg cs n {}
    if f.fileType = 0 then forEach (loadCurveAscii cfg) cs else forEach (loadCurveBinary cfg) cs
  else pure cs

/-- The counters of one patch (`src/load_msh_patches.cpp:18-25`, `:49-56`). -/
def loadPatchHeader (p : Patch) : Rd Patch := do
  let patchTag ← inSize p.patchTag
  let patchType ← inSize p.patchType
  let degreeU ← inSize p.degreeU
  let degreeV ← inSize p.degreeV
  let numControlPoints ← inSize p.numControlPoints
  let numUKnots ← inSize p.numUKnots
  let numVKnots ← inSize p.numVKnots
  let withWeights ← inSize p.withWeights
  return { patchTag, patchType, degreeU, degreeV, numControlPoints, numUKnots, numVKnots,
           withWeights, data := p.data }

/-- Loop body of `load_patches_ascii` (`src/load_msh_patches.cpp:16-35`). -/
def loadPatchAscii (cfg : Cfg) (p : Patch) : Rd Patch := do
  let p ← loadPatchHeader p
  let data ← resize cfg p.data p.numEntries Double.zero
  let data ← forEach inDouble data
  return { p with data }

/-- Loop body of `load_patches_binary` (`src/load_msh_patches.cpp:47-66`). -/
def loadPatchBinary (cfg : Cfg) (p : Patch) : Rd Patch := do
  let p ← loadPatchHeader p
  let data ← resize cfg p.data p.numEntries Double.zero
  eatWhiteSpace 1
  let data ← readDoubles data
  return { p with data }

/-- `load_patches` (`src/load_msh_patches.cpp:8-80`); does nothing without the extension. -/
def loadPatches (cfg : Cfg) (f : MeshFormat) (ps : List Patch) : Rd (List Patch) :=
  if cfg.nanospline then do
    let n ← useVar (← extractSize)
    let ps ← resize cfg ps n {}
    if f.fileType = 0 then forEach (loadPatchAscii cfg) ps else forEach (loadPatchBinary cfg) ps
  else pure ps

/-- Round-bounded `forward_to` (`src/load_msh.cpp:21-27`). -/
def forwardToFuel (flag : Bytes) : Nat → Bytes → Rd Unit
  | 0, _ => fun _ => .hang
  | fuel + 1, buf => fun s =>
    if s.eof || buf == flag then .ok ((), s)
    else (do
      let buf ← inString buf
      forwardToFuel flag fuel buf) s

/-- `forward_to` (`src/load_msh.cpp:21-27`). -/
def forwardTo (flag : Bytes) : Rd Unit := fun s => forwardToFuel flag (s.rem.length + 2) [] s

/-- The `if`/`else if` cascade of `load_msh` (`src/load_msh.cpp:39-63`); an unknown section only
produces a warning on `std::cerr` (not modelled). -/
def loadSection (cfg : Cfg) (buf : Bytes) (spec : MshSpec) : Rd MshSpec :=
  if buf = b! "$MeshFormat" then do
    return { spec with meshFormat := ← loadMeshFormat spec.meshFormat }
  else if buf = b! "$Entities" then do
    return { spec with entities := ← loadEntities cfg spec.meshFormat spec.entities }
  else if buf = b! "$PhysicalNames" then do
    return { spec with physicalGroups := ← loadPhysicalGroups cfg spec.physicalGroups }
  else if buf = b! "$Nodes" then do
    return { spec with nodes := ← loadNodes cfg spec.meshFormat spec.nodes }
  else if buf = b! "$Elements" then do
    let (elements, entities) ← loadElements cfg spec.meshFormat spec.elements spec.entities
    return { spec with elements, entities }
  else if buf = b! "$NodeData" then do
    return { spec with nodeData := ← loadDataSection cfg spec.meshFormat false spec.nodeData }
  else if buf = b! "$ElementData" then do
    return { spec with elementData := ← loadDataSection cfg spec.meshFormat false spec.elementData }
  else if buf = b! "$ElementNodeData" then do
    return { spec with
      elementNodeData := ← loadDataSection cfg spec.meshFormat true spec.elementNodeData }
  else if buf = b! "$NanoSplineFormat" then do
    return { spec with nanosplineVersion := ← loadNanosplineFormat spec.nanosplineVersion }
  else if buf = b! "$Curves" then do
    return { spec with curves := ← loadCurves cfg spec.meshFormat spec.curves }
  else if buf = b! "$Patches" then do
    return { spec with patches := ← loadPatches cfg spec.meshFormat spec.patches }
  else pure spec

/-- One round of the main loop (`src/load_msh.cpp:34-65`). -/
def loadRound (cfg : Cfg) (spec : MshSpec) : Rd MshSpec := do
  let buf ← inString []
  match buf with
  | 36 :: _ => do
    let spec ← loadSection cfg buf spec
    forwardTo (endMarker buf)
    return spec
  | _ => return spec

/-- Round-bounded main loop of `load_msh` (`src/load_msh.cpp:34-65`). -/
def loadLoop (cfg : Cfg) : Nat → MshSpec → Rd MshSpec
  | 0, _ => fun _ => .hang
  | fuel + 1, spec => fun s =>
    if s.eof then .ok (spec, s)
    else (do
      let spec ← loadRound cfg spec
      loadLoop cfg fuel spec) s

/-- `load_msh(std::istream&)` (`src/load_msh.cpp:29-69`) on a stream in an arbitrary state. -/
def loadStream (cfg : Cfg) (s : Stream) : Outcome MshSpec :=
  match loadLoop cfg (s.rem.length + 2) {} s with
  | .ok (spec, _) => loadPostProcess cfg spec
  | .throw e => .throw e
  | .abort => .abort
  | .ub => .ub
  | .hang => .hang

/-- `load_msh(const std::string&)` (`src/load_msh.cpp:71-78`) on a file that can be opened, and of which `bytes` can be read before the device fails. -/
def loadMsh (cfg : Cfg) (bytes : Bytes) : Outcome MshSpec := loadStream cfg ⟨bytes, false, false, true⟩

end MshIO.Broken
