import Verif.Model.ElementUtils

/-!
# Loading `$MeshFormat`, `$PhysicalNames`, `$NanoSplineFormat`, `$Entities`
-/

namespace MshIO

/-- `load_mesh_format` (`src/load_msh_format.cpp:14-44`).
`sizeof(size_t) != format.data_size` compares after conversion to `size_t`. -/
def loadMeshFormat (f : MeshFormat) : Rd MeshFormat := do
  let version ← inString f.version
  if version ≠ b! "2.2" ∧ version ≠ b! "4.1" then Rd.throw .unsupportedFeature
  else do
    let fileType ← inInt f.fileType
    let dataSize ← inInt f.dataSize
    if version = b! "4.1" ∧ sizeOfInt dataSize ≠ 8 then Rd.throw .unsupportedFeature
    else if fileType ≠ 0 then do
      eatWhiteSpace (2 ^ 64 - 1)
      let one ← readInt 0
      if one ≠ 1 then Rd.throw .unsupportedFeature
      else return { version, fileType, dataSize }
    else return { version, fileType, dataSize }

/-- Body of the loop of `load_physical_groups` (`src/load_msh_physical_groups.cpp:18-23`). -/
def loadPhysicalGroup (g : PhysicalGroup) : Rd PhysicalGroup := do
  let dim ← inInt g.dim
  let tag ← inInt g.tag
  let name ← inQuoted g.name
  return { dim, tag, name }

/-- `load_physical_groups` (`src/load_msh_physical_groups.cpp:12-25`).  `num_groups` is an
uninitialised `int` local; `resize(num_groups)` converts it to `size_t`. -/
def loadPhysicalGroups (cfg : Cfg) (gs : List PhysicalGroup) : Rd (List PhysicalGroup) := do
  let numGroups ← useVar (← extractInt)
  let gs ← resize cfg gs (sizeOfInt numGroups) {}
  let gs ← forEach loadPhysicalGroup gs
  assertGood cfg
  return gs

/-- `load_nanospline_format` (`src/load_msh_nanospline_format.h:10-13`); compiled in every build. -/
def loadNanosplineFormat (version : Bytes) : Rd Bytes := inString version

/-- `in >> n; v.resize(n); for (...) in >> v[j];` with an uninitialised local `n`
(`src/load_msh_entities.cpp:34-39`, `:51-62`, `:74-85`, `:97-108`). -/
def loadIntListAscii (cfg : Cfg) (v : List Int32) : Rd (List Int32) := do
  let n ← useVar (← extractSize)
  let v ← resize cfg v n 0
  forEach inInt v

/-- Body of the point loop, ASCII (`src/load_msh_entities.cpp:28-40`). -/
def loadPointAscii (cfg : Cfg) (p : PointEntity) : Rd PointEntity := do
  let tag ← inInt p.tag
  let x ← inDouble p.x
  let y ← inDouble p.y
  let z ← inDouble p.z
  let physicalGroupTags ← loadIntListAscii cfg p.physicalGroupTags
  return { tag, x, y, z, physicalGroupTags }

/-- Body of the curve, surface and volume loops, ASCII
(`src/load_msh_entities.cpp:42-63`, `:65-86`, `:88-109`). -/
def loadBoxAscii (cfg : Cfg) (p : BoxEntity) : Rd BoxEntity := do
  let tag ← inInt p.tag
  let minX ← inDouble p.minX
  let minY ← inDouble p.minY
  let minZ ← inDouble p.minZ
  let maxX ← inDouble p.maxX
  let maxY ← inDouble p.maxY
  let maxZ ← inDouble p.maxZ
  let physicalGroupTags ← loadIntListAscii cfg p.physicalGroupTags
  let boundaryTags ← loadIntListAscii cfg p.boundaryTags
  return { tag, minX, minY, minZ, maxX, maxY, maxZ, physicalGroupTags, boundaryTags }

/-- `v41::load_entities_ascii` (`src/load_msh_entities.cpp:13-112`). -/
def loadEntitiesAscii41 (cfg : Cfg) (e : Entities) : Rd Entities := do
  let np ← extractSize
  let nc ← extractSize
  let ns ← extractSize
  let nv ← extractSize
  assertGood cfg
  let points ← resize cfg e.points (← useVar np) {}
  let curves ← resize cfg e.curves (← useVar nc) {}
  let surfaces ← resize cfg e.surfaces (← useVar ns) {}
  let volumes ← resize cfg e.volumes (← useVar nv) {}
  let points ← forEach (loadPointAscii cfg) points
  let curves ← forEach (loadBoxAscii cfg) curves
  let surfaces ← forEach (loadBoxAscii cfg) surfaces
  let volumes ← forEach (loadBoxAscii cfg) volumes
  assertGood cfg
  return { points, curves, surfaces, volumes }

/-- `size_t n; in.read(&n, 8);`: the local is usable only if all eight bytes arrived.
Simplification: a partially filled `n` counts as uninitialised. -/
def readSizeVar : Rd (Option UInt64) := fun s =>
  if s.good then
    if 8 ≤ s.rem.length then .ok (some (decodeU64 (s.rem.take 8)), ⟨s.rem.drop 8, false, false⟩)
    else .ok (none, ⟨[], true, true⟩)
  else .ok (none, { s with fail := true })

/-- `size_t n; in.read(&n, 8); assert(in.good()); v.resize(n); in.read(v.data(), 4*n);
assert(in.good());` (`src/load_msh_entities.cpp:136-143`, `:155-171`, `:183-199`, `:211-227`). -/
def loadIntListBinary (cfg : Cfg) (v : List Int32) : Rd (List Int32) := do
  let n ← readSizeVar
  assertGood cfg
  let v ← resize cfg v (← useVar n) 0
  let v ← readInts v
  assertGood cfg
  return v

/-- Body of the point loop, binary (`src/load_msh_entities.cpp:130-144`). -/
def loadPointBinary (cfg : Cfg) (p : PointEntity) : Rd PointEntity := do
  let tag ← readInt p.tag
  let x ← readDouble p.x
  let y ← readDouble p.y
  let z ← readDouble p.z
  let physicalGroupTags ← loadIntListBinary cfg p.physicalGroupTags
  return { tag, x, y, z, physicalGroupTags }

/-- Body of the curve, surface and volume loops, binary
(`src/load_msh_entities.cpp:146-172`, `:174-200`, `:202-228`). -/
def loadBoxBinary (cfg : Cfg) (p : BoxEntity) : Rd BoxEntity := do
  let tag ← readInt p.tag
  let minX ← readDouble p.minX
  let minY ← readDouble p.minY
  let minZ ← readDouble p.minZ
  let maxX ← readDouble p.maxX
  let maxY ← readDouble p.maxY
  let maxZ ← readDouble p.maxZ
  let physicalGroupTags ← loadIntListBinary cfg p.physicalGroupTags
  let boundaryTags ← loadIntListBinary cfg p.boundaryTags
  return { tag, minX, minY, minZ, maxX, maxY, maxZ, physicalGroupTags, boundaryTags }

/-- `v41::load_entities_binary` (`src/load_msh_entities.cpp:114-229`). -/
def loadEntitiesBinary41 (cfg : Cfg) (e : Entities) : Rd Entities := do
  eatWhiteSpace 1
  let np ← readSizeVar
  let nc ← readSizeVar
  let ns ← readSizeVar
  let nv ← readSizeVar
  assertGood cfg
  let points ← resize cfg e.points (← useVar np) {}
  let curves ← resize cfg e.curves (← useVar nc) {}
  let surfaces ← resize cfg e.surfaces (← useVar ns) {}
  let volumes ← resize cfg e.volumes (← useVar nv) {}
  let points ← forEach (loadPointBinary cfg) points
  let curves ← forEach (loadBoxBinary cfg) curves
  let surfaces ← forEach (loadBoxBinary cfg) surfaces
  let volumes ← forEach (loadBoxBinary cfg) volumes
  return { points, curves, surfaces, volumes }

/-- `load_entities` (`src/load_msh_entities.cpp:233-245`); any other version does nothing. -/
def loadEntities (cfg : Cfg) (f : MeshFormat) (e : Entities) : Rd Entities :=
  if f.version = b! "4.1" then
    if f.fileType = 0 then loadEntitiesAscii41 cfg e else loadEntitiesBinary41 cfg e
  else if f.version = b! "2.2" then Rd.throw .invalidFormat
  else pure e

end MshIO
