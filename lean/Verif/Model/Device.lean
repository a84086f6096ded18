import Verif.Model.Save

/-!
# Output that can fail

`Model/Save.lean` collects the bytes `save_msh` puts on its stream and leaves the stream out.  Here the stream is modelled with its state: the device behind it (a disk, a pipe, a buffer of
fixed size) takes a number of bytes and refuses the rest, on which the stream sets `badbit`; a stream that is not good ignores all output.  `std::ios::exceptions` is the default, so that no
operation throws.  Simplified: the buffer of the stream is invisible, i.e. an error shows at the byte that does not fit and not at the next flush, and the room never grows.

The functions are those of `Model/Save.lean` again, line by line.
-/

namespace MshIO.Device

/-- An output stream and its device: the bytes on the device, for how many more there is room, and whether the stream has `badbit` or `failbit`. -/
structure Device where
  held : Bytes := []
  room : Nat
  bad : Bool := false
deriving DecidableEq, Repr

/-- A computation that writes to a stream. -/
def To (α : Type) : Type := Device → Outcome α × Device

namespace To

/-- Return without writing. -/
protected def pure {α : Type} (a : α) : To α := fun d => (.ok a, d)

/-- Sequencing. -/
protected def bind {α β : Type} (p : To α) (f : α → To β) : To β := fun d =>
  match p d with
  | (.ok a, d') => f a d'
  | (.throw e, d') => (.throw e, d')
  | (.abort, d') => (.abort, d')
  | (.ub, d') => (.ub, d')
  | (.hang, d') => (.hang, d')

instance : Monad To where
  pure := To.pure
  bind := To.bind

/-- Run a computation that does not write. -/
def lift {α : Type} (x : Outcome α) : To α := fun d => (x, d)

end To

/-- `out << x`, `out.write(p, n)`: nothing happens if the stream is not good; the bytes that fit are written; if not all fit the stream goes bad. -/
def put (b : Bytes) : To Unit := fun d =>
  if d.bad then (.ok (), d)
  else if b.length ≤ d.room then (.ok (), { d with held := d.held ++ b, room := d.room - b.length })
  else (.ok (), ⟨d.held ++ b.take d.room, 0, true⟩)

/-- `out.write(v.data(), sizeof(T) * n)`, see `writeN`.  Reading past the end of the vector counts as undefined behaviour also if the stream is not good and ignores the output. -/
def writeT {α : Type} (enc : α → Bytes) (v : List α) (n : UInt64) : To Unit :=
  if n.toNat % 2 ^ 61 ≤ v.length then put ((v.take (n.toNat % 2 ^ 61)).flatMap enc)
  else To.lift .ub

/-- `for (const auto& x : v) f(x);` -/
def forT {α : Type} (f : α → To Unit) : List α → To Unit
  | [] => pure ()
  | a :: as => do f a; forT f as

/-- `for (size_t i = i₀; i < i₀ + n; i++) f(i);` -/
def loopT (f : Nat → To Unit) : (n : Nat) → (i : Nat) → To Unit
  | 0, _ => pure ()
  | n + 1, i => do f i; loopT f n (i + 1)

/-- `if (c) { w }`. -/
def whenT (c : Bool) (w : To Unit) : To Unit := if c then w else pure ()

/-- `assert(c)` in the saver. -/
def assertT (cfg : Cfg) (c : Bool) : To Unit := if cfg.asserts && !c then To.lift .abort else pure ()

/-- Literal text on the stream. -/
local notation "sp" => ([32] : Bytes)

/-- `save_mesh_format` (`src/save_msh_format.cpp:9-19`). -/
def saveMeshFormat (f : MeshFormat) : To Unit := do
  put (b! "$MeshFormat" ++ endl)
  put (f.version ++ sp ++ decI32 f.fileType ++ sp ++ decI32 f.dataSize ++ endl)
  whenT (f.fileType == 1) (put (encI32 1))
  put (b! "$EndMeshFormat" ++ endl)

/-- `save_physical_groups` (`src/save_msh_physical_groups.cpp:11-23`). -/
def savePhysicalGroups (gs : List PhysicalGroup) : To Unit := do
  put (b! "$PhysicalNames" ++ endl)
  put (decU64 (sizeU gs) ++ endl)
  forT (fun g => put (decI32 g.dim ++ sp ++ decI32 g.tag ++ sp ++ quoteText g.name ++ endl)) gs
  put (b! "$EndPhysicalNames" ++ endl)

/-- One point, ASCII (`src/save_msh_entities.cpp:22-30`). -/
def savePointAscii (cfg : Cfg) (p : PointEntity) : To Unit := do
  let d := fmtDouble cfg.fmt
  put (decI32 p.tag ++ sp ++ d p.x ++ sp ++ d p.y ++ sp ++ d p.z ++ sp)
  put (intListAscii p.physicalGroupTags ++ endl)

/-- One curve, surface or volume, ASCII
(`src/save_msh_entities.cpp:32-45`, `:47-60`, `:62-75`). -/
def saveBoxAscii (cfg : Cfg) (p : BoxEntity) : To Unit := do
  let d := fmtDouble cfg.fmt
  put (decI32 p.tag ++ sp ++ d p.minX ++ sp ++ d p.minY ++ sp ++ d p.minZ ++ sp ++
    d p.maxX ++ sp ++ d p.maxY ++ sp ++ d p.maxZ ++ sp)
  put (intListAscii p.physicalGroupTags ++ sp)
  put (intListAscii p.boundaryTags ++ endl)

/-- `v41::save_entities_ascii` (`src/save_msh_entities.cpp:16-76`). -/
def saveEntitiesAscii41 (cfg : Cfg) (e : Entities) : To Unit := do
  put (decU64 (sizeU e.points) ++ sp ++ decU64 (sizeU e.curves) ++ sp ++
    decU64 (sizeU e.surfaces) ++ sp ++ decU64 (sizeU e.volumes) ++ endl)
  forT (savePointAscii cfg) e.points
  forT (saveBoxAscii cfg) e.curves
  forT (saveBoxAscii cfg) e.surfaces
  forT (saveBoxAscii cfg) e.volumes

/-- One point, binary (`src/save_msh_entities.cpp:90-100`). -/
def savePointBinary (p : PointEntity) : To Unit := do
  put (encI32 p.tag ++ encDouble p.x ++ encDouble p.y ++ encDouble p.z)
  put (intListBinary p.physicalGroupTags)

/-- One curve, surface or volume, binary
(`src/save_msh_entities.cpp:102-119`, `:121-138`, `:140-157`). -/
def saveBoxBinary (p : BoxEntity) : To Unit := do
  put (encI32 p.tag ++ encDouble p.minX ++ encDouble p.minY ++ encDouble p.minZ ++
    encDouble p.maxX ++ encDouble p.maxY ++ encDouble p.maxZ)
  put (intListBinary p.physicalGroupTags)
  put (intListBinary p.boundaryTags)

/-- `v41::save_entities_binary` (`src/save_msh_entities.cpp:78-158`). -/
def saveEntitiesBinary41 (e : Entities) : To Unit := do
  put (encU64 (sizeU e.points) ++ encU64 (sizeU e.curves) ++
    encU64 (sizeU e.surfaces) ++ encU64 (sizeU e.volumes))
  forT savePointBinary e.points
  forT saveBoxBinary e.curves
  forT saveBoxBinary e.surfaces
  forT saveBoxBinary e.volumes

/-- `save_entities` (`src/save_msh_entities.cpp:162-182`). -/
def saveEntities (cfg : Cfg) (f : MeshFormat) (e : Entities) : To Unit :=
  if f.version = b! "2.2" then pure ()
  else do
    put (b! "$Entities" ++ endl)
    if f.version = b! "4.1" then
      if f.fileType = 0 then saveEntitiesAscii41 cfg e else saveEntitiesBinary41 e
    else To.lift (.throw .unsupportedFeature)
    put (b! "$EndEntities" ++ endl)

/-! ## Nodes -/

/-- `for (size_t i = 0; i < n; i++) { const auto& block = v[i]; ... }` with the index going past
the end of the vector being undefined behaviour. -/
def loopBlocks {α : Type} (v : List α) (n : UInt64) (f : α → To Unit) : To Unit :=
  loopT (fun i => do let b ← To.lift (vecGet v (UInt64.ofNat i)); f b) n.toNat 0

/-- One block, v4.1 ASCII (`src/save_msh_nodes.cpp:19-38`). -/
def saveNodeBlockAscii41 (cfg : Cfg) (b : NodeBlock) : To Unit := do
  put (decI32 b.entityDim ++ sp ++ decI32 b.entityTag ++ sp ++ decI32 b.parametric ++ sp ++
    decU64 b.numNodesInBlock ++ endl)
  loopT (fun j => do
    let t ← To.lift (vecGet b.tags (UInt64.ofNat j))
    put (decU64 t ++ endl)) b.numNodesInBlock.toNat 0
  let e ← To.lift (entriesPerNode b.parametric b.entityDim)
  loopT (fun j => loopT (fun k => do
    let d ← To.lift (vecGet b.data (UInt64.ofNat j * e + UInt64.ofNat k))
    put (fmtDouble cfg.fmt d)
    put (if UInt64.ofNat k = e - 1 then endl else sp)) e.toNat 0) b.numNodesInBlock.toNat 0

/-- `v41::save_nodes_ascii` (`src/save_msh_nodes.cpp:13-39`). -/
def saveNodesAscii41 (cfg : Cfg) (n : Nodes) : To Unit := do
  put (decU64 n.numEntityBlocks ++ sp ++ decU64 n.numNodes ++ sp ++ decU64 n.minNodeTag ++ sp ++
    decU64 n.maxNodeTag ++ endl)
  loopBlocks n.entityBlocks n.numEntityBlocks (saveNodeBlockAscii41 cfg)

/-- One block, v4.1 binary (`src/save_msh_nodes.cpp:49-64`).  The byte count
`8 * num_nodes_in_block * entries_per_node` is `8` times the wrapped product. -/
def saveNodeBlockBinary41 (b : NodeBlock) : To Unit := do
  put (encI32 b.entityDim ++ encI32 b.entityTag ++ encI32 b.parametric ++
    encU64 b.numNodesInBlock)
  writeT encU64 b.tags b.numNodesInBlock
  let e ← To.lift (entriesPerNode b.parametric b.entityDim)
  writeT encDouble b.data (b.numNodesInBlock * e)

/-- `v41::save_nodes_binary` (`src/save_msh_nodes.cpp:41-65`). -/
def saveNodesBinary41 (n : Nodes) : To Unit := do
  put (encU64 n.numEntityBlocks ++ encU64 n.numNodes ++ encU64 n.minNodeTag ++
    encU64 n.maxNodeTag)
  loopBlocks n.entityBlocks n.numEntityBlocks saveNodeBlockBinary41

/-- One block, v2.2 ASCII (`src/save_msh_nodes.cpp:76-85`). -/
def saveNodeBlockAscii22 (cfg : Cfg) (b : NodeBlock) : To Unit := do
  let e ← To.lift (entriesPerNode b.parametric b.entityDim)
  loopT (fun j => do
    let j := UInt64.ofNat j
    let t ← To.lift (vecGet b.tags j)
    put (decU64 t ++ sp)
    let x ← To.lift (vecGet b.data (j * e))
    put (fmtDouble cfg.fmt x ++ sp)
    let y ← To.lift (vecGet b.data (j * e + 1))
    put (fmtDouble cfg.fmt y ++ sp)
    let z ← To.lift (vecGet b.data (j * e + 2))
    put (fmtDouble cfg.fmt z ++ endl)) b.numNodesInBlock.toNat 0

/-- `v22::save_nodes_ascii` (`src/save_msh_nodes.cpp:71-86`). -/
def saveNodesAscii22 (cfg : Cfg) (n : Nodes) : To Unit := do
  put (decU64 n.numNodes ++ endl)
  loopBlocks n.entityBlocks n.numEntityBlocks (saveNodeBlockAscii22 cfg)

/-- One block, v2.2 binary (`src/save_msh_nodes.cpp:93-103`). -/
def saveNodeBlockBinary22 (b : NodeBlock) : To Unit := do
  let e ← To.lift (entriesPerNode b.parametric b.entityDim)
  loopT (fun j => do
    let j := UInt64.ofNat j
    let t ← To.lift (vecGet b.tags j)
    put (encI32 (intOfSize t))
    if (j * e).toNat + 3 ≤ b.data.length then
      put (((b.data.drop (j * e).toNat).take 3).flatMap encDouble)
    else To.lift .ub) b.numNodesInBlock.toNat 0

/-- `v22::save_nodes_binary` (`src/save_msh_nodes.cpp:88-104`). -/
def saveNodesBinary22 (n : Nodes) : To Unit := do
  put (decU64 n.numNodes ++ endl)
  loopBlocks n.entityBlocks n.numEntityBlocks saveNodeBlockBinary22

/-- `save_nodes` (`src/save_msh_nodes.cpp:108-130`). -/
def saveNodes (cfg : Cfg) (f : MeshFormat) (n : Nodes) : To Unit := do
  put (b! "$Nodes" ++ endl)
  if f.version = b! "4.1" then
    if f.fileType = 0 then saveNodesAscii41 cfg n else saveNodesBinary41 n
  else if f.version = b! "2.2" then
    if f.fileType = 0 then saveNodesAscii22 cfg n else saveNodesBinary22 n
  else To.lift (.throw .unsupportedFeature)
  put (b! "$EndNodes" ++ endl)

/-! ## Elements -/

/-- One block, v4.1 ASCII (`src/save_msh_elements.cpp:25-42`). -/
def saveElementBlockAscii41 (b : ElementBlock) : To Unit := do
  put (decI32 b.entityDim ++ sp ++ decI32 b.entityTag ++ sp ++ decI32 b.elementType ++ sp ++
    decU64 b.numElementsInBlock ++ endl)
  let n ← To.lift (nodesPerElement b.elementType)
  loopT (fun j => loopT (fun k => do
    let t ← To.lift (vecGet b.data (UInt64.ofNat j * (n + 1) + UInt64.ofNat k))
    put (decU64 t)
    put (if UInt64.ofNat k = n then endl else sp)) (n.toNat + 1) 0) b.numElementsInBlock.toNat 0

/-- `v41::save_elements_ascii` (`src/save_msh_elements.cpp:19-43`). -/
def saveElementsAscii41 (e : Elements) : To Unit := do
  put (decU64 e.numEntityBlocks ++ sp ++ decU64 e.numElements ++ sp ++ decU64 e.minElementTag ++
    sp ++ decU64 e.maxElementTag ++ endl)
  loopBlocks e.entityBlocks e.numEntityBlocks saveElementBlockAscii41

/-- One block, v4.1 binary (`src/save_msh_elements.cpp:53-63`). -/
def saveElementBlockBinary41 (b : ElementBlock) : To Unit := do
  put (encI32 b.entityDim ++ encI32 b.entityTag ++ encI32 b.elementType ++
    encU64 b.numElementsInBlock)
  put (b.data.flatMap encU64)

/-- `v41::save_elements_binary` (`src/save_msh_elements.cpp:45-64`). -/
def saveElementsBinary41 (e : Elements) : To Unit := do
  put (encU64 e.numEntityBlocks ++ encU64 e.numElements ++ encU64 e.minElementTag ++
    encU64 e.maxElementTag)
  loopBlocks e.entityBlocks e.numEntityBlocks saveElementBlockBinary41

/-- One block, v2.2 ASCII (`src/save_msh_elements.cpp:75-93`). -/
def saveElementBlockAscii22 (b : ElementBlock) : To Unit := do
  let n ← To.lift (nodesPerElement b.elementType)
  loopT (fun j => do
    let j := UInt64.ofNat j
    let num ← To.lift (vecGet b.data (j * (n + 1)))
    put (decU64 num ++ sp ++ decI32 b.elementType ++ sp ++ decI32 1 ++ sp ++
      decI32 b.entityTag ++ sp)
    loopT (fun k => do
      let t ← To.lift (vecGet b.data (j * (n + 1) + UInt64.ofNat k + 1))
      put (decU64 t)
      put (if UInt64.ofNat k = n - 1 then endl else sp)) n.toNat 0) b.numElementsInBlock.toNat 0

/-- `v22::save_elements_ascii` (`src/save_msh_elements.cpp:70-94`). -/
def saveElementsAscii22 (e : Elements) : To Unit := do
  put (decU64 e.numElements ++ endl)
  loopBlocks e.entityBlocks e.numEntityBlocks saveElementBlockAscii22

/-- One block, v2.2 binary (`src/save_msh_elements.cpp:100-121`). -/
def saveElementBlockBinary22 (b : ElementBlock) : To Unit := do
  put (encI32 b.elementType ++ encI32 (intOfSize b.numElementsInBlock) ++ encI32 1)
  let n ← To.lift (nodesPerElement b.elementType)
  loopT (fun j => do
    let j := UInt64.ofNat j
    let num ← To.lift (vecGet b.data (j * (n + 1)))
    put (encI32 (intOfSize num) ++ encI32 b.entityTag)
    loopT (fun k => do
      let t ← To.lift (vecGet b.data (j * (n + 1) + UInt64.ofNat k + 1))
      put (encI32 (intOfSize t))) n.toNat 0) b.numElementsInBlock.toNat 0

/-- `v22::save_elements_binary` (`src/save_msh_elements.cpp:96-122`). -/
def saveElementsBinary22 (e : Elements) : To Unit := do
  put (decU64 e.numElements ++ endl)
  loopBlocks e.entityBlocks e.numEntityBlocks saveElementBlockBinary22

/-- `save_elements` (`src/save_msh_elements.cpp:126-147`). -/
def saveElements (f : MeshFormat) (e : Elements) : To Unit := do
  put (b! "$Elements" ++ endl)
  if f.version = b! "4.1" then
    if f.fileType = 0 then saveElementsAscii41 e else saveElementsBinary41 e
  else if f.version = b! "2.2" then
    if f.fileType = 0 then saveElementsAscii22 e else saveElementsBinary22 e
  else To.lift (.throw .unsupportedFeature)
  put (b! "$EndElements" ++ endl)

/-! ## Data -/

/-- Header of `internal::save_data` (`src/save_msh_data.cpp:21-34`). -/
def saveDataHeader (cfg : Cfg) (h : DataHeader) : To Unit := do
  put (decU64 (sizeU h.stringTags) ++ endl)
  forT (fun t => put (quoteText t ++ endl)) h.stringTags
  put (decU64 (sizeU h.realTags) ++ endl)
  forT (fun t => put (fmtDouble cfg.fmt t ++ endl)) h.realTags
  put (decU64 (sizeU h.intTags) ++ endl)
  forT (fun t => put (decI32 t ++ endl)) h.intTags

/-- One binary entry; the v4.1 and v2.2 branches write the same bytes
(`src/save_msh_data.cpp:39-53`, `:56-65`). -/
def saveDataEntryBinary (isElementNode : Bool) (e : DataEntry) : To Unit := do
  put (encI32 (intOfSize e.tag))
  whenT isElementNode (put (encI32 e.numNodesPerElement))
  put (e.data.flatMap encDouble)

/-- One ASCII entry (`src/save_msh_data.cpp:70-83`). -/
def saveDataEntryAscii (cfg : Cfg) (isElementNode : Bool) (e : DataEntry) : To Unit := do
  put (decU64 e.tag ++ sp)
  whenT isElementNode (put (decI32 e.numNodesPerElement ++ sp))
  put (spacedLine cfg.fmt e.data)

/-- `internal::save_data` (`src/save_msh_data.cpp:15-85`). -/
def saveData (cfg : Cfg) (f : MeshFormat) (isElementNode : Bool) (d : Data) : To Unit := do
  saveDataHeader cfg d.header
  if 0 < f.fileType then
    if f.version = b! "4.1" then forT (saveDataEntryBinary isElementNode) d.entries
    else if f.version = b! "2.2" then forT (saveDataEntryBinary isElementNode) d.entries
    else To.lift (.throw .invalidFormat)
  else forT (saveDataEntryAscii cfg isElementNode) d.entries

/-- `save_node_data`, `save_element_data`, `save_element_node_data`
(`src/save_msh_data.cpp:89-123`); `name` is the section name without `$`. -/
def saveDataSections (cfg : Cfg) (f : MeshFormat) (name : Bytes) (isElementNode : Bool)
    (ds : List Data) : To Unit :=
  forT (fun d => do
    put (b! "$" ++ name ++ endl)
    saveData cfg f isElementNode d
    put (b! "$End" ++ name ++ endl)) ds

/-! ## Nanospline extension -/

/-- `save_nanospline_format` (`src/save_msh_nanospline_format.h:10-15`). -/
def saveNanosplineFormat (version : Bytes) : To Unit := do
  put (b! "$NanoSplineFormat" ++ endl)
  put (version ++ endl)
  put (b! "$EndNanoSplineFormat" ++ endl)

/-- The control points and knots of a curve or patch, one control point per line, one knot per line
(`src/save_msh_curves.cpp:30-43`, `src/save_msh_patches.cpp:32-48`). -/
def saveControl (cfg : Cfg) (data : List Double) (numControlPoints dim : UInt64)
    (knots : List UInt64) : To Unit := do
  loopT (fun i => loopT (fun j => do
    let d ← To.lift (vecGet data (UInt64.ofNat i * dim + UInt64.ofNat j))
    put (fmtDouble cfg.fmt d)
    put (if UInt64.ofNat j + 1 = dim then endl else sp)) dim.toNat 0) numControlPoints.toNat 0
  saveKnots cfg data (numControlPoints * dim) knots
where
  /-- The knot loops; each one starts where the previous stopped. -/
  saveKnots (cfg : Cfg) (data : List Double) (start : UInt64) : List UInt64 → To Unit
    | [] => pure ()
    | k :: ks => do
      loopT (fun i => do
        let d ← To.lift (vecGet data (start + UInt64.ofNat i))
        put (fmtDouble cfg.fmt d ++ endl)) k.toNat 0
      saveKnots cfg data (start + k) ks

/-- One curve, ASCII (`src/save_msh_curves.cpp:18-44`). -/
def saveCurveAscii (cfg : Cfg) (c : Curve) : To Unit := do
  put (curveHeaderText c)
  assertT cfg (c.numEntries == sizeU c.data)
  saveControl cfg c.data c.numControlPoints (if 0 < c.withWeights then 4 else 3) [c.numKnots]

/-- One curve, binary (`src/save_msh_curves.cpp:54-67`). -/
def saveCurveBinary (cfg : Cfg) (c : Curve) : To Unit := do
  put (curveHeaderText c)
  assertT cfg (c.numEntries == sizeU c.data)
  writeT encDouble c.data c.numEntries

/-- `save_curves` (`src/save_msh_curves.cpp:12-84`), in a build with the extension. -/
def saveCurves (cfg : Cfg) (f : MeshFormat) (cs : List Curve) : To Unit := do
  put (b! "$Curves" ++ endl)
  put (decU64 (sizeU cs) ++ endl)
  if f.fileType = 0 then forT (saveCurveAscii cfg) cs else forT (saveCurveBinary cfg) cs
  put (b! "$EndCurves" ++ endl)

/-- One patch, ASCII (`src/save_msh_patches.cpp:17-49`). -/
def savePatchAscii (cfg : Cfg) (p : Patch) : To Unit := do
  put (patchHeaderText p)
  assertT cfg (sizeU p.data == p.numEntries)
  saveControl cfg p.data p.numControlPoints (if 0 < p.withWeights then 4 else 3)
    [p.numUKnots, p.numVKnots]

/-- One patch, binary (`src/save_msh_patches.cpp:58-74`). -/
def savePatchBinary (cfg : Cfg) (p : Patch) : To Unit := do
  put (patchHeaderText p)
  assertT cfg (sizeU p.data == p.numEntries)
  writeT encDouble p.data p.numEntries

/-- `save_patches` (`src/save_msh_patches.cpp:12-92`), in a build with the extension. -/
def savePatches (cfg : Cfg) (f : MeshFormat) (ps : List Patch) : To Unit := do
  put (b! "$Patches" ++ endl)
  put (decU64 (sizeU ps) ++ endl)
  if f.fileType = 0 then forT (savePatchAscii cfg) ps else forT (savePatchBinary cfg) ps
  put (b! "$EndPatches" ++ endl)

/-- `save_msh(std::ostream&, const MshSpec&)` (`src/save_msh.cpp:18-51`). -/
def saveMsh (cfg : Cfg) (s : MshSpec) : To Unit := do
  saveMeshFormat s.meshFormat
  whenT (s.physicalGroups.length > 0) (savePhysicalGroups s.physicalGroups)
  whenT (!s.entities.empty) (saveEntities cfg s.meshFormat s.entities)
  whenT (s.nodes.numNodes > 0) (saveNodes cfg s.meshFormat s.nodes)
  whenT (s.elements.numElements > 0) (saveElements s.meshFormat s.elements)
  whenT (s.nodeData.length > 0)
    (saveDataSections cfg s.meshFormat (b! "NodeData") false s.nodeData)
  whenT (s.elementData.length > 0)
    (saveDataSections cfg s.meshFormat (b! "ElementData") false s.elementData)
  whenT (s.elementNodeData.length > 0)
    (saveDataSections cfg s.meshFormat (b! "ElementNodeData") true s.elementNodeData)
  whenT cfg.nanospline do
    saveNanosplineFormat s.nanosplineVersion
    whenT (s.curves.length > 0) (saveCurves cfg s.meshFormat s.curves)
    whenT (s.patches.length > 0) (savePatches cfg s.meshFormat s.patches)

/-- `save_msh(const std::string&, const MshSpec&)` (`src/save_msh.cpp:53-60`): how the call ends and what is in the file afterwards, where the device has room for `room` bytes;
`canOpen = false` when the file cannot be opened for writing.  The destructor of `std::ofstream` ignores errors. -/
def saveFile (cfg : Cfg) (canOpen : Bool) (room : Nat) (s : MshSpec) : Outcome Unit × Bytes :=
  if canOpen then
    let r := saveMsh cfg s ⟨[], room, false⟩
    (r.1, r.2.held)
  else (.throw .runtimeError, [])

end MshIO.Device
