import Verif.Model.OStream
import Verif.Model.ElementUtils

/-!
# `save_msh` and the section writers
-/

namespace MshIO

/-- Literal text on the stream. -/
local notation "sp" => ([32] : Bytes)

/-- `save_mesh_format` (`src/save_msh_format.cpp:9-19`). -/
def saveMeshFormat (f : MeshFormat) : Wr Unit := do
  emit (b! "$MeshFormat" ++ endl)
  emit (f.version ++ sp ++ decI32 f.fileType ++ sp ++ decI32 f.dataSize ++ endl)
  whenW (f.fileType == 1) (emit (encI32 1))
  emit (b! "$EndMeshFormat" ++ endl)

/-- `save_physical_groups` (`src/save_msh_physical_groups.cpp:11-23`). -/
def savePhysicalGroups (gs : List PhysicalGroup) : Wr Unit := do
  emit (b! "$PhysicalNames" ++ endl)
  emit (decU64 (sizeU gs) ++ endl)
  forW (fun g => emit (decI32 g.dim ++ sp ++ decI32 g.tag ++ sp ++ quoteText g.name ++ endl)) gs
  emit (b! "$EndPhysicalNames" ++ endl)

/-- `out << v.size(); for (...) out << " " << v[j];` -/
def intListAscii (v : List Int32) : Bytes := decU64 (sizeU v) ++ v.flatMap (fun t => sp ++ decI32 t)

/-- One point, ASCII (`src/save_msh_entities.cpp:22-30`). -/
def savePointAscii (cfg : Cfg) (p : PointEntity) : Wr Unit := do
  let d := fmtDouble cfg.fmt
  emit (decI32 p.tag ++ sp ++ d p.x ++ sp ++ d p.y ++ sp ++ d p.z ++ sp)
  emit (intListAscii p.physicalGroupTags ++ endl)

/-- One curve, surface or volume, ASCII
(`src/save_msh_entities.cpp:32-45`, `:47-60`, `:62-75`). -/
def saveBoxAscii (cfg : Cfg) (p : BoxEntity) : Wr Unit := do
  let d := fmtDouble cfg.fmt
  emit (decI32 p.tag ++ sp ++ d p.minX ++ sp ++ d p.minY ++ sp ++ d p.minZ ++ sp ++
    d p.maxX ++ sp ++ d p.maxY ++ sp ++ d p.maxZ ++ sp)
  emit (intListAscii p.physicalGroupTags ++ sp)
  emit (intListAscii p.boundaryTags ++ endl)

/-- `v41::save_entities_ascii` (`src/save_msh_entities.cpp:16-76`). -/
def saveEntitiesAscii41 (cfg : Cfg) (e : Entities) : Wr Unit := do
  emit (decU64 (sizeU e.points) ++ sp ++ decU64 (sizeU e.curves) ++ sp ++
    decU64 (sizeU e.surfaces) ++ sp ++ decU64 (sizeU e.volumes) ++ endl)
  forW (savePointAscii cfg) e.points
  forW (saveBoxAscii cfg) e.curves
  forW (saveBoxAscii cfg) e.surfaces
  forW (saveBoxAscii cfg) e.volumes

/-- `size_t n = v.size(); out.write(&n, 8); out.write(v.data(), 4*n);` -/
def intListBinary (v : List Int32) : Bytes := encU64 (sizeU v) ++ v.flatMap encI32

/-- One point, binary (`src/save_msh_entities.cpp:90-100`). -/
def savePointBinary (p : PointEntity) : Wr Unit := do
  emit (encI32 p.tag ++ encDouble p.x ++ encDouble p.y ++ encDouble p.z)
  emit (intListBinary p.physicalGroupTags)

/-- One curve, surface or volume, binary
(`src/save_msh_entities.cpp:102-119`, `:121-138`, `:140-157`). -/
def saveBoxBinary (p : BoxEntity) : Wr Unit := do
  emit (encI32 p.tag ++ encDouble p.minX ++ encDouble p.minY ++ encDouble p.minZ ++
    encDouble p.maxX ++ encDouble p.maxY ++ encDouble p.maxZ)
  emit (intListBinary p.physicalGroupTags)
  emit (intListBinary p.boundaryTags)

/-- `v41::save_entities_binary` (`src/save_msh_entities.cpp:78-158`). -/
def saveEntitiesBinary41 (e : Entities) : Wr Unit := do
  emit (encU64 (sizeU e.points) ++ encU64 (sizeU e.curves) ++
    encU64 (sizeU e.surfaces) ++ encU64 (sizeU e.volumes))
  forW savePointBinary e.points
  forW saveBoxBinary e.curves
  forW saveBoxBinary e.surfaces
  forW saveBoxBinary e.volumes

/-- `save_entities` (`src/save_msh_entities.cpp:162-182`). -/
def saveEntities (cfg : Cfg) (f : MeshFormat) (e : Entities) : Wr Unit :=
  if f.version = b! "2.2" then pure ()
  else do
    emit (b! "$Entities" ++ endl)
    if f.version = b! "4.1" then
      if f.fileType = 0 then saveEntitiesAscii41 cfg e else saveEntitiesBinary41 e
    else Wr.lift (.throw .unsupportedFeature)
    emit (b! "$EndEntities" ++ endl)

/-! ## Nodes -/

/-- `for (size_t i = 0; i < n; i++) { const auto& block = v[i]; ... }` with the index going past
the end of the vector being undefined behaviour. -/
def loopBlocks {α : Type} (v : List α) (n : UInt64) (f : α → Wr Unit) : Wr Unit :=
  loopW (fun i => do let b ← Wr.lift (vecGet v (UInt64.ofNat i)); f b) n.toNat 0

/-- One block, v4.1 ASCII (`src/save_msh_nodes.cpp:19-38`). -/
def saveNodeBlockAscii41 (cfg : Cfg) (b : NodeBlock) : Wr Unit := do
  emit (decI32 b.entityDim ++ sp ++ decI32 b.entityTag ++ sp ++ decI32 b.parametric ++ sp ++
    decU64 b.numNodesInBlock ++ endl)
  loopW (fun j => do
    let t ← Wr.lift (vecGet b.tags (UInt64.ofNat j))
    emit (decU64 t ++ endl)) b.numNodesInBlock.toNat 0
  let e ← Wr.lift (entriesPerNode b.parametric b.entityDim)
  loopW (fun j => loopW (fun k => do
    let d ← Wr.lift (vecGet b.data (UInt64.ofNat j * e + UInt64.ofNat k))
    emit (fmtDouble cfg.fmt d)
    emit (if UInt64.ofNat k = e - 1 then endl else sp)) e.toNat 0) b.numNodesInBlock.toNat 0

/-- `v41::save_nodes_ascii` (`src/save_msh_nodes.cpp:13-39`). -/
def saveNodesAscii41 (cfg : Cfg) (n : Nodes) : Wr Unit := do
  emit (decU64 n.numEntityBlocks ++ sp ++ decU64 n.numNodes ++ sp ++ decU64 n.minNodeTag ++ sp ++
    decU64 n.maxNodeTag ++ endl)
  loopBlocks n.entityBlocks n.numEntityBlocks (saveNodeBlockAscii41 cfg)

/-- One block, v4.1 binary (`src/save_msh_nodes.cpp:49-64`).  The byte count
`8 * num_nodes_in_block * entries_per_node` is `8` times the wrapped product. -/
def saveNodeBlockBinary41 (b : NodeBlock) : Wr Unit := do
  emit (encI32 b.entityDim ++ encI32 b.entityTag ++ encI32 b.parametric ++
    encU64 b.numNodesInBlock)
  writeN encU64 b.tags b.numNodesInBlock
  let e ← Wr.lift (entriesPerNode b.parametric b.entityDim)
  writeN encDouble b.data (b.numNodesInBlock * e)

/-- `v41::save_nodes_binary` (`src/save_msh_nodes.cpp:41-65`). -/
def saveNodesBinary41 (n : Nodes) : Wr Unit := do
  emit (encU64 n.numEntityBlocks ++ encU64 n.numNodes ++ encU64 n.minNodeTag ++
    encU64 n.maxNodeTag)
  loopBlocks n.entityBlocks n.numEntityBlocks saveNodeBlockBinary41

/-- One block, v2.2 ASCII (`src/save_msh_nodes.cpp:76-85`). -/
def saveNodeBlockAscii22 (cfg : Cfg) (b : NodeBlock) : Wr Unit := do
  let e ← Wr.lift (entriesPerNode b.parametric b.entityDim)
  loopW (fun j => do
    let j := UInt64.ofNat j
    let t ← Wr.lift (vecGet b.tags j)
    emit (decU64 t ++ sp)
    let x ← Wr.lift (vecGet b.data (j * e))
    emit (fmtDouble cfg.fmt x ++ sp)
    let y ← Wr.lift (vecGet b.data (j * e + 1))
    emit (fmtDouble cfg.fmt y ++ sp)
    let z ← Wr.lift (vecGet b.data (j * e + 2))
    emit (fmtDouble cfg.fmt z ++ endl)) b.numNodesInBlock.toNat 0

/-- `v22::save_nodes_ascii` (`src/save_msh_nodes.cpp:71-86`). -/
def saveNodesAscii22 (cfg : Cfg) (n : Nodes) : Wr Unit := do
  emit (decU64 n.numNodes ++ endl)
  loopBlocks n.entityBlocks n.numEntityBlocks (saveNodeBlockAscii22 cfg)

/-- One block, v2.2 binary (`src/save_msh_nodes.cpp:93-103`). -/
def saveNodeBlockBinary22 (b : NodeBlock) : Wr Unit := do
  let e ← Wr.lift (entriesPerNode b.parametric b.entityDim)
  loopW (fun j => do
    let j := UInt64.ofNat j
    let t ← Wr.lift (vecGet b.tags j)
    emit (encI32 (intOfSize t))
    if (j * e).toNat + 3 ≤ b.data.length then
      emit (((b.data.drop (j * e).toNat).take 3).flatMap encDouble)
    else Wr.lift .ub) b.numNodesInBlock.toNat 0

/-- `v22::save_nodes_binary` (`src/save_msh_nodes.cpp:88-104`). -/
def saveNodesBinary22 (n : Nodes) : Wr Unit := do
  emit (decU64 n.numNodes ++ endl)
  loopBlocks n.entityBlocks n.numEntityBlocks saveNodeBlockBinary22

/-- `save_nodes` (`src/save_msh_nodes.cpp:108-130`). -/
def saveNodes (cfg : Cfg) (f : MeshFormat) (n : Nodes) : Wr Unit := do
  emit (b! "$Nodes" ++ endl)
  if f.version = b! "4.1" then
    if f.fileType = 0 then saveNodesAscii41 cfg n else saveNodesBinary41 n
  else if f.version = b! "2.2" then
    if f.fileType = 0 then saveNodesAscii22 cfg n else saveNodesBinary22 n
  else Wr.lift (.throw .unsupportedFeature)
  emit (b! "$EndNodes" ++ endl)

/-! ## Elements -/

/-- One block, v4.1 ASCII (`src/save_msh_elements.cpp:25-42`). -/
def saveElementBlockAscii41 (b : ElementBlock) : Wr Unit := do
  emit (decI32 b.entityDim ++ sp ++ decI32 b.entityTag ++ sp ++ decI32 b.elementType ++ sp ++
    decU64 b.numElementsInBlock ++ endl)
  let n ← Wr.lift (nodesPerElement b.elementType)
  loopW (fun j => loopW (fun k => do
    let t ← Wr.lift (vecGet b.data (UInt64.ofNat j * (n + 1) + UInt64.ofNat k))
    emit (decU64 t)
    emit (if UInt64.ofNat k = n then endl else sp)) (n.toNat + 1) 0) b.numElementsInBlock.toNat 0

/-- `v41::save_elements_ascii` (`src/save_msh_elements.cpp:19-43`). -/
def saveElementsAscii41 (e : Elements) : Wr Unit := do
  emit (decU64 e.numEntityBlocks ++ sp ++ decU64 e.numElements ++ sp ++ decU64 e.minElementTag ++
    sp ++ decU64 e.maxElementTag ++ endl)
  loopBlocks e.entityBlocks e.numEntityBlocks saveElementBlockAscii41

/-- One block, v4.1 binary (`src/save_msh_elements.cpp:53-63`). -/
def saveElementBlockBinary41 (b : ElementBlock) : Wr Unit := do
  emit (encI32 b.entityDim ++ encI32 b.entityTag ++ encI32 b.elementType ++
    encU64 b.numElementsInBlock)
  emit (b.data.flatMap encU64)

/-- `v41::save_elements_binary` (`src/save_msh_elements.cpp:45-64`). -/
def saveElementsBinary41 (e : Elements) : Wr Unit := do
  emit (encU64 e.numEntityBlocks ++ encU64 e.numElements ++ encU64 e.minElementTag ++
    encU64 e.maxElementTag)
  loopBlocks e.entityBlocks e.numEntityBlocks saveElementBlockBinary41

/-- One block, v2.2 ASCII (`src/save_msh_elements.cpp:75-93`). -/
def saveElementBlockAscii22 (b : ElementBlock) : Wr Unit := do
  let n ← Wr.lift (nodesPerElement b.elementType)
  loopW (fun j => do
    let j := UInt64.ofNat j
    let num ← Wr.lift (vecGet b.data (j * (n + 1)))
    emit (decU64 num ++ sp ++ decI32 b.elementType ++ sp ++ decI32 1 ++ sp ++
      decI32 b.entityTag ++ sp)
    loopW (fun k => do
      let t ← Wr.lift (vecGet b.data (j * (n + 1) + UInt64.ofNat k + 1))
      emit (decU64 t)
      emit (if UInt64.ofNat k = n - 1 then endl else sp)) n.toNat 0) b.numElementsInBlock.toNat 0

/-- `v22::save_elements_ascii` (`src/save_msh_elements.cpp:70-94`). -/
def saveElementsAscii22 (e : Elements) : Wr Unit := do
  emit (decU64 e.numElements ++ endl)
  loopBlocks e.entityBlocks e.numEntityBlocks saveElementBlockAscii22

/-- One block, v2.2 binary (`src/save_msh_elements.cpp:100-121`). -/
def saveElementBlockBinary22 (b : ElementBlock) : Wr Unit := do
  emit (encI32 b.elementType ++ encI32 (intOfSize b.numElementsInBlock) ++ encI32 1)
  let n ← Wr.lift (nodesPerElement b.elementType)
  loopW (fun j => do
    let j := UInt64.ofNat j
    let num ← Wr.lift (vecGet b.data (j * (n + 1)))
    emit (encI32 (intOfSize num) ++ encI32 b.entityTag)
    loopW (fun k => do
      let t ← Wr.lift (vecGet b.data (j * (n + 1) + UInt64.ofNat k + 1))
      emit (encI32 (intOfSize t))) n.toNat 0) b.numElementsInBlock.toNat 0

/-- `v22::save_elements_binary` (`src/save_msh_elements.cpp:96-122`). -/
def saveElementsBinary22 (e : Elements) : Wr Unit := do
  emit (decU64 e.numElements ++ endl)
  loopBlocks e.entityBlocks e.numEntityBlocks saveElementBlockBinary22

/-- `save_elements` (`src/save_msh_elements.cpp:126-147`). -/
def saveElements (f : MeshFormat) (e : Elements) : Wr Unit := do
  emit (b! "$Elements" ++ endl)
  if f.version = b! "4.1" then
    if f.fileType = 0 then saveElementsAscii41 e else saveElementsBinary41 e
  else if f.version = b! "2.2" then
    if f.fileType = 0 then saveElementsAscii22 e else saveElementsBinary22 e
  else Wr.lift (.throw .unsupportedFeature)
  emit (b! "$EndElements" ++ endl)

/-! ## Data -/

/-- `a₀ ' ' a₁ ' ' ... aₙ '\n'`; nothing at all for an empty list
(`src/save_msh_data.cpp:75-82`). -/
def spacedLine (p : Fmt) : List Double → Bytes
  | [] => []
  | [d] => fmtDouble p d ++ endl
  | d :: ds => fmtDouble p d ++ sp ++ spacedLine p ds

/-- Header of `internal::save_data` (`src/save_msh_data.cpp:21-34`). -/
def saveDataHeader (cfg : Cfg) (h : DataHeader) : Wr Unit := do
  emit (decU64 (sizeU h.stringTags) ++ endl)
  forW (fun t => emit (quoteText t ++ endl)) h.stringTags
  emit (decU64 (sizeU h.realTags) ++ endl)
  forW (fun t => emit (fmtDouble cfg.fmt t ++ endl)) h.realTags
  emit (decU64 (sizeU h.intTags) ++ endl)
  forW (fun t => emit (decI32 t ++ endl)) h.intTags

/-- One binary entry; the v4.1 and v2.2 branches write the same bytes
(`src/save_msh_data.cpp:39-53`, `:56-65`). -/
def saveDataEntryBinary (isElementNode : Bool) (e : DataEntry) : Wr Unit := do
  emit (encI32 (intOfSize e.tag))
  whenW isElementNode (emit (encI32 e.numNodesPerElement))
  emit (e.data.flatMap encDouble)

/-- One ASCII entry (`src/save_msh_data.cpp:70-83`). -/
def saveDataEntryAscii (cfg : Cfg) (isElementNode : Bool) (e : DataEntry) : Wr Unit := do
  emit (decU64 e.tag ++ sp)
  whenW isElementNode (emit (decI32 e.numNodesPerElement ++ sp))
  emit (spacedLine cfg.fmt e.data)

/-- `internal::save_data` (`src/save_msh_data.cpp:15-85`). -/
def saveData (cfg : Cfg) (f : MeshFormat) (isElementNode : Bool) (d : Data) : Wr Unit := do
  saveDataHeader cfg d.header
  if 0 < f.fileType then
    if f.version = b! "4.1" then forW (saveDataEntryBinary isElementNode) d.entries
    else if f.version = b! "2.2" then forW (saveDataEntryBinary isElementNode) d.entries
    else Wr.lift (.throw .invalidFormat)
  else forW (saveDataEntryAscii cfg isElementNode) d.entries

/-- `save_node_data`, `save_element_data`, `save_element_node_data`
(`src/save_msh_data.cpp:89-123`); `name` is the section name without `$`. -/
def saveDataSections (cfg : Cfg) (f : MeshFormat) (name : Bytes) (isElementNode : Bool)
    (ds : List Data) : Wr Unit :=
  forW (fun d => do
    emit (b! "$" ++ name ++ endl)
    saveData cfg f isElementNode d
    emit (b! "$End" ++ name ++ endl)) ds

/-! ## Nanospline extension -/

/-- `save_nanospline_format` (`src/save_msh_nanospline_format.h:10-15`). -/
def saveNanosplineFormat (version : Bytes) : Wr Unit := do
  emit (b! "$NanoSplineFormat" ++ endl)
  emit (version ++ endl)
  emit (b! "$EndNanoSplineFormat" ++ endl)

/-- The control points and knots of a curve or patch, one control point per line, one knot per line
(`src/save_msh_curves.cpp:30-43`, `src/save_msh_patches.cpp:32-48`). -/
def saveControl (cfg : Cfg) (data : List Double) (numControlPoints dim : UInt64)
    (knots : List UInt64) : Wr Unit := do
  loopW (fun i => loopW (fun j => do
    let d ← Wr.lift (vecGet data (UInt64.ofNat i * dim + UInt64.ofNat j))
    emit (fmtDouble cfg.fmt d)
    emit (if UInt64.ofNat j + 1 = dim then endl else sp)) dim.toNat 0) numControlPoints.toNat 0
  saveKnots cfg data (numControlPoints * dim) knots
where
  /-- The knot loops; each one starts where the previous stopped. -/
  saveKnots (cfg : Cfg) (data : List Double) (start : UInt64) : List UInt64 → Wr Unit
    | [] => pure ()
    | k :: ks => do
      loopW (fun i => do
        let d ← Wr.lift (vecGet data (start + UInt64.ofNat i))
        emit (fmtDouble cfg.fmt d ++ endl)) k.toNat 0
      saveKnots cfg data (start + k) ks

/-- The counters line of a curve (`src/save_msh_curves.cpp:19-24`). -/
def curveHeaderText (c : Curve) : Bytes :=
  decU64 c.curveTag ++ sp ++ decU64 c.curveType ++ sp ++ decU64 c.curveDegree ++ sp ++
  decU64 c.numControlPoints ++ sp ++ decU64 c.numKnots ++ sp ++ decU64 c.withWeights ++ endl

/-- One curve, ASCII (`src/save_msh_curves.cpp:18-44`). -/
def saveCurveAscii (cfg : Cfg) (c : Curve) : Wr Unit := do
  emit (curveHeaderText c)
  assertW cfg (c.numEntries == sizeU c.data)
  saveControl cfg c.data c.numControlPoints (if 0 < c.withWeights then 4 else 3) [c.numKnots]

/-- One curve, binary (`src/save_msh_curves.cpp:54-67`). -/
def saveCurveBinary (cfg : Cfg) (c : Curve) : Wr Unit := do
  emit (curveHeaderText c)
  assertW cfg (c.numEntries == sizeU c.data)
  writeN encDouble c.data c.numEntries

/-- `save_curves` (`src/save_msh_curves.cpp:12-84`), in a build with the extension. -/
def saveCurves (cfg : Cfg) (f : MeshFormat) (cs : List Curve) : Wr Unit := do
  emit (b! "$Curves" ++ endl)
  emit (decU64 (sizeU cs) ++ endl)
  if f.fileType = 0 then forW (saveCurveAscii cfg) cs else forW (saveCurveBinary cfg) cs
  emit (b! "$EndCurves" ++ endl)

/-- The counters line of a patch (`src/save_msh_patches.cpp:18-25`). -/
def patchHeaderText (p : Patch) : Bytes :=
  decU64 p.patchTag ++ sp ++ decU64 p.patchType ++ sp ++ decU64 p.degreeU ++ sp ++
  decU64 p.degreeV ++ sp ++ decU64 p.numControlPoints ++ sp ++ decU64 p.numUKnots ++ sp ++
  decU64 p.numVKnots ++ sp ++ decU64 p.withWeights ++ endl

/-- One patch, ASCII (`src/save_msh_patches.cpp:17-49`). -/
def savePatchAscii (cfg : Cfg) (p : Patch) : Wr Unit := do
  emit (patchHeaderText p)
  assertW cfg (sizeU p.data == p.numEntries)
  saveControl cfg p.data p.numControlPoints (if 0 < p.withWeights then 4 else 3)
    [p.numUKnots, p.numVKnots]

/-- One patch, binary (`src/save_msh_patches.cpp:58-74`). -/
def savePatchBinary (cfg : Cfg) (p : Patch) : Wr Unit := do
  emit (patchHeaderText p)
  assertW cfg (sizeU p.data == p.numEntries)
  writeN encDouble p.data p.numEntries

/-- `save_patches` (`src/save_msh_patches.cpp:12-92`), in a build with the extension. -/
def savePatches (cfg : Cfg) (f : MeshFormat) (ps : List Patch) : Wr Unit := do
  emit (b! "$Patches" ++ endl)
  emit (decU64 (sizeU ps) ++ endl)
  if f.fileType = 0 then forW (savePatchAscii cfg) ps else forW (savePatchBinary cfg) ps
  emit (b! "$EndPatches" ++ endl)

/-- `save_msh(std::ostream&, const MshSpec&)` (`src/save_msh.cpp:18-51`). -/
def saveMsh (cfg : Cfg) (s : MshSpec) : Wr Unit := do
  saveMeshFormat s.meshFormat
  whenW (s.physicalGroups.length > 0) (savePhysicalGroups s.physicalGroups)
  whenW (!s.entities.empty) (saveEntities cfg s.meshFormat s.entities)
  whenW (s.nodes.numNodes > 0) (saveNodes cfg s.meshFormat s.nodes)
  whenW (s.elements.numElements > 0) (saveElements s.meshFormat s.elements)
  whenW (s.nodeData.length > 0)
    (saveDataSections cfg s.meshFormat (b! "NodeData") false s.nodeData)
  whenW (s.elementData.length > 0)
    (saveDataSections cfg s.meshFormat (b! "ElementData") false s.elementData)
  whenW (s.elementNodeData.length > 0)
    (saveDataSections cfg s.meshFormat (b! "ElementNodeData") true s.elementNodeData)
  whenW cfg.nanospline do
    saveNanosplineFormat s.nanosplineVersion
    whenW (s.curves.length > 0) (saveCurves cfg s.meshFormat s.curves)
    whenW (s.patches.length > 0) (savePatches cfg s.meshFormat s.patches)

/-- `save_msh(const std::string&, const MshSpec&)` (`src/save_msh.cpp:53-60`): file content and
outcome; `canOpen = false` when the file cannot be opened for writing. -/
def saveFile (cfg : Cfg) (canOpen : Bool) (s : MshSpec) : Wr Unit :=
  if canOpen then saveMsh cfg s else Wr.lift (.throw .runtimeError)

end MshIO
