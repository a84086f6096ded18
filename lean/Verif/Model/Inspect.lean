import Verif.Model.Save
import Verif.Model.Load
import Verif.Model.Formats

/-!
# The example program `msh_inspect` (`examples/msh_inspect.cpp`)

It loads a file, prints a report on standard output and saves the mesh as `tmp.msh`.
`std::cout` has its default format, `%g` with precision 6.
-/

namespace MshIO

/-- Literal text on the stream. -/
local notation "sp" => ([32] : Bytes)

/-- `std::cout << d` for a `double`. -/
def coutDouble (d : Double) : Bytes := fmtDouble (.general 6) d

/-- Conversion of an `int` to `double`, which is exact. -/
def doubleOfInt (i : Int32) : Double := .ofSignMag (i.toInt < 0) (magOfRat i.toInt.natAbs 1)

/-- A count after a caption, and the tags on the next line if there are any
(`examples/msh_inspect.cpp:23-31`, `:41-49`, `:50-58`, `:68-76`, `:77-85`, `:95-103`, `:104-112`). -/
def inspectTags (caption : Bytes) (v : List Int32) : Wr Unit := do
  emit (caption ++ decU64 (sizeU v) ++ endl)
  whenW (sizeU v > 0) do
    emit (b! "    ")
    forW (fun t => emit (decI32 t ++ sp)) v
    emit endl

/-- A point entity (`examples/msh_inspect.cpp:20-31`). -/
def inspectPoint (p : PointEntity) : Wr Unit := do
  emit (b! "  entity tag: " ++ decI32 p.tag ++ endl)
  emit (b! "  entity coordinates: " ++ coutDouble p.x ++ sp ++ coutDouble p.y ++ sp ++ coutDouble p.z ++ endl)
  inspectTags (b! "  Num physical groups: ") p.physicalGroupTags

/-- A curve, surface or volume entity (`examples/msh_inspect.cpp:36-58`, `:63-85`, `:90-112`); the three differ in the
caption of the boundary tags. -/
def inspectBox (caption : Bytes) (p : BoxEntity) : Wr Unit := do
  emit (b! "  entity tag: " ++ decI32 p.tag ++ endl)
  emit (b! "  bounding box min: " ++ coutDouble p.minX ++ sp ++ coutDouble p.minY ++ sp ++ coutDouble p.minZ ++ endl)
  emit (b! "  bounding box max: " ++ coutDouble p.maxX ++ sp ++ coutDouble p.maxY ++ sp ++ coutDouble p.maxZ ++ endl)
  inspectTags (b! "  Num physical groups: ") p.physicalGroupTags
  inspectTags caption p.boundaryTags

/-- The entities (`examples/msh_inspect.cpp:18-113`). -/
def inspectEntities (e : Entities) : Wr Unit := do
  emit (b! "Num point entities: " ++ decU64 (sizeU e.points) ++ endl)
  forW inspectPoint e.points
  emit (b! "Num curve entities: " ++ decU64 (sizeU e.curves) ++ endl)
  forW (inspectBox (b! "  Num boundary points: ")) e.curves
  emit (b! "Num surface entities: " ++ decU64 (sizeU e.surfaces) ++ endl)
  forW (inspectBox (b! "  Num boundary curves: ")) e.surfaces
  emit (b! "Num volume entities: " ++ decU64 (sizeU e.volumes) ++ endl)
  forW (inspectBox (b! "  Num boundary surfaces: ")) e.volumes

/-- The physical groups (`examples/msh_inspect.cpp:115-120`). -/
def inspectGroups (gs : List PhysicalGroup) : Wr Unit := do
  emit (b! "Num physical groups: " ++ decU64 (sizeU gs) ++ endl)
  forW (fun g => do
    emit (b! "  group dim: " ++ decI32 g.dim ++ endl)
    emit (b! "  group tag: " ++ decI32 g.tag ++ endl)
    emit (b! "  group name: " ++ quoteText g.name ++ endl)) gs

/-- `3 + block.parametric` as it is used in the inner loop: an `int` sum, compared and multiplied as `size_t`
(`examples/msh_inspect.cpp:135-136`). -/
def inspectStride (parametric : Int32) : Outcome UInt64 :=
  if 2 ^ 31 ≤ 3 + parametric.toInt then .ub else .ok (sizeOfInt (3 + parametric))

/-- A node block (`examples/msh_inspect.cpp:128-139`). -/
def inspectNodeBlock (b : NodeBlock) : Wr Unit := do
  emit (b! "  entity dim: " ++ decI32 b.entityDim ++ endl)
  emit (b! "  entity tag: " ++ decI32 b.entityTag ++ endl)
  emit (b! "  parametric: " ++ decI32 b.parametric ++ endl)
  emit (b! "  num nodes in block: " ++ decU64 b.numNodesInBlock ++ endl)
  loopW (fun j => do
    let t ← Wr.lift (vecGet b.tags (UInt64.ofNat j))
    emit (b! "    " ++ decU64 t ++ b! ": ")
    let w ← Wr.lift (inspectStride b.parametric)
    loopW (fun k => do
      let d ← Wr.lift (vecGet b.data (UInt64.ofNat j * w + UInt64.ofNat k))
      emit (coutDouble d ++ sp)) w.toNat 0
    emit endl) b.numNodesInBlock.toNat 0

/-- The nodes (`examples/msh_inspect.cpp:122-140`). -/
def inspectNodes (n : Nodes) : Wr Unit := do
  emit (b! "Num nodes: " ++ decU64 n.numNodes ++ endl)
  emit (b! "Num node blocks: " ++ decU64 n.numEntityBlocks ++ endl)
  emit (b! "min node tag: " ++ decU64 n.minNodeTag ++ endl)
  emit (b! "max node tag: " ++ decU64 n.maxNodeTag ++ endl)
  loopBlocks n.entityBlocks n.numEntityBlocks inspectNodeBlock

/-- An element block (`examples/msh_inspect.cpp:147-160`). -/
def inspectElementBlock (b : ElementBlock) : Wr Unit := do
  emit (b! "  entity dim: " ++ decI32 b.entityDim ++ endl)
  emit (b! "  entity tag: " ++ decI32 b.entityTag ++ endl)
  emit (b! "  entity type: " ++ decI32 b.elementType ++ endl)
  emit (b! "  num elements in block: " ++ decU64 b.numElementsInBlock ++ endl)
  let n ← Wr.lift (nodesPerElement b.elementType)
  loopW (fun j => do
    let t ← Wr.lift (vecGet b.data (UInt64.ofNat j * (n + 1)))
    emit (b! "    " ++ decU64 t ++ b! ": ")
    loopW (fun k => do
      let t ← Wr.lift (vecGet b.data (UInt64.ofNat j * (n + 1) + UInt64.ofNat k))
      emit (decU64 t ++ sp)) n.toNat 1
    emit endl) b.numElementsInBlock.toNat 0

/-- The elements (`examples/msh_inspect.cpp:142-161`). -/
def inspectElements (e : Elements) : Wr Unit := do
  emit (b! "Num elements: " ++ decU64 e.numElements ++ endl)
  emit (b! "Num element blocks: " ++ decU64 e.numEntityBlocks ++ endl)
  emit (b! "min element tag: " ++ decU64 e.minElementTag ++ endl)
  emit (b! "max element tag: " ++ decU64 e.maxElementTag ++ endl)
  loopBlocks e.entityBlocks e.numEntityBlocks inspectElementBlock

/-- The lambda `print_data` (`examples/msh_inspect.cpp:163-192`).  The integer tags are printed as `double`
(`for (const double& tag : data.header.int_tags)`). -/
def inspectData (d : Data) : Wr Unit := do
  emit (b! "Num string tags: " ++ decU64 (sizeU d.header.stringTags) ++ endl)
  forW (fun t => emit (quoteText t ++ sp)) d.header.stringTags
  emit endl
  emit (b! "Num real tags: " ++ decU64 (sizeU d.header.realTags) ++ endl)
  forW (fun t => emit (coutDouble t ++ sp)) d.header.realTags
  emit endl
  emit (b! "Num int tags: " ++ decU64 (sizeU d.header.intTags) ++ endl)
  forW (fun t => emit (coutDouble (doubleOfInt t) ++ sp)) d.header.intTags
  emit endl
  let fields ← Wr.lift (vecGet d.header.intTags 1)
  let num ← Wr.lift (vecGet d.header.intTags 2)
  loopW (fun i => do
    let e ← Wr.lift (vecGet d.entries (UInt64.ofNat i))
    emit (b! "  " ++ decU64 e.tag ++ b! ": ")
    loopW (fun j => do
      let x ← Wr.lift (vecGet e.data (UInt64.ofNat j))
      emit (coutDouble x ++ sp)) (sizeOfInt fields).toNat 0
    emit endl) (sizeOfInt num).toNat 0

/-- Everything `main` prints after loading (`examples/msh_inspect.cpp:14-206`). -/
def inspectReport (s : MshSpec) : Wr Unit := do
  emit (b! "sizeof(int): " ++ decU64 4 ++ endl)
  emit (b! "sizeof(size_t) " ++ decU64 8 ++ endl)
  emit (b! "sizeof(double) " ++ decU64 8 ++ endl)
  inspectEntities s.entities
  inspectGroups s.physicalGroups
  inspectNodes s.nodes
  inspectElements s.elements
  whenW (s.nodeData.length > 0) do
    emit (b! "Node data: " ++ endl)
    forW inspectData s.nodeData
  whenW (s.elementData.length > 0) do
    emit (b! "Element data: " ++ endl)
    forW inspectData s.elementData

/-- A run of the program: what it printed on standard output, the contents of `tmp.msh` if it was opened, and how it
ended.  An exception that leaves `main` ends the program by `std::terminate`. -/
structure Process where
  stdout : Bytes
  tmp : Option Bytes
  exit : Outcome Int32

/-- `main` (`examples/msh_inspect.cpp:5-211`); `args` are the arguments after the program's name, `file` maps the name of
a file to its contents, `canOpen` tells whether `tmp.msh` can be opened for writing.  The usage message goes to standard error
(not modelled). -/
def inspectMain (cfg : Cfg) (args : List Bytes) (file : Bytes → Option Bytes) (canOpen : Bool) : Process :=
  match args with
  | [name] =>
    match loadFile cfg (file name) with
    | .ok s =>
      match inspectReport s with
      | (out, .ok ()) =>
        let (bytes, end_) := saveFile { cfg with fmt := .general 6 } canOpen s
        ⟨out, if canOpen then some bytes else none, end_.bind fun _ => .ok 0⟩
      | (out, .throw e) => ⟨out, none, .throw e⟩
      | (out, .abort) => ⟨out, none, .abort⟩
      | (out, .ub) => ⟨out, none, .ub⟩
      | (out, .hang) => ⟨out, none, .hang⟩
    | .throw e => ⟨[], none, .throw e⟩
    | .abort => ⟨[], none, .abort⟩
    | .ub => ⟨[], none, .ub⟩
    | .hang => ⟨[], none, .hang⟩
  | _ => ⟨[], none, .ok 1⟩

end MshIO
