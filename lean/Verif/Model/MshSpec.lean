import Verif.Model.Dbl

/-!
# `MshSpec` – the data structure users fill in and get back

Field for field the structs of `include/mshio/MshSpec.h` and `include/mshio/MshSpecExt.h`, with the
same default values.
-/

namespace MshIO

/-- `include/mshio/MshSpec.h:10-15`. -/
structure MeshFormat where
  version : Bytes := b! "4.1"
  fileType : Int32 := 0
  dataSize : Int32 := 8
  deriving DecidableEq, Repr

/-- `include/mshio/MshSpec.h:17-25`. -/
structure NodeBlock where
  entityDim : Int32 := 0
  entityTag : Int32 := 0
  parametric : Int32 := 0
  numNodesInBlock : UInt64 := 0
  tags : List UInt64 := []
  data : List Double := []
  deriving DecidableEq, Repr

/-- `include/mshio/MshSpec.h:27-34`. -/
structure Nodes where
  numEntityBlocks : UInt64 := 0
  numNodes : UInt64 := 0
  minNodeTag : UInt64 := 0
  maxNodeTag : UInt64 := 0
  entityBlocks : List NodeBlock := []
  deriving DecidableEq, Repr

/-- `include/mshio/MshSpec.h:36-43`. -/
structure ElementBlock where
  entityDim : Int32 := 0
  entityTag : Int32 := 0
  elementType : Int32 := 0
  numElementsInBlock : UInt64 := 0
  data : List UInt64 := []
  deriving DecidableEq, Repr

/-- `include/mshio/MshSpec.h:45-52`. -/
structure Elements where
  numEntityBlocks : UInt64 := 0
  numElements : UInt64 := 0
  minElementTag : UInt64 := 0
  maxElementTag : UInt64 := 0
  entityBlocks : List ElementBlock := []
  deriving DecidableEq, Repr

/-- `include/mshio/MshSpec.h:54-59`. -/
structure DataHeader where
  stringTags : List Bytes := []
  realTags : List Double := []
  intTags : List Int32 := []
  deriving DecidableEq, Repr

/-- `include/mshio/MshSpec.h:61-66`. -/
structure DataEntry where
  tag : UInt64 := 0
  numNodesPerElement : Int32 := 0
  data : List Double := []
  deriving DecidableEq, Repr

/-- `include/mshio/MshSpec.h:68-72`. -/
structure Data where
  header : DataHeader := {}
  entries : List DataEntry := []
  deriving DecidableEq, Repr

/-- `include/mshio/MshSpec.h:74-80`. -/
structure PointEntity where
  tag : Int32 := 0
  x : Double := Double.zero
  y : Double := Double.zero
  z : Double := Double.zero
  physicalGroupTags : List Int32 := []
  deriving DecidableEq, Repr

/-- `CurveEntity`, `SurfaceEntity` and `VolumeEntity` (`include/mshio/MshSpec.h:82-116`).
Simplification: the three C++ structs differ only in the name of the last member
(`boundary_point_tags`, `boundary_curve_tags`, `boundary_surface_tags`); one Lean structure stands
for all three. -/
structure BoxEntity where
  tag : Int32 := 0
  minX : Double := Double.zero
  minY : Double := Double.zero
  minZ : Double := Double.zero
  maxX : Double := Double.zero
  maxY : Double := Double.zero
  maxZ : Double := Double.zero
  physicalGroupTags : List Int32 := []
  boundaryTags : List Int32 := []
  deriving DecidableEq, Repr

/-- `include/mshio/MshSpec.h:118-128`. -/
structure Entities where
  points : List PointEntity := []
  curves : List BoxEntity := []
  surfaces : List BoxEntity := []
  volumes : List BoxEntity := []
  deriving DecidableEq, Repr

/-- `Entities::empty` (`include/mshio/MshSpec.h:124-127`). -/
def Entities.empty (e : Entities) : Bool :=
  e.points.isEmpty && e.curves.isEmpty && e.surfaces.isEmpty && e.volumes.isEmpty

/-- `include/mshio/MshSpec.h:130-135`. -/
structure PhysicalGroup where
  dim : Int32 := 0
  tag : Int32 := 0
  name : Bytes := []
  deriving DecidableEq, Repr

/-- `Curve` (`include/mshio/MshSpecExt.h:13-22`). -/
structure Curve where
  curveTag : UInt64 := 0
  curveType : UInt64 := 0
  curveDegree : UInt64 := 0
  numControlPoints : UInt64 := 0
  numKnots : UInt64 := 0
  withWeights : UInt64 := 0
  data : List Double := []
  deriving DecidableEq, Repr

/-- `Patch` (`include/mshio/MshSpecExt.h:24-35`). -/
structure Patch where
  patchTag : UInt64 := 0
  patchType : UInt64 := 0
  degreeU : UInt64 := 0
  degreeV : UInt64 := 0
  numControlPoints : UInt64 := 0
  numUKnots : UInt64 := 0
  numVKnots : UInt64 := 0
  withWeights : UInt64 := 0
  data : List Double := []
  deriving DecidableEq, Repr

/-- `MshSpec` (`include/mshio/MshSpec.h:137-152`); `nanosplineVersion` is
`nanospline_format.version` (`include/mshio/MshSpecExt.h:8-11`). -/
structure MshSpec where
  meshFormat : MeshFormat := {}
  nodes : Nodes := {}
  elements : Elements := {}
  entities : Entities := {}
  physicalGroups : List PhysicalGroup := []
  nodeData : List Data := []
  elementData : List Data := []
  elementNodeData : List Data := []
  nanosplineVersion : Bytes := b! "1.0"
  curves : List Curve := []
  patches : List Patch := []
  deriving DecidableEq, Repr

end MshIO
