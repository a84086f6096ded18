import Verif.Model.Formats
import Verif.Model.IStream

/-!
# The Python binding: what `repr` of a bound object is

`python/pymshio.cpp` binds every struct of `MshSpec.h` to a Python class and gives each a `__repr__` that builds a
`std::string`. nanobind turns the string into a Python `str`, which decodes it as strict UTF-8 and raises
`UnicodeDecodeError` when it is not well formed; `none` stands for the exception.

Simplifications: nanobind and CPython are represented by the decoding of a `str`, by the `repr` of a list, and by the way
back from a `str` to a `std::string`, which gives the same bytes again; memory is not exhausted. Attributes, the four bound
functions (the ones modelled elsewhere) and `Entities.empty` are passed through unchanged by the binding and are not
repeated here. The library writes nothing else than a `std::string` in these functions.
-/

namespace MshIO

/-- A continuation byte of UTF-8. -/
def isCont (b : UInt8) : Bool := 0x80 ≤ b && b ≤ 0xBF

/-- Strict UTF-8 decoding as CPython does it (the table of well-formed byte sequences of the Unicode standard): no
overlong forms, no surrogates, nothing above `U+10FFFF`. Models the `std::string` to `str` conversion that follows every
`__repr__` of `python/pymshio.cpp` (`#include <nanobind/stl/string.h>`, line 5). -/
def utf8Ok : Bytes → Bool
  | [] => true
  | a :: r =>
    if a ≤ 0x7F then utf8Ok r
    else if 0xC2 ≤ a && a ≤ 0xDF then
      match r with
      | b :: r => isCont b && utf8Ok r
      | _ => false
    else if 0xE0 ≤ a && a ≤ 0xEF then
      match r with
      | b :: c :: r => isCont b && isCont c && (a != 0xE0 || 0xA0 ≤ b) && (a != 0xED || b ≤ 0x9F) && utf8Ok r
      | _ => false
    else if 0xF0 ≤ a && a ≤ 0xF4 then
      match r with
      | b :: c :: d :: r =>
        isCont b && isCont c && isCont d && (a != 0xF0 || 0x90 ≤ b) && (a != 0xF4 || b ≤ 0x8F) && utf8Ok r
      | _ => false
    else false

/-- A `std::string` handed to Python as a `str`; `none` is `UnicodeDecodeError`. -/
def pyStr (b : Bytes) : Option Bytes := if utf8Ok b then some b else none

/-- `std::to_string(double)`: what `printf("%f")` prints. -/
def toStringD (d : Double) : Bytes := fmtDouble (.fixed 6) d

/-- The rest of the `repr` of a Python list after its first item. -/
def pyListTail : List Bytes → Bytes
  | [] => b! "]"
  | x :: xs => b! ", " ++ (x ++ pyListTail xs)

/-- `repr` of a Python list whose items have the given `repr`s. -/
def pyList : List Bytes → Bytes
  | [] => b! "[]"
  | x :: xs => b! "[" ++ (x ++ pyListTail xs)

/-- `MeshFormat.__repr__` (`python/pymshio.cpp:17-21`). -/
def MeshFormat.pyRepr (m : MeshFormat) : Option Bytes :=
  pyStr (b! "MeshFormat(version=" ++ (m.version ++ (b! ", file_type=" ++ (decI32 m.fileType ++
    (b! ", data_size=" ++ (decI32 m.dataSize ++ b! ")"))))))

/-- `NodeBlock.__repr__` (`python/pymshio.cpp:31-37`). -/
def NodeBlock.pyRepr (n : NodeBlock) : Option Bytes :=
  pyStr (b! "NodeBlock(entity_dim=" ++ (decI32 n.entityDim ++ (b! ", entity_tag=" ++ (decI32 n.entityTag ++
    (b! ", parametric=" ++ (decI32 n.parametric ++ (b! ", num_nodes_in_block=" ++ (decU64 n.numNodesInBlock ++
    (b! ", tags=" ++ (decU64 (sizeU n.tags) ++ b! ")"))))))))))

/-- `Nodes.__repr__` (`python/pymshio.cpp:46-51`). -/
def Nodes.pyRepr (n : Nodes) : Option Bytes :=
  pyStr (b! "Nodes(num_entity_blocks=" ++ (decU64 n.numEntityBlocks ++ (b! ", num_nodes=" ++ (decU64 n.numNodes ++
    (b! ", min_node_tag=" ++ (decU64 n.minNodeTag ++ (b! ", max_node_tag=" ++ (decU64 n.maxNodeTag ++ b! ")"))))))))

/-- `ElementBlock.__repr__` (`python/pymshio.cpp:60-65`). -/
def ElementBlock.pyRepr (n : ElementBlock) : Option Bytes :=
  pyStr (b! "ElementBlock(entity_dim=" ++ (decI32 n.entityDim ++ (b! ", entity_tag=" ++ (decI32 n.entityTag ++
    (b! ", element_type=" ++ (decI32 n.elementType ++ (b! ", num_elements_in_block=" ++
    (decU64 n.numElementsInBlock ++ b! ")"))))))))

/-- `Elements.__repr__` (`python/pymshio.cpp:74-79`). -/
def Elements.pyRepr (n : Elements) : Option Bytes :=
  pyStr (b! "Elements(num_entity_blocks=" ++ (decU64 n.numEntityBlocks ++ (b! ", num_elements=" ++
    (decU64 n.numElements ++ (b! ", min_element_tag=" ++ (decU64 n.minElementTag ++ (b! ", max_element_tag=" ++
    (decU64 n.maxElementTag ++ b! ")"))))))))

/-- `DataHeader.__repr__` (`python/pymshio.cpp:86-90`). -/
def DataHeader.pyRepr (h : DataHeader) : Option Bytes :=
  pyStr (b! "DataHeader(string_tags=" ++ (decU64 (sizeU h.stringTags) ++ (b! ", real_tags=" ++
    (decU64 (sizeU h.realTags) ++ (b! ", int_tags=" ++ (decU64 (sizeU h.intTags) ++ b! ")"))))))

/-- `DataEntry.__repr__` (`python/pymshio.cpp:97-101`). -/
def DataEntry.pyRepr (e : DataEntry) : Option Bytes :=
  pyStr (b! "DataEntry(tag=" ++ (decU64 e.tag ++ (b! ", num_nodes_per_elements=" ++ (decI32 e.numNodesPerElement ++
    (b! ", data=" ++ (decU64 (sizeU e.data) ++ b! ")"))))))

/-- `Data.__repr__` (`python/pymshio.cpp:107-112`). -/
def Data.pyRepr (d : Data) : Option Bytes := do
  let header ← d.header.pyRepr
  let entries ← d.entries.mapM DataEntry.pyRepr
  pyStr (b! "Data(header=" ++ (header ++ (b! ", entries=" ++ (pyList entries ++ b! ")"))))

/-- `PointEntity.__repr__` (`python/pymshio.cpp:121-125`). -/
def PointEntity.pyRepr (p : PointEntity) : Option Bytes :=
  pyStr (b! "PointEntity(tag=" ++ (decI32 p.tag ++ (b! ", x=" ++ (toStringD p.x ++ (b! ", y=" ++ (toStringD p.y ++
    (b! ", z=" ++ (toStringD p.z ++ (b! ", physical_group_tags=" ++
    (decU64 (sizeU p.physicalGroupTags) ++ b! ")"))))))))))

/-- `CurveEntity.__repr__`, `SurfaceEntity.__repr__` and `VolumeEntity.__repr__` (`python/pymshio.cpp:138-148`, `161-171`,
`184-195`): the class name and the name of the last member are the only differences. -/
def BoxEntity.pyRepr (cls bnd : Bytes) (e : BoxEntity) : Option Bytes :=
  pyStr (cls ++ (b! "(tag=" ++ (decI32 e.tag ++ (b! ", min_x=" ++ (toStringD e.minX ++ (b! ", min_y=" ++
    (toStringD e.minY ++ (b! ", min_z=" ++ (toStringD e.minZ ++ (b! ", max_x=" ++ (toStringD e.maxX ++
    (b! ", max_y=" ++ (toStringD e.maxY ++ (b! ", max_z=" ++ (toStringD e.maxZ ++ (b! ", physical_group_tags=" ++
    (decU64 (sizeU e.physicalGroupTags) ++ (b! ", " ++ (bnd ++ (b! "=" ++
    (decU64 (sizeU e.boundaryTags) ++ b! ")")))))))))))))))))))))

/-- `CurveEntity.__repr__` (`python/pymshio.cpp:138-148`). -/
def BoxEntity.pyReprCurve : BoxEntity → Option Bytes := BoxEntity.pyRepr (b! "CurveEntity") (b! "boundary_point_tags")

/-- `SurfaceEntity.__repr__` (`python/pymshio.cpp:161-171`). -/
def BoxEntity.pyReprSurface : BoxEntity → Option Bytes :=
  BoxEntity.pyRepr (b! "SurfaceEntity") (b! "boundary_curve_tags")

/-- `VolumeEntity.__repr__` (`python/pymshio.cpp:184-195`). -/
def BoxEntity.pyReprVolume : BoxEntity → Option Bytes :=
  BoxEntity.pyRepr (b! "VolumeEntity") (b! "boundary_surface_tags")

/-- `Entities.__repr__` (`python/pymshio.cpp:204-209`). -/
def Entities.pyRepr (e : Entities) : Option Bytes :=
  pyStr (b! "Entities(points=" ++ (decU64 (sizeU e.points) ++ (b! ", curves=" ++ (decU64 (sizeU e.curves) ++
    (b! ", surfaces=" ++ (decU64 (sizeU e.surfaces) ++ (b! ", volumes=" ++ (decU64 (sizeU e.volumes) ++ b! ")"))))))))

/-- `PhysicalGroup.__repr__` (`python/pymshio.cpp:216-219`). -/
def PhysicalGroup.pyRepr (g : PhysicalGroup) : Option Bytes :=
  pyStr (b! "PhysicalGroup(dim=" ++ (decI32 g.dim ++ (b! ", tag=" ++ (decI32 g.tag ++ (b! ", name=" ++
    (g.name ++ b! ")"))))))

/-- `MshSpec.__repr__` (`python/pymshio.cpp:231-252`). -/
def MshSpec.pyRepr (s : MshSpec) : Option Bytes := do
  let format ← s.meshFormat.pyRepr
  let nodes ← s.nodes.pyRepr
  let elements ← s.elements.pyRepr
  let entities ← s.entities.pyRepr
  let groups ← s.physicalGroups.mapM PhysicalGroup.pyRepr
  let nodeData ← s.nodeData.mapM Data.pyRepr
  let elementData ← s.elementData.mapM Data.pyRepr
  let elementNodeData ← s.elementNodeData.mapM Data.pyRepr
  pyStr (b! "MshSpec(mesh_format=" ++ (format ++ (b! ", nodes=" ++ (nodes ++ (b! ", elements=" ++ (elements ++
    (b! ", entities=" ++ (entities ++ (b! ", physical_groups=" ++ (pyList groups ++ (b! ", node_data=" ++
    (pyList nodeData ++ (b! ", element_data=" ++ (pyList elementData ++ (b! ", element_node_data=" ++
    (pyList elementNodeData ++ b! ")"))))))))))))))))

end MshIO
