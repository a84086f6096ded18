import Verif.Model.IStream
import Verif.Model.MshSpec

/-!
# Element tables and the few numeric helpers shared by loader and saver
-/

namespace MshIO

/-- `assert_element_is_supported` (`src/element_utils.cpp:5-12`). -/
def assertElementIsSupported (elementType : Int32) : Outcome Unit :=
  if elementType ≤ 0 || 32 ≤ elementType then .throw .unsupportedFeature else .ok ()

/-- `element_sizes` (`src/element_utils.cpp:18-49`). -/
def elementSizes : List UInt64 :=
  [0, 2, 3, 4, 4, 8, 6, 5, 3, 6, 9, 10, 27, 18, 14, 1, 8, 20, 15, 13, 9, 10, 12, 15, 15, 21, 4, 5,
   6, 20, 35, 56]

/-- `nodes_per_element` (`src/element_utils.cpp:14-51`). -/
def nodesPerElement (elementType : Int32) : Outcome UInt64 := do
  assertElementIsSupported elementType
  vecGet elementSizes (sizeOfInt elementType)

/-- `element_dims` (`src/element_utils.cpp:57-88`). -/
def elementDims : List Int32 :=
  [0, 1, 2, 2, 3, 3, 3, 3, 1, 2, 2, 3, 3, 3, 3, 0, 2, 3, 3, 3, 2, 2, 2, 2, 2, 2, 1, 1, 1, 3, 3, 3]

/-- `get_element_dim` (`src/element_utils.cpp:53-90`). -/
def getElementDim (elementType : Int32) : Outcome Int32 := do
  assertElementIsSupported elementType
  vecGet elementDims (sizeOfInt elementType)

/-- `static_cast<size_t>(3 + ((block.parametric == 1) ? block.entity_dim : 0))`
(`src/load_msh_nodes.cpp:41-42`, `:76-77`, `src/save_msh_nodes.cpp:26-27` and others);
the `int` addition overflows for `entity_dim > INT_MAX - 3`. -/
def entriesPerNode (parametric entityDim : Int32) : Outcome UInt64 :=
  if parametric = 1 then
    if 2 ^ 31 ≤ entityDim.toInt + 3 then .ub else .ok (sizeOfInt (3 + entityDim))
  else .ok 3

/-- `curve.num_control_points * ((curve.with_weights > 0) ? 4 : 3) + curve.num_knots`
(`src/load_msh_curves.cpp:25-26`, `src/save_msh_curves.cpp:26-27`). -/
def Curve.numEntries (c : Curve) : UInt64 :=
  c.numControlPoints * (if 0 < c.withWeights then 4 else 3) + c.numKnots

/-- `patch.num_control_points * dim + patch.num_u_knots + patch.num_v_knots`
(`src/load_msh_patches.cpp:27-29`, `src/save_msh_patches.cpp:27-29`). -/
def Patch.numEntries (p : Patch) : UInt64 :=
  p.numControlPoints * (if 0 < p.withWeights then 4 else 3) + p.numUKnots + p.numVKnots

end MshIO
