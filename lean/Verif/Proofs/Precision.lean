import Verif.Model.Load

/-!
# Loading does not look at the number format of output streams
-/

namespace MshIO

/-- The same build, output streams with another number format. -/
def Cfg.withFmt (cfg : Cfg) (P : Fmt) : Cfg := { cfg with fmt := P }

variable (cfg : Cfg) (P : Fmt)

theorem Cfg.withFmt_asserts : (cfg.withFmt P).asserts = cfg.asserts := rfl
theorem Cfg.withFmt_nanospline : (cfg.withFmt P).nanospline = cfg.nanospline := rfl
theorem Cfg.withFmt_maxCount : (cfg.withFmt P).maxCount = cfg.maxCount := rfl
theorem Cfg.withFmt_fmt : (cfg.withFmt P).fmt = P := rfl

theorem assertC_prec : assertC (cfg.withFmt P) = assertC cfg := rfl

theorem assertGood_prec : assertGood (cfg.withFmt P) = assertGood cfg := rfl

theorem vecResize_prec {α : Type} : @vecResize α (cfg.withFmt P) = @vecResize α cfg := rfl

theorem vecPush_prec {α : Type} : @vecPush α (cfg.withFmt P) = @vecPush α cfg := rfl

theorem vecReserve_prec : vecReserve (cfg.withFmt P) = vecReserve cfg := rfl

theorem resize_prec {α : Type} : @resize α (cfg.withFmt P) = @resize α cfg := rfl

theorem pushBack_prec {α : Type} : @pushBack α (cfg.withFmt P) = @pushBack α cfg := rfl

theorem loadPhysicalGroups_prec : loadPhysicalGroups (cfg.withFmt P) = loadPhysicalGroups cfg := by
  unfold loadPhysicalGroups
  simp only [assertGood_prec, resize_prec]

theorem loadIntListAscii_prec : loadIntListAscii (cfg.withFmt P) = loadIntListAscii cfg := by
  unfold loadIntListAscii
  simp only [resize_prec]

theorem loadPointAscii_prec : loadPointAscii (cfg.withFmt P) = loadPointAscii cfg := by
  unfold loadPointAscii
  simp only [loadIntListAscii_prec]

theorem loadBoxAscii_prec : loadBoxAscii (cfg.withFmt P) = loadBoxAscii cfg := by
  unfold loadBoxAscii
  simp only [loadIntListAscii_prec]

theorem loadEntitiesAscii41_prec : loadEntitiesAscii41 (cfg.withFmt P) = loadEntitiesAscii41 cfg := by
  unfold loadEntitiesAscii41
  simp only [assertGood_prec, resize_prec, loadPointAscii_prec, loadBoxAscii_prec]

theorem loadIntListBinary_prec : loadIntListBinary (cfg.withFmt P) = loadIntListBinary cfg := by
  unfold loadIntListBinary
  simp only [assertGood_prec, resize_prec]

theorem loadPointBinary_prec : loadPointBinary (cfg.withFmt P) = loadPointBinary cfg := by
  unfold loadPointBinary
  simp only [loadIntListBinary_prec]

theorem loadBoxBinary_prec : loadBoxBinary (cfg.withFmt P) = loadBoxBinary cfg := by
  unfold loadBoxBinary
  simp only [loadIntListBinary_prec]

theorem loadEntitiesBinary41_prec : loadEntitiesBinary41 (cfg.withFmt P) = loadEntitiesBinary41 cfg := by
  unfold loadEntitiesBinary41
  simp only [assertGood_prec, resize_prec, loadPointBinary_prec, loadBoxBinary_prec]

theorem loadEntities_prec : loadEntities (cfg.withFmt P) = loadEntities cfg := by
  unfold loadEntities
  simp only [loadEntitiesAscii41_prec, loadEntitiesBinary41_prec]

theorem loadNodeBlockAscii41_prec : loadNodeBlockAscii41 (cfg.withFmt P) = loadNodeBlockAscii41 cfg := by
  unfold loadNodeBlockAscii41
  simp only [assertC_prec, assertGood_prec, resize_prec]

theorem loadNodesAscii41_prec : loadNodesAscii41 (cfg.withFmt P) = loadNodesAscii41 cfg := by
  unfold loadNodesAscii41
  simp only [assertGood_prec, resize_prec, loadNodeBlockAscii41_prec]

theorem loadNodeBlockBinary41_prec : loadNodeBlockBinary41 (cfg.withFmt P) = loadNodeBlockBinary41 cfg := by
  unfold loadNodeBlockBinary41
  simp only [assertGood_prec, resize_prec]

theorem loadNodesBinary41_prec : loadNodesBinary41 (cfg.withFmt P) = loadNodesBinary41 cfg := by
  unfold loadNodesBinary41
  simp only [assertGood_prec, resize_prec, loadNodeBlockBinary41_prec]

theorem loadNodesAscii22_prec : loadNodesAscii22 (cfg.withFmt P) = loadNodesAscii22 cfg := by
  unfold loadNodesAscii22
  simp only [assertGood_prec, resize_prec, pushBack_prec]

theorem loadNodeBinary22_prec : loadNodeBinary22 (cfg.withFmt P) = loadNodeBinary22 cfg := by
  unfold loadNodeBinary22
  simp only [assertGood_prec]

theorem loadNodesBinary22_prec : loadNodesBinary22 (cfg.withFmt P) = loadNodesBinary22 cfg := by
  unfold loadNodesBinary22
  simp only [assertGood_prec, resize_prec, pushBack_prec, loadNodeBinary22_prec]

theorem loadNodes_prec : loadNodes (cfg.withFmt P) = loadNodes cfg := by
  unfold loadNodes
  simp only [loadNodesAscii41_prec, loadNodesBinary41_prec, loadNodesAscii22_prec, loadNodesBinary22_prec]

theorem loadElementBlockAscii41_prec : loadElementBlockAscii41 (cfg.withFmt P) = loadElementBlockAscii41 cfg := by
  unfold loadElementBlockAscii41
  simp only [assertGood_prec, resize_prec]

theorem loadElementsAscii41_prec : loadElementsAscii41 (cfg.withFmt P) = loadElementsAscii41 cfg := by
  unfold loadElementsAscii41
  simp only [assertGood_prec, resize_prec, loadElementBlockAscii41_prec]

theorem loadElementBlockBinary41_prec : loadElementBlockBinary41 (cfg.withFmt P) = loadElementBlockBinary41 cfg := by
  unfold loadElementBlockBinary41
  simp only [assertGood_prec, resize_prec]

theorem loadElementsBinary41_prec : loadElementsBinary41 (cfg.withFmt P) = loadElementsBinary41 cfg := by
  unfold loadElementsBinary41
  simp only [assertGood_prec, resize_prec, loadElementBlockBinary41_prec]

theorem createEntities_prec {E : Type} : @createEntities E (cfg.withFmt P) = @createEntities E cfg := by
  unfold createEntities
  simp only [vecPush_prec]

theorem createAllEntities_prec : createAllEntities (cfg.withFmt P) = createAllEntities cfg := by
  unfold createAllEntities
  simp only [createEntities_prec]

theorem makeElement22_prec : makeElement22 (cfg.withFmt P) = makeElement22 cfg := by
  unfold makeElement22
  simp only [vecResize_prec, vecPush_prec]

theorem loadElementAscii22_prec : loadElementAscii22 (cfg.withFmt P) = loadElementAscii22 cfg := by
  unfold loadElementAscii22
  simp only [resize_prec, makeElement22_prec]

theorem loadElementsAscii22_prec : loadElementsAscii22 (cfg.withFmt P) = loadElementsAscii22 cfg := by
  unfold loadElementsAscii22
  simp only [createAllEntities_prec, loadElementAscii22_prec]

theorem loadElementBinary22_prec : loadElementBinary22 (cfg.withFmt P) = loadElementBinary22 cfg := by
  unfold loadElementBinary22
  simp only [makeElement22_prec]

theorem loadElementGroupBinary22_prec : loadElementGroupBinary22 (cfg.withFmt P) = loadElementGroupBinary22 cfg := by
  unfold loadElementGroupBinary22
  simp only [resize_prec, loadElementBinary22_prec]

theorem loadElementGroups22_prec (m : UInt64) : ∀ n, loadElementGroups22 (cfg.withFmt P) m n = loadElementGroups22 cfg m n := by
  intro n
  induction n with
  | zero => rfl
  | succ n ih =>
    funext st
    unfold loadElementGroups22
    simp only [loadElementGroupBinary22_prec, ih]

theorem loadElementsBinary22_prec : loadElementsBinary22 (cfg.withFmt P) = loadElementsBinary22 cfg := by
  unfold loadElementsBinary22
  simp only [vecReserve_prec, createAllEntities_prec, loadElementGroups22_prec]

theorem loadElements_prec : loadElements (cfg.withFmt P) = loadElements cfg := by
  unfold loadElements
  simp only [loadElementsAscii41_prec, loadElementsBinary41_prec, loadElementsAscii22_prec, loadElementsBinary22_prec]

theorem loadDataHeader_prec : loadDataHeader (cfg.withFmt P) = loadDataHeader cfg := by
  unfold loadDataHeader
  simp only [assertGood_prec, resize_prec]

theorem loadDataEntryBinary41_prec : loadDataEntryBinary41 (cfg.withFmt P) = loadDataEntryBinary41 cfg := by
  unfold loadDataEntryBinary41
  simp only [resize_prec]

theorem loadDataEntryBinary22_prec : loadDataEntryBinary22 (cfg.withFmt P) = loadDataEntryBinary22 cfg := by
  unfold loadDataEntryBinary22
  simp only [resize_prec]

theorem loadDataEntryAscii_prec : loadDataEntryAscii (cfg.withFmt P) = loadDataEntryAscii cfg := by
  unfold loadDataEntryAscii
  simp only [resize_prec]

theorem loadData_prec : loadData (cfg.withFmt P) = loadData cfg := by
  unfold loadData
  simp only [assertGood_prec, resize_prec, loadDataHeader_prec, loadDataEntryBinary41_prec, loadDataEntryBinary22_prec, loadDataEntryAscii_prec]

theorem loadDataSection_prec : loadDataSection (cfg.withFmt P) = loadDataSection cfg := by
  unfold loadDataSection
  simp only [pushBack_prec, loadData_prec]

theorem loadCurveAscii_prec : loadCurveAscii (cfg.withFmt P) = loadCurveAscii cfg := by
  unfold loadCurveAscii
  simp only [resize_prec]

theorem loadCurveBinary_prec : loadCurveBinary (cfg.withFmt P) = loadCurveBinary cfg := by
  unfold loadCurveBinary
  simp only [resize_prec]

theorem loadCurves_prec : loadCurves (cfg.withFmt P) = loadCurves cfg := by
  unfold loadCurves
  simp only [resize_prec, loadCurveAscii_prec, loadCurveBinary_prec, Cfg.withFmt_nanospline]

theorem loadPatchAscii_prec : loadPatchAscii (cfg.withFmt P) = loadPatchAscii cfg := by
  unfold loadPatchAscii
  simp only [resize_prec]

theorem loadPatchBinary_prec : loadPatchBinary (cfg.withFmt P) = loadPatchBinary cfg := by
  unfold loadPatchBinary
  simp only [resize_prec]

theorem loadPatches_prec : loadPatches (cfg.withFmt P) = loadPatches cfg := by
  unfold loadPatches
  simp only [resize_prec, loadPatchAscii_prec, loadPatchBinary_prec, Cfg.withFmt_nanospline]

theorem regroupNode_prec : regroupNode (cfg.withFmt P) = regroupNode cfg := rfl

theorem regroupNodes_prec : regroupNodes (cfg.withFmt P) = regroupNodes cfg := by
  unfold regroupNodes
  simp only [vecResize_prec, regroupNode_prec]

theorem regroupElement_prec : regroupElement (cfg.withFmt P) = regroupElement cfg := rfl

theorem regroupElements_prec : regroupElements (cfg.withFmt P) = regroupElements cfg := by
  unfold regroupElements
  simp only [vecReserve_prec, regroupElement_prec]

theorem loadPostProcess_prec : loadPostProcess (cfg.withFmt P) = loadPostProcess cfg := by
  unfold loadPostProcess
  simp only [regroupNodes_prec, regroupElements_prec]

theorem loadSection_prec : loadSection (cfg.withFmt P) = loadSection cfg := by
  unfold loadSection
  simp only [loadPhysicalGroups_prec, loadEntities_prec, loadNodes_prec, loadElements_prec, loadDataSection_prec, loadCurves_prec, loadPatches_prec]

theorem loadRound_prec : loadRound (cfg.withFmt P) = loadRound cfg := by
  unfold loadRound
  simp only [loadSection_prec]

theorem loadLoop_prec : ∀ n, loadLoop (cfg.withFmt P) n = loadLoop cfg n := by
  intro n
  induction n with
  | zero => rfl
  | succ n ih =>
    funext st
    unfold loadLoop
    simp only [loadRound_prec, ih]
    rfl

theorem loadStream_prec : loadStream (cfg.withFmt P) = loadStream cfg := by
  unfold loadStream
  simp only [loadPostProcess_prec, loadLoop_prec]

theorem loadMsh_prec : loadMsh (cfg.withFmt P) = loadMsh cfg := by
  unfold loadMsh
  simp only [loadStream_prec]

end MshIO
