import Verif.Model.Broken
import Verif.Proofs.Tame

/-!
# Input that can fail: the two models side by side

`Along T I p q`: where `I` holds of the bytes to come, `q` on the stream `T s` does what `p` does on `s`.
-/

namespace MshIO.Broken

/-- `q` on `T s` does what `p` does on `s`, and `I` stays true. -/
structure Along {α : Type} (T : MshIO.Stream → Stream) (I : Bytes → Prop) (p : MshIO.Rd α) (q : Rd α) : Prop where
  run : ∀ s, I s.rem →
    (∃ a s', p s = .ok (a, s') ∧ q (T s) = .ok (a, T s') ∧ I s'.rem) ∨ (∃ e, p s = .throw e ∧ q (T s) = .throw e) ∨ (p s = .abort ∧ q (T s) = .abort) ∨
    (p s = .ub ∧ q (T s) = .ub) ∨ (p s = .hang ∧ q (T s) = .hang)

variable {T : MshIO.Stream → Stream} {I : Bytes → Prop}

namespace Along

theorem pure {α : Type} (a : α) : Along T I (Pure.pure a) (Pure.pure a) := ⟨fun s h => .inl ⟨a, s, rfl, rfl, h⟩⟩
theorem throw {α : Type} (e : Exc) : Along T I (MshIO.Rd.throw e : MshIO.Rd α) (Rd.throw e) := ⟨fun _ _ => .inr (.inl ⟨e, rfl, rfl⟩)⟩
theorem ub {α : Type} : Along T I (MshIO.Rd.ub : MshIO.Rd α) Rd.ub := ⟨fun _ _ => .inr (.inr (.inr (.inl ⟨rfl, rfl⟩)))⟩
theorem hang {α : Type} : Along T I (fun _ => .hang : MshIO.Rd α) (fun _ => .hang) := ⟨fun _ _ => .inr (.inr (.inr (.inr ⟨rfl, rfl⟩)))⟩

theorem lift {α : Type} (x : Outcome α) : Along T I (MshIO.Rd.lift x) (Rd.lift x) := ⟨fun s h => by
  cases x with
  | ok a => exact .inl ⟨a, s, rfl, rfl, h⟩
  | throw e => exact .inr (.inl ⟨e, rfl, rfl⟩)
  | abort => exact .inr (.inr (.inl ⟨rfl, rfl⟩))
  | ub => exact .inr (.inr (.inr (.inl ⟨rfl, rfl⟩)))
  | hang => exact .inr (.inr (.inr (.inr ⟨rfl, rfl⟩)))⟩

theorem bind {α β : Type} {p : MshIO.Rd α} {q : Rd α} {f : α → MshIO.Rd β} {g : α → Rd β} (h : Along T I p q) (hf : ∀ a, Along T I (f a) (g a)) :
    Along T I (p >>= f) (q >>= g) := ⟨fun s hs => by
  have e1 : (p >>= f) s = MshIO.Rd.bind p f s := rfl
  have e2 : (q >>= g) (T s) = Rd.bind q g (T s) := rfl
  rw [e1, e2]
  unfold MshIO.Rd.bind Rd.bind
  rcases h.run s hs with ⟨a, s', h1, h2, h3⟩ | ⟨e, h1, h2⟩ | ⟨h1, h2⟩ | ⟨h1, h2⟩ | ⟨h1, h2⟩ <;> rw [h1, h2] <;> simp only
  · exact (hf a).run s' h3
  all_goals simp⟩

theorem ite {α : Type} {c : Prop} [Decidable c] {p p' : MshIO.Rd α} {q q' : Rd α} (h : Along T I p q) (h' : Along T I p' q') : Along T I (if c then p else p') (if c then q else q') := by
  by_cases hc : c
  · simp only [if_pos hc]; exact h
  · simp only [if_neg hc]; exact h'

theorem forEach {α : Type} {f : α → MshIO.Rd α} {g : α → Rd α} (h : ∀ a, Along T I (f a) (g a)) (v : List α) : Along T I (MshIO.forEach f v) (Broken.forEach g v) := by
  induction v with
  | nil => exact pure []
  | cons a v ih => exact bind (h a) fun _ => bind ih fun _ => pure _

theorem loopN {σ : Type} {f : Nat → σ → MshIO.Rd σ} {g : Nat → σ → Rd σ} (h : ∀ i a, Along T I (f i a) (g i a)) (n : Nat) : ∀ i a, Along T I (MshIO.loopN f n i a) (Broken.loopN g n i a) := by
  induction n with
  | zero => intro i a; exact pure a
  | succ n ih => intro i a; exact bind (h i a) fun b => ih (i + 1) b

theorem useVar {α : Type} (x : Option α) : Along T I (MshIO.useVar x) (Broken.useVar x) := by
  cases x
  · exact ub
  · exact pure _

theorem assertC (cfg : Cfg) (c : Bool) : Along T I (MshIO.assertC cfg c) (Broken.assertC cfg c) := ⟨fun s h => by
  unfold MshIO.assertC Broken.assertC
  by_cases hc : (cfg.asserts && !c) = true
  · rw [if_pos hc, if_pos hc]; exact .inr (.inr (.inl ⟨rfl, rfl⟩))
  · rw [if_neg hc, if_neg hc]; exact .inl ⟨_, _, rfl, rfl, h⟩⟩

theorem resize {α : Type} (cfg : Cfg) (v : List α) (n : UInt64) (d : α) : Along T I (MshIO.resize cfg v n d) (Broken.resize cfg v n d) := lift _
theorem pushBack {α : Type} (cfg : Cfg) (v : List α) (d : α) : Along T I (MshIO.pushBack cfg v d) (Broken.pushBack cfg v d) := lift _

end Along

/-- The operations of the stream agree. -/
structure Prims (T : MshIO.Stream → Stream) (I : Bytes → Prop) : Prop where
  rem : ∀ s, (T s).rem = s.rem
  size : Along T I MshIO.extractSize extractSize
  int : Along T I MshIO.extractInt extractInt
  double : Along T I MshIO.extractDouble extractDouble
  string : ∀ old, Along T I (MshIO.inString old) (inString old)
  quoted : ∀ old, Along T I (MshIO.inQuoted old) (inQuoted old)
  raw : ∀ old, Along T I (MshIO.readRaw old) (readRaw old)
  var : Along T I (MshIO.readIntVar none) (readIntVar none)
  sizeVar : Along T I MshIO.readSizeVar readSizeVar
  eat : ∀ n, Along T I (MshIO.eatWhiteSpace n) (eatWhiteSpace n)
  good : ∀ cfg, Along T I (MshIO.assertGood cfg) (assertGood cfg)

namespace Prims

variable (P : Prims T I)
include P

theorem inSize (old : UInt64) : Along T I (MshIO.inSize old) (Broken.inSize old) := P.size.bind fun _ => .pure _
theorem inInt (old : Int32) : Along T I (MshIO.inInt old) (Broken.inInt old) := P.int.bind fun _ => .pure _
theorem inDouble (old : Double) : Along T I (MshIO.inDouble old) (Broken.inDouble old) := P.double.bind fun _ => .pure _
theorem inIntVar (old : Option Int32) : Along T I (MshIO.inIntVar old) (Broken.inIntVar old) := P.int.bind fun x => by cases x <;> exact .pure _
theorem readSize (old : UInt64) : Along T I (MshIO.readSize old) (Broken.readSize old) := (P.raw _).bind fun _ => .pure _
theorem readInt (old : Int32) : Along T I (MshIO.readInt old) (Broken.readInt old) := (P.raw _).bind fun _ => .pure _
theorem readDouble (old : Double) : Along T I (MshIO.readDouble old) (Broken.readDouble old) := (P.raw _).bind fun _ => .pure _
theorem readSizes (old : List UInt64) : Along T I (MshIO.readSizes old) (Broken.readSizes old) := (P.raw _).bind fun _ => .pure _
theorem readInts (old : List Int32) : Along T I (MshIO.readInts old) (Broken.readInts old) := (P.raw _).bind fun _ => .pure _
theorem readDoubles (old : List Double) : Along T I (MshIO.readDoubles old) (Broken.readDoubles old) := (P.raw _).bind fun _ => .pure _

theorem readIntVar (old : Option Int32) : Along T I (MshIO.readIntVar old) (Broken.readIntVar old) := by
  cases old with
  | none => exact P.var
  | some v =>
    refine ⟨fun s hs => ?_⟩
    unfold MshIO.readIntVar Broken.readIntVar
    simp only
    rcases (P.readInt v).run s hs with ⟨a, s', h1, h2, h3⟩ | ⟨e, h1, h2⟩ | ⟨h1, h2⟩ | ⟨h1, h2⟩ | ⟨h1, h2⟩ <;> rw [h1, h2] <;> simp [*]

theorem inDoubleAt (i : UInt64) (v : List Double) : Along T I (MshIO.inDoubleAt i v) (Broken.inDoubleAt i v) := by
  unfold MshIO.inDoubleAt Broken.inDoubleAt
  cases v[i.toNat]? with
  | none => exact .ub
  | some old => exact (P.inDouble _).bind fun _ => .pure _
theorem inSizeAt (i : UInt64) (v : List UInt64) : Along T I (MshIO.inSizeAt i v) (Broken.inSizeAt i v) := by
  unfold MshIO.inSizeAt Broken.inSizeAt
  cases v[i.toNat]? with
  | none => exact .ub
  | some old => exact (P.inSize _).bind fun _ => .pure _

end Prims

/-- Follow the code. -/
macro "along" P:term : tactic => `(tactic| repeat' first
  | with_reducible exact Along.pure _
  | with_reducible exact Along.throw _
  | with_reducible exact Along.ub
  | with_reducible exact Along.lift _
  | with_reducible exact Along.useVar _
  | with_reducible exact Along.assertC _ _
  | with_reducible exact Along.resize _ _ _ _
  | with_reducible exact Along.pushBack _ _ _
  | with_reducible exact Prims.size $P
  | with_reducible exact Prims.int $P
  | with_reducible exact Prims.double $P
  | with_reducible exact Prims.string $P _
  | with_reducible exact Prims.quoted $P _
  | with_reducible exact Prims.readIntVar $P _
  | with_reducible exact Prims.sizeVar $P
  | with_reducible exact Prims.eat $P _
  | with_reducible exact Prims.good $P _
  | with_reducible exact Prims.inSize $P _
  | with_reducible exact Prims.inInt $P _
  | with_reducible exact Prims.inDouble $P _
  | with_reducible exact Prims.inIntVar $P _
  | with_reducible exact Prims.readSize $P _
  | with_reducible exact Prims.readInt $P _
  | with_reducible exact Prims.readDouble $P _
  | with_reducible exact Prims.readSizes $P _
  | with_reducible exact Prims.readInts $P _
  | with_reducible exact Prims.readDoubles $P _
  | with_reducible exact Prims.inDoubleAt $P _ _
  | with_reducible exact Prims.inSizeAt $P _ _
  | with_reducible apply Along.ite
  | with_reducible apply Along.forEach
  | with_reducible apply Along.loopN
  | with_reducible apply Along.bind
  | with_reducible assumption
  | with_reducible apply_assumption
  | intro _)

namespace Prims

variable (P : Prims T I)
include P

theorem meshFormat (f : MeshFormat) : Along T I (MshIO.loadMeshFormat f) (loadMeshFormat f) := by
  unfold MshIO.loadMeshFormat loadMeshFormat; along P
theorem physicalGroups (cfg : Cfg) (g : List PhysicalGroup) : Along T I (MshIO.loadPhysicalGroups cfg g) (loadPhysicalGroups cfg g) := by
  unfold MshIO.loadPhysicalGroups loadPhysicalGroups MshIO.loadPhysicalGroup loadPhysicalGroup; along P
theorem intListAscii (cfg : Cfg) (v : List Int32) : Along T I (MshIO.loadIntListAscii cfg v) (loadIntListAscii cfg v) := by
  unfold MshIO.loadIntListAscii loadIntListAscii; along P
theorem intListBinary (cfg : Cfg) (v : List Int32) : Along T I (MshIO.loadIntListBinary cfg v) (loadIntListBinary cfg v) := by
  unfold MshIO.loadIntListBinary loadIntListBinary; along P
theorem pointAscii (cfg : Cfg) (p : PointEntity) : Along T I (MshIO.loadPointAscii cfg p) (loadPointAscii cfg p) := by
  have := P.intListAscii cfg
  unfold MshIO.loadPointAscii loadPointAscii; along P
theorem boxAscii (cfg : Cfg) (p : BoxEntity) : Along T I (MshIO.loadBoxAscii cfg p) (loadBoxAscii cfg p) := by
  have := P.intListAscii cfg
  unfold MshIO.loadBoxAscii loadBoxAscii; along P
theorem pointBinary (cfg : Cfg) (p : PointEntity) : Along T I (MshIO.loadPointBinary cfg p) (loadPointBinary cfg p) := by
  have := P.intListBinary cfg
  unfold MshIO.loadPointBinary loadPointBinary; along P
theorem boxBinary (cfg : Cfg) (p : BoxEntity) : Along T I (MshIO.loadBoxBinary cfg p) (loadBoxBinary cfg p) := by
  have := P.intListBinary cfg
  unfold MshIO.loadBoxBinary loadBoxBinary; along P
theorem entities (cfg : Cfg) (f : MeshFormat) (e : Entities) : Along T I (MshIO.loadEntities cfg f e) (loadEntities cfg f e) := by
  have := P.pointAscii cfg
  have := P.boxAscii cfg
  have := P.pointBinary cfg
  have := P.boxBinary cfg
  unfold MshIO.loadEntities loadEntities MshIO.loadEntitiesAscii41 loadEntitiesAscii41 MshIO.loadEntitiesBinary41 loadEntitiesBinary41; along P

theorem nodeBlockAscii41 (cfg : Cfg) (b : NodeBlock) : Along T I (MshIO.loadNodeBlockAscii41 cfg b) (loadNodeBlockAscii41 cfg b) := by
  unfold MshIO.loadNodeBlockAscii41 loadNodeBlockAscii41; along P
theorem nodeBlockBinary41 (cfg : Cfg) (b : NodeBlock) : Along T I (MshIO.loadNodeBlockBinary41 cfg b) (loadNodeBlockBinary41 cfg b) := by
  unfold MshIO.loadNodeBlockBinary41 loadNodeBlockBinary41; along P
theorem nodeBinary22 (cfg : Cfg) (i : Nat) (st : List UInt64 × List Double) : Along T I (MshIO.loadNodeBinary22 cfg i st) (loadNodeBinary22 cfg i st) := by
  unfold MshIO.loadNodeBinary22 loadNodeBinary22; along P
theorem nodesAscii22 (cfg : Cfg) (n : Nodes) : Along T I (MshIO.loadNodesAscii22 cfg n) (loadNodesAscii22 cfg n) := by
  unfold MshIO.loadNodesAscii22 loadNodesAscii22
  along P
theorem nodesBinary22 (cfg : Cfg) (n : Nodes) : Along T I (MshIO.loadNodesBinary22 cfg n) (loadNodesBinary22 cfg n) := by
  have := P.nodeBinary22 cfg
  unfold MshIO.loadNodesBinary22 loadNodesBinary22
  along P
theorem nodes (cfg : Cfg) (f : MeshFormat) (n : Nodes) : Along T I (MshIO.loadNodes cfg f n) (loadNodes cfg f n) := by
  have := P.nodeBlockAscii41 cfg
  have := P.nodeBlockBinary41 cfg
  have := P.nodesAscii22 cfg
  have := P.nodesBinary22 cfg
  unfold MshIO.loadNodes loadNodes MshIO.loadNodesAscii41 loadNodesAscii41 MshIO.loadNodesBinary41 loadNodesBinary41
  simp only
  along P

theorem elementBlockAscii41 (cfg : Cfg) (b : ElementBlock) : Along T I (MshIO.loadElementBlockAscii41 cfg b) (loadElementBlockAscii41 cfg b) := by
  unfold MshIO.loadElementBlockAscii41 loadElementBlockAscii41; along P
theorem elementBlockBinary41 (cfg : Cfg) (b : ElementBlock) : Along T I (MshIO.loadElementBlockBinary41 cfg b) (loadElementBlockBinary41 cfg b) := by
  unfold MshIO.loadElementBlockBinary41 loadElementBlockBinary41; along P
theorem elementAscii22 (cfg : Cfg) (st : Ascii22) : Along T I (MshIO.loadElementAscii22 cfg st) (loadElementAscii22 cfg st) := by
  unfold MshIO.loadElementAscii22 loadElementAscii22; along P
theorem elementsAscii22 (cfg : Cfg) (e : Elements) (ents : Entities) : Along T I (MshIO.loadElementsAscii22 cfg e ents) (loadElementsAscii22 cfg e ents) := by
  have := P.elementAscii22 cfg
  unfold MshIO.loadElementsAscii22 loadElementsAscii22; along P
theorem elementBinary22 (cfg : Cfg) (n : UInt64) (a b : Int32) (st : Option Int32 × Binary22) : Along T I (MshIO.loadElementBinary22 cfg n a b st) (loadElementBinary22 cfg n a b st) := by
  unfold MshIO.loadElementBinary22 loadElementBinary22; along P
theorem elementGroupBinary22 (cfg : Cfg) (n : UInt64) (st : Binary22) : Along T I (MshIO.loadElementGroupBinary22 cfg n st) (loadElementGroupBinary22 cfg n st) := by
  have := P.elementBinary22 cfg
  unfold MshIO.loadElementGroupBinary22 loadElementGroupBinary22; along P
theorem elementGroups22 (cfg : Cfg) (n : UInt64) (fuel : Nat) : ∀ st, Along T I (MshIO.loadElementGroups22 cfg n fuel st) (loadElementGroups22 cfg n fuel st) := by
  have := P.elementGroupBinary22 cfg
  induction fuel with
  | zero => intro st; exact .hang
  | succ k ih => intro st; rw [MshIO.loadElementGroups22, loadElementGroups22]; along P
theorem elementsBinary22 (cfg : Cfg) (e : Elements) (ents : Entities) : Along T I (MshIO.loadElementsBinary22 cfg e ents) (loadElementsBinary22 cfg e ents) := by
  have h : ∀ n st, Along T I (fun s => MshIO.loadElementGroups22 cfg n (s.rem.length + 2) st s) (fun s => loadElementGroups22 cfg n (s.rem.length + 2) st s) := fun n st =>
    ⟨fun s hs => by
      have := (P.elementGroups22 cfg n (s.rem.length + 2) st).run s hs
      rw [← P.rem s] at this
      simpa only [P.rem] using this⟩
  unfold MshIO.loadElementsBinary22 loadElementsBinary22
  along P
  refine (h _ _).bind fun _ => (Along.lift _).bind fun _ => .pure _
theorem elements (cfg : Cfg) (f : MeshFormat) (e : Elements) (ents : Entities) : Along T I (MshIO.loadElements cfg f e ents) (loadElements cfg f e ents) := by
  have := P.elementBlockAscii41 cfg
  have := P.elementBlockBinary41 cfg
  have := P.elementsAscii22 cfg
  have := P.elementsBinary22 cfg
  unfold MshIO.loadElements loadElements MshIO.loadElementsAscii41 loadElementsAscii41 MshIO.loadElementsBinary41 loadElementsBinary41
  simp only
  along P

theorem dataHeader (cfg : Cfg) (h : DataHeader) : Along T I (MshIO.loadDataHeader cfg h) (loadDataHeader cfg h) := by
  unfold MshIO.loadDataHeader loadDataHeader; along P
theorem dataEntryBinary41 (cfg : Cfg) (n : UInt64) (b : Bool) (e : DataEntry) : Along T I (MshIO.loadDataEntryBinary41 cfg n b e) (loadDataEntryBinary41 cfg n b e) := by
  unfold MshIO.loadDataEntryBinary41 loadDataEntryBinary41; along P
theorem dataEntryBinary22 (cfg : Cfg) (n : UInt64) (b : Bool) (e : DataEntry) : Along T I (MshIO.loadDataEntryBinary22 cfg n b e) (loadDataEntryBinary22 cfg n b e) := by
  unfold MshIO.loadDataEntryBinary22 loadDataEntryBinary22; along P
theorem dataEntryAscii (cfg : Cfg) (n : UInt64) (b : Bool) (e : DataEntry) : Along T I (MshIO.loadDataEntryAscii cfg n b e) (loadDataEntryAscii cfg n b e) := by
  unfold MshIO.loadDataEntryAscii loadDataEntryAscii; along P
theorem data (cfg : Cfg) (f : MeshFormat) (b : Bool) : Along T I (MshIO.loadData cfg f b) (loadData cfg f b) := by
  have := P.dataHeader cfg
  have := P.dataEntryBinary41 cfg
  have := P.dataEntryBinary22 cfg
  have := P.dataEntryAscii cfg
  unfold MshIO.loadData loadData
  refine (P.dataHeader cfg _).bind fun h => ?_
  rcases h.intTags with _ | ⟨a, _ | ⟨b, _ | ⟨c, r⟩⟩⟩ <;> simp only <;> along P
theorem dataSection (cfg : Cfg) (f : MeshFormat) (b : Bool) (ds : List Data) : Along T I (MshIO.loadDataSection cfg f b ds) (loadDataSection cfg f b ds) := by
  have := P.data cfg
  unfold MshIO.loadDataSection loadDataSection; along P

theorem curveHeader (c : Curve) : Along T I (MshIO.loadCurveHeader c) (loadCurveHeader c) := by
  unfold MshIO.loadCurveHeader loadCurveHeader; along P
theorem curves (cfg : Cfg) (f : MeshFormat) (c : List Curve) : Along T I (MshIO.loadCurves cfg f c) (loadCurves cfg f c) := by
  have := P.curveHeader
  unfold MshIO.loadCurves loadCurves MshIO.loadCurveAscii loadCurveAscii MshIO.loadCurveBinary loadCurveBinary; along P
theorem patchHeader (c : Patch) : Along T I (MshIO.loadPatchHeader c) (loadPatchHeader c) := by
  unfold MshIO.loadPatchHeader loadPatchHeader; along P
theorem patches (cfg : Cfg) (f : MeshFormat) (c : List Patch) : Along T I (MshIO.loadPatches cfg f c) (loadPatches cfg f c) := by
  have := P.patchHeader
  unfold MshIO.loadPatches loadPatches MshIO.loadPatchAscii loadPatchAscii MshIO.loadPatchBinary loadPatchBinary; along P

theorem loadSection (cfg : Cfg) (buf : Bytes) (spec : MshSpec) : Along T I (MshIO.loadSection cfg buf spec) (loadSection cfg buf spec) := by
  have := P.meshFormat
  have := P.physicalGroups cfg
  have := P.entities cfg
  have := P.nodes cfg
  have := P.elements cfg
  have := P.dataSection cfg
  have := P.curves cfg
  have := P.patches cfg
  unfold MshIO.loadSection Broken.loadSection MshIO.loadNanosplineFormat loadNanosplineFormat
  along P

end Prims

end MshIO.Broken
