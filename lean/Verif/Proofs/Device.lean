import Verif.Model.Device

/-!
# Writing to a stream that can fail

`Does w t`: on every stream, `t` ends as `w` and puts the bytes of `w` on the stream.
-/

namespace MshIO.Device

/-- The stream after output of `b`. -/
def Device.after (d : Device) (b : Bytes) : Device := (put b d).2

theorem after_nil (d : Device) : d.after [] = d := by
  unfold Device.after put
  obtain ⟨h, r, bad⟩ := d
  cases bad <;> simp

theorem after_after (d : Device) (a b : Bytes) : (d.after a).after b = d.after (a ++ b) := by
  unfold Device.after put
  obtain ⟨h, r, bad⟩ := d
  cases bad with
  | true => simp
  | false =>
    by_cases h1 : a.length ≤ r
    · by_cases h2 : a.length + b.length ≤ r
      · simp [h1, h2, show b.length ≤ r - a.length by omega]
        omega
      · simp [h1, h2, show ¬ b.length ≤ r - a.length by omega, List.take_append, List.take_of_length_le h1]
    · simp [h1, show ¬ a.length + b.length ≤ r by omega, List.take_append, show r - a.length = 0 by omega]

theorem put_eq (b : Bytes) (d : Device) : put b d = (.ok (), d.after b) := by
  unfold Device.after put
  by_cases h : d.bad
  · simp [h]
  · by_cases h2 : b.length ≤ d.room <;> simp [h, h2]

/-- On every stream, `t` ends as `w` and puts the bytes of `w` on the stream. -/
structure Does {α : Type} (w : Wr α) (t : To α) : Prop where
  run : ∀ d, t d = (w.2, d.after w.1)

namespace Does

theorem pure {α : Type} (a : α) : Does (Pure.pure a : Wr α) (Pure.pure a : To α) := ⟨fun d => by
  show (Outcome.ok a, d) = (Outcome.ok a, d.after [])
  rw [after_nil]⟩

theorem lift {α : Type} (x : Outcome α) : Does (Wr.lift x) (To.lift x) := ⟨fun d => by
  show (x, d) = (x, d.after [])
  rw [after_nil]⟩

theorem put (b : Bytes) : Does (emit b) (Device.put b) := ⟨fun d => put_eq b d⟩

theorem bind {α β : Type} {w : Wr α} {t : To α} {f : α → Wr β} {g : α → To β} (h : Does w t) (hf : ∀ a, Does (f a) (g a)) : Does (w >>= f) (t >>= g) := ⟨fun d => by
  show To.bind t g d = ((Wr.bind w f).2, d.after (Wr.bind w f).1)
  unfold To.bind Wr.bind
  rw [h.run d]
  obtain ⟨b, o⟩ := w
  cases o with
  | ok a =>
    simp only
    rw [(hf a).run, after_after]
  | _ => rfl⟩

theorem ite {α : Type} {c : Prop} [Decidable c] {w w' : Wr α} {t t' : To α} (h : Does w t) (h' : Does w' t') : Does (if c then w else w') (if c then t else t') := by
  by_cases hc : c
  · simp only [if_pos hc]; exact h
  · simp only [if_neg hc]; exact h'

theorem when {c : Bool} {w : Wr Unit} {t : To Unit} (h : Does w t) : Does (whenW c w) (whenT c t) := ite h (pure ())

theorem assert (cfg : Cfg) (c : Bool) : Does (assertW cfg c) (assertT cfg c) := ite (lift _) (pure ())

theorem writeN {α : Type} (enc : α → Bytes) (v : List α) (n : UInt64) : Does (MshIO.writeN enc v n) (writeT enc v n) := ite (put _) (lift _)

theorem forW {α : Type} {f : α → Wr Unit} {g : α → To Unit} (h : ∀ a, Does (f a) (g a)) (v : List α) : Does (MshIO.forW f v) (forT g v) := by
  induction v with
  | nil => exact pure ()
  | cons a v ih => exact bind (h a) fun _ => ih

theorem loopW {f : Nat → Wr Unit} {g : Nat → To Unit} (h : ∀ a, Does (f a) (g a)) (n : Nat) : ∀ i, Does (MshIO.loopW f n i) (loopT g n i) := by
  induction n with
  | zero => intro i; exact pure ()
  | succ n ih => intro i; exact bind (h i) fun _ => ih (i + 1)

end Does

/-- Follow the code. -/
macro "does" : tactic => `(tactic| repeat' first
  | with_reducible exact Does.pure _
  | with_reducible exact Does.lift _
  | with_reducible exact Does.put _
  | with_reducible exact Does.assert _ _
  | with_reducible exact Does.writeN _ _ _
  | with_reducible apply Does.when
  | with_reducible apply Does.ite
  | with_reducible apply Does.forW
  | with_reducible apply Does.loopW
  | with_reducible apply Does.bind
  | with_reducible assumption
  | with_reducible apply_assumption
  | intro _)

theorem does_meshFormat (f : MeshFormat) : Does (MshIO.saveMeshFormat f) (saveMeshFormat f) := by
  unfold MshIO.saveMeshFormat saveMeshFormat; does
theorem does_physicalGroups (v : List PhysicalGroup) : Does (MshIO.savePhysicalGroups v) (savePhysicalGroups v) := by
  unfold MshIO.savePhysicalGroups savePhysicalGroups; does
theorem does_pointAscii (cfg : Cfg) (p : PointEntity) : Does (MshIO.savePointAscii cfg p) (savePointAscii cfg p) := by
  unfold MshIO.savePointAscii savePointAscii; does
theorem does_boxAscii (cfg : Cfg) (p : BoxEntity) : Does (MshIO.saveBoxAscii cfg p) (saveBoxAscii cfg p) := by
  unfold MshIO.saveBoxAscii saveBoxAscii; does
theorem does_entitiesAscii41 (cfg : Cfg) (e : Entities) : Does (MshIO.saveEntitiesAscii41 cfg e) (saveEntitiesAscii41 cfg e) := by
  unfold MshIO.saveEntitiesAscii41 saveEntitiesAscii41
  have := does_pointAscii cfg
  have := does_boxAscii cfg
  does
theorem does_pointBinary (p : PointEntity) : Does (MshIO.savePointBinary p) (savePointBinary p) := by
  unfold MshIO.savePointBinary savePointBinary; does
theorem does_boxBinary (p : BoxEntity) : Does (MshIO.saveBoxBinary p) (saveBoxBinary p) := by
  unfold MshIO.saveBoxBinary saveBoxBinary; does
theorem does_entitiesBinary41 (e : Entities) : Does (MshIO.saveEntitiesBinary41 e) (saveEntitiesBinary41 e) := by
  unfold MshIO.saveEntitiesBinary41 saveEntitiesBinary41
  have := does_pointBinary
  have := does_boxBinary
  does
theorem does_entities (cfg : Cfg) (f : MeshFormat) (e : Entities) : Does (MshIO.saveEntities cfg f e) (saveEntities cfg f e) := by
  unfold MshIO.saveEntities saveEntities
  have := does_entitiesAscii41 cfg e
  have := does_entitiesBinary41 e
  does

theorem does_loopBlocks {α : Type} (v : List α) (n : UInt64) {f : α → Wr Unit} {g : α → To Unit} (h : ∀ a, Does (f a) (g a)) :
    Does (MshIO.loopBlocks v n f) (loopBlocks v n g) :=
  Does.loopW (fun _ => Does.bind (Does.lift _) h) _ _

theorem does_nodeBlockAscii41 (cfg : Cfg) (b : NodeBlock) : Does (MshIO.saveNodeBlockAscii41 cfg b) (saveNodeBlockAscii41 cfg b) := by
  unfold MshIO.saveNodeBlockAscii41 saveNodeBlockAscii41; does
theorem does_nodeBlockBinary41 (b : NodeBlock) : Does (MshIO.saveNodeBlockBinary41 b) (saveNodeBlockBinary41 b) := by
  unfold MshIO.saveNodeBlockBinary41 saveNodeBlockBinary41; does
theorem does_nodeBlockAscii22 (cfg : Cfg) (b : NodeBlock) : Does (MshIO.saveNodeBlockAscii22 cfg b) (saveNodeBlockAscii22 cfg b) := by
  unfold MshIO.saveNodeBlockAscii22 saveNodeBlockAscii22; does
theorem does_nodeBlockBinary22 (b : NodeBlock) : Does (MshIO.saveNodeBlockBinary22 b) (saveNodeBlockBinary22 b) := by
  unfold MshIO.saveNodeBlockBinary22 saveNodeBlockBinary22; does
theorem does_nodes (cfg : Cfg) (f : MeshFormat) (n : Nodes) : Does (MshIO.saveNodes cfg f n) (saveNodes cfg f n) := by
  have h1 : Does (MshIO.saveNodesAscii41 cfg n) (saveNodesAscii41 cfg n) := .bind (.put _) fun _ => does_loopBlocks _ _ (does_nodeBlockAscii41 cfg)
  have h2 : Does (MshIO.saveNodesBinary41 n) (saveNodesBinary41 n) := .bind (.put _) fun _ => does_loopBlocks _ _ does_nodeBlockBinary41
  have h3 : Does (MshIO.saveNodesAscii22 cfg n) (saveNodesAscii22 cfg n) := .bind (.put _) fun _ => does_loopBlocks _ _ (does_nodeBlockAscii22 cfg)
  have h4 : Does (MshIO.saveNodesBinary22 n) (saveNodesBinary22 n) := .bind (.put _) fun _ => does_loopBlocks _ _ does_nodeBlockBinary22
  unfold MshIO.saveNodes saveNodes; does

theorem does_elementBlockAscii41 (b : ElementBlock) : Does (MshIO.saveElementBlockAscii41 b) (saveElementBlockAscii41 b) := by
  unfold MshIO.saveElementBlockAscii41 saveElementBlockAscii41; does
theorem does_elementBlockBinary41 (b : ElementBlock) : Does (MshIO.saveElementBlockBinary41 b) (saveElementBlockBinary41 b) := by
  unfold MshIO.saveElementBlockBinary41 saveElementBlockBinary41; does
theorem does_elementBlockAscii22 (b : ElementBlock) : Does (MshIO.saveElementBlockAscii22 b) (saveElementBlockAscii22 b) := by
  unfold MshIO.saveElementBlockAscii22 saveElementBlockAscii22; does
theorem does_elementBlockBinary22 (b : ElementBlock) : Does (MshIO.saveElementBlockBinary22 b) (saveElementBlockBinary22 b) := by
  unfold MshIO.saveElementBlockBinary22 saveElementBlockBinary22; does
theorem does_elements (f : MeshFormat) (n : Elements) : Does (MshIO.saveElements f n) (saveElements f n) := by
  have h1 : Does (MshIO.saveElementsAscii41 n) (saveElementsAscii41 n) := .bind (.put _) fun _ => does_loopBlocks _ _ does_elementBlockAscii41
  have h2 : Does (MshIO.saveElementsBinary41 n) (saveElementsBinary41 n) := .bind (.put _) fun _ => does_loopBlocks _ _ does_elementBlockBinary41
  have h3 : Does (MshIO.saveElementsAscii22 n) (saveElementsAscii22 n) := .bind (.put _) fun _ => does_loopBlocks _ _ does_elementBlockAscii22
  have h4 : Does (MshIO.saveElementsBinary22 n) (saveElementsBinary22 n) := .bind (.put _) fun _ => does_loopBlocks _ _ does_elementBlockBinary22
  unfold MshIO.saveElements saveElements; does

theorem does_dataHeader (cfg : Cfg) (h : DataHeader) : Does (MshIO.saveDataHeader cfg h) (saveDataHeader cfg h) := by
  unfold MshIO.saveDataHeader saveDataHeader; does
theorem does_entryBinary (i : Bool) (e : DataEntry) : Does (MshIO.saveDataEntryBinary i e) (saveDataEntryBinary i e) := by
  unfold MshIO.saveDataEntryBinary saveDataEntryBinary; does
theorem does_entryAscii (cfg : Cfg) (i : Bool) (e : DataEntry) : Does (MshIO.saveDataEntryAscii cfg i e) (saveDataEntryAscii cfg i e) := by
  unfold MshIO.saveDataEntryAscii saveDataEntryAscii; does
theorem does_data (cfg : Cfg) (f : MeshFormat) (i : Bool) (d : Data) : Does (MshIO.saveData cfg f i d) (saveData cfg f i d) := by
  have := does_dataHeader cfg d.header
  have := does_entryBinary i
  have := does_entryAscii cfg i
  unfold MshIO.saveData saveData; does
theorem does_dataSections (cfg : Cfg) (f : MeshFormat) (name : Bytes) (i : Bool) (ds : List Data) :
    Does (MshIO.saveDataSections cfg f name i ds) (saveDataSections cfg f name i ds) := by
  have := does_data cfg f i
  unfold MshIO.saveDataSections saveDataSections; does

theorem does_knots (cfg : Cfg) (data : List Double) (ks : List UInt64) : ∀ start, Does (MshIO.saveControl.saveKnots cfg data start ks) (saveControl.saveKnots cfg data start ks) := by
  induction ks with
  | nil => intro start; exact .pure ()
  | cons k ks ih =>
    intro start
    unfold MshIO.saveControl.saveKnots saveControl.saveKnots
    does
theorem does_control (cfg : Cfg) (data : List Double) (n dim : UInt64) (ks : List UInt64) : Does (MshIO.saveControl cfg data n dim ks) (saveControl cfg data n dim ks) := by
  have := does_knots cfg data ks
  unfold MshIO.saveControl saveControl; does
theorem does_curves (cfg : Cfg) (f : MeshFormat) (cs : List Curve) : Does (MshIO.saveCurves cfg f cs) (saveCurves cfg f cs) := by
  have h1 : ∀ c, Does (MshIO.saveCurveAscii cfg c) (saveCurveAscii cfg c) := fun c => .bind (.put _) fun _ => .bind (.assert _ _) fun _ => does_control ..
  have h2 : ∀ c, Does (MshIO.saveCurveBinary cfg c) (saveCurveBinary cfg c) := fun c => .bind (.put _) fun _ => .bind (.assert _ _) fun _ => .writeN ..
  unfold MshIO.saveCurves saveCurves; does
theorem does_patches (cfg : Cfg) (f : MeshFormat) (cs : List Patch) : Does (MshIO.savePatches cfg f cs) (savePatches cfg f cs) := by
  have h1 : ∀ c, Does (MshIO.savePatchAscii cfg c) (savePatchAscii cfg c) := fun c => .bind (.put _) fun _ => .bind (.assert _ _) fun _ => does_control ..
  have h2 : ∀ c, Does (MshIO.savePatchBinary cfg c) (savePatchBinary cfg c) := fun c => .bind (.put _) fun _ => .bind (.assert _ _) fun _ => .writeN ..
  unfold MshIO.savePatches savePatches; does

/-- All of `save_msh`. -/
theorem does_msh (cfg : Cfg) (s : MshSpec) : Does (MshIO.saveMsh cfg s) (saveMsh cfg s) := by
  have := does_meshFormat s.meshFormat
  have := does_physicalGroups s.physicalGroups
  have := does_entities cfg s.meshFormat s.entities
  have := does_nodes cfg s.meshFormat s.nodes
  have := does_elements s.meshFormat s.elements
  have h1 := does_dataSections cfg s.meshFormat
  have h2 := h1 (b! "NodeData") false s.nodeData
  have h3 := h1 (b! "ElementData") false s.elementData
  have h4 := h1 (b! "ElementNodeData") true s.elementNodeData
  have h5 : Does (MshIO.saveNanosplineFormat s.nanosplineVersion) (saveNanosplineFormat s.nanosplineVersion) := .bind (.put _) fun _ => .bind (.put _) fun _ => .put _
  have := does_curves cfg s.meshFormat s.curves
  have := does_patches cfg s.meshFormat s.patches
  unfold MshIO.saveMsh saveMsh
  does

end MshIO.Device
