import Verif.Proofs.SectionUndefined
import Verif.Props.Robust
import Verif.Spec.Throws

/-!
# Which exceptions the loader throws

`Within T ab o`: if `o` is an exception it is in `T`, and it is a failed assertion only if `ab`.
-/

namespace MshIO

/-- An exception is one of `T`, and there is no failed assertion unless `ab`. -/
def Within {α : Type} (T : List Exc) (ab : Bool) (o : Outcome α) : Prop :=
  match o with
  | .throw e => e ∈ T
  | .abort => ab = true
  | _ => True

/-- The same of a reader, on every stream. -/
structure WithinR {α : Type} (T : List Exc) (ab : Bool) (p : Rd α) : Prop where
  of ::
  all : ∀ s, Within T ab (p s)

section closure
variable {α β : Type} {T : List Exc} {ab : Bool}

theorem Within.ok (v : α) : Within T ab (.ok v) := trivial
theorem Within.pure (v : α) : Within T ab (Pure.pure v : Outcome α) := trivial
theorem Within.ub : Within T ab (.ub : Outcome α) := trivial
theorem Within.throw {e : Exc} (h : e ∈ T) : Within T ab (.throw e : Outcome α) := h

theorem Within.bind {x : Outcome α} {f : α → Outcome β} (h : Within T ab x) (hf : ∀ v, x = .ok v → Within T ab (f v)) : Within T ab (x >>= f) := by
  cases x with
  | ok v => exact hf v rfl
  | throw e => exact h
  | abort => exact h
  | ub => trivial
  | hang => trivial

theorem Within.ite {c : Prop} [Decidable c] {x y : Outcome α} (h : Within T ab x) (h' : Within T ab y) : Within T ab (if c then x else y) := by split <;> assumption

theorem Within.loopO {f : Nat → β → Outcome β} (h : ∀ i v, Within T ab (f i v)) (n i : Nat) (v : β) : Within T ab (MshIO.loopO f n i v) := by
  induction n generalizing i v with
  | zero => trivial
  | succ n ih => exact Within.bind (h i v) fun _ _ => ih _ _

theorem Within.foldO {f : α → β → Outcome β} {l : List α} (h : ∀ x ∈ l, ∀ v, Within T ab (f x v)) (v : β) : Within T ab (MshIO.foldO f l v) := by
  induction l generalizing v with
  | nil => trivial
  | cons x l ih => exact Within.bind (h x (by simp) v) fun _ _ => ih (fun y hy => h y (by simp [hy])) _

theorem Within.vecGet (v : List α) (i : UInt64) : Within T ab (MshIO.vecGet v i) := by
  unfold MshIO.vecGet; split <;> trivial

theorem Within.vecSet (v : List α) (i : UInt64) (x : α) : Within T ab (MshIO.vecSet v i x) := by
  unfold MshIO.vecSet; split <;> trivial

theorem Within.vecModifyBack (v : List α) {f : α → Outcome α} (h : ∀ x, Within T ab (f x)) : Within T ab (MshIO.vecModifyBack v f) := by
  unfold MshIO.vecModifyBack
  split
  · trivial
  · exact Within.bind (h _) fun _ _ => trivial

theorem Within.vecPush (h : Exc.alloc ∈ T) (cfg : Cfg) (v : List α) (x : α) : Within T ab (MshIO.vecPush cfg v x) := by
  unfold MshIO.vecPush; split
  · trivial
  · exact h

theorem Within.vecReserve (h : Exc.alloc ∈ T) (cfg : Cfg) (n : UInt64) : Within T ab (MshIO.vecReserve cfg n) := by
  unfold MshIO.vecReserve; split
  · trivial
  · exact h

theorem Within.vecResize (h : Exc.alloc ∈ T) (cfg : Cfg) (v : List α) (n : UInt64) (x : α) : Within T ab (MshIO.vecResize cfg v n x) := by
  unfold MshIO.vecResize; split
  · trivial
  · exact h

theorem Within.nodesPerElement (h : Exc.unsupportedFeature ∈ T) (t : Int32) : Within T ab (MshIO.nodesPerElement t) := by
  unfold MshIO.nodesPerElement assertElementIsSupported
  refine Within.bind ?_ fun _ _ => Within.vecGet _ _
  split
  · exact h
  · trivial

theorem Within.getElementDim (h : Exc.unsupportedFeature ∈ T) (t : Int32) : Within T ab (MshIO.getElementDim t) := by
  unfold MshIO.getElementDim assertElementIsSupported
  refine Within.bind ?_ fun _ _ => Within.vecGet _ _
  split
  · exact h
  · trivial

theorem Within.entriesPerNode (p d : Int32) : Within T ab (MshIO.entriesPerNode p d) := by
  unfold MshIO.entriesPerNode; split
  · split <;> trivial
  · trivial

theorem WithinR.pure (v : α) : WithinR T ab (Pure.pure v : Rd α) := ⟨fun _ => trivial⟩
theorem WithinR.ub : WithinR T ab (Rd.ub : Rd α) := ⟨fun _ => trivial⟩
theorem WithinR.throw {e : Exc} (h : e ∈ T) : WithinR T ab (Rd.throw e : Rd α) := ⟨fun _ => h⟩
theorem WithinR.useVar (x : Option α) : WithinR T ab (MshIO.useVar x) := by
  cases x
  · exact WithinR.ub
  · exact WithinR.pure _

theorem WithinR.bind {p : Rd α} {f : α → Rd β} (h : WithinR T ab p) (hf : ∀ v, WithinR T ab (f v)) : WithinR T ab (p >>= f) := by
  refine ⟨fun s => ?_⟩
  rw [Rd.bind_def]
  have := h.all s
  cases hp : p s with
  | ok r => exact (hf r.1).all r.2
  | throw e => rw [hp] at this; exact this
  | abort => rw [hp] at this; exact this
  | ub => trivial
  | hang => trivial

theorem WithinR.lift {x : Outcome α} (h : Within T ab x) : WithinR T ab (Rd.lift x) := by
  refine ⟨fun s => ?_⟩
  cases x with
  | ok r => trivial
  | throw e => exact h
  | abort => exact h
  | ub => trivial
  | hang => trivial

theorem WithinR.ite {c : Prop} [Decidable c] {p q : Rd α} (h : WithinR T ab p) (h' : WithinR T ab q) : WithinR T ab (if c then p else q) := by split <;> assumption

theorem WithinR.forEach {f : α → Rd α} (h : ∀ v, WithinR T ab (f v)) (l : List α) : WithinR T ab (MshIO.forEach f l) := by
  induction l with
  | nil => exact WithinR.pure _
  | cons v l ih => exact WithinR.bind (h v) fun _ => WithinR.bind ih fun _ => WithinR.pure _

theorem WithinR.loopN {f : Nat → α → Rd α} (h : ∀ i v, WithinR T ab (f i v)) (n i : Nat) (v : α) : WithinR T ab (MshIO.loopN f n i v) := by
  induction n generalizing i v with
  | zero => exact WithinR.pure _
  | succ n ih => exact WithinR.bind (h i v) fun _ => ih _ _

theorem WithinR.resize (h : Exc.alloc ∈ T) (cfg : Cfg) (v : List α) (n : UInt64) (x : α) : WithinR T ab (MshIO.resize cfg v n x) := WithinR.lift (Within.vecResize h _ _ _ _)
theorem WithinR.pushBack (h : Exc.alloc ∈ T) (cfg : Cfg) (v : List α) (x : α) : WithinR T ab (MshIO.pushBack cfg v x) := WithinR.lift (Within.vecPush h _ _ _)

theorem WithinR.assertC (cfg : Cfg) (x : Bool) : WithinR T cfg.asserts (MshIO.assertC cfg x) := by
  refine ⟨fun s => ?_⟩
  unfold MshIO.assertC
  cases h : cfg.asserts <;> cases x <;> trivial

theorem WithinR.assertGood (cfg : Cfg) : WithinR T cfg.asserts (MshIO.assertGood cfg) := ⟨fun s => (WithinR.assertC cfg s.good).all s⟩

end closure

/-! ## Primitive readers return -/

section prim
variable {T : List Exc} {ab : Bool}

theorem withinR_extractSize : WithinR T ab extractSize := ⟨fun s => by unfold extractSize; split <;> trivial⟩
theorem withinR_extractInt : WithinR T ab extractInt := ⟨fun s => by unfold extractInt; split <;> trivial⟩
theorem withinR_extractDouble : WithinR T ab extractDouble := ⟨fun s => by unfold extractDouble; split <;> trivial⟩
theorem withinR_inSize (o : UInt64) : WithinR T ab (inSize o) := WithinR.bind withinR_extractSize fun _ => WithinR.pure _
theorem withinR_inInt (o : Int32) : WithinR T ab (inInt o) := WithinR.bind withinR_extractInt fun _ => WithinR.pure _
theorem withinR_inDouble (o : Double) : WithinR T ab (inDouble o) := WithinR.bind withinR_extractDouble fun _ => WithinR.pure _
theorem withinR_inIntVar (o : Option Int32) : WithinR T ab (inIntVar o) := WithinR.bind withinR_extractInt fun v => by cases v <;> exact WithinR.pure _
theorem withinR_inString (o : Bytes) : WithinR T ab (inString o) := ⟨fun s => by unfold inString; split <;> trivial⟩
theorem withinR_inQuoted (o : Bytes) : WithinR T ab (inQuoted o) := ⟨fun s => by
  unfold inQuoted
  split
  · trivial
  · split
    · trivial
    · exact (withinR_inString _).all _⟩
theorem withinR_readRaw (o : Bytes) : WithinR T ab (readRaw o) := ⟨fun s => by
  unfold readRaw
  split
  · split <;> trivial
  · trivial⟩
theorem withinR_readSize (o : UInt64) : WithinR T ab (readSize o) := WithinR.bind (withinR_readRaw _) fun _ => WithinR.pure _
theorem withinR_readInt (o : Int32) : WithinR T ab (readInt o) := WithinR.bind (withinR_readRaw _) fun _ => WithinR.pure _
theorem withinR_readDouble (o : Double) : WithinR T ab (readDouble o) := WithinR.bind (withinR_readRaw _) fun _ => WithinR.pure _
theorem withinR_readSizes (o : List UInt64) : WithinR T ab (readSizes o) := WithinR.bind (withinR_readRaw _) fun _ => WithinR.pure _
theorem withinR_readInts (o : List Int32) : WithinR T ab (readInts o) := WithinR.bind (withinR_readRaw _) fun _ => WithinR.pure _
theorem withinR_readDoubles (o : List Double) : WithinR T ab (readDoubles o) := WithinR.bind (withinR_readRaw _) fun _ => WithinR.pure _
theorem withinR_readSizeVar : WithinR T ab readSizeVar := ⟨fun s => by
  unfold readSizeVar
  split
  · split <;> trivial
  · trivial⟩
theorem withinR_readIntVar (o : Option Int32) : WithinR T ab (readIntVar o) := ⟨fun s => by
  cases o with
  | none =>
    show Within T ab (if s.good then _ else _)
    split
    · split <;> trivial
    · trivial
  | some v =>
    have := (withinR_readInt (T := T) (ab := ab) v).all s
    show Within T ab (match readInt v s with
      | .ok (v', s') => .ok (some v', s')
      | .throw e => .throw e
      | .abort => .abort
      | .ub => .ub
      | .hang => .hang)
    cases hr : readInt v s <;> rw [hr] at this <;> first | trivial | exact this⟩
theorem withinR_eatWhiteSpace (n : Nat) : WithinR T ab (eatWhiteSpace n) := ⟨fun s => by unfold eatWhiteSpace; split <;> trivial⟩
theorem withinR_inDoubleAt (i : UInt64) (v : List Double) : WithinR T ab (inDoubleAt i v) := by
  unfold inDoubleAt
  split
  · exact WithinR.ub
  · exact WithinR.bind (withinR_inDouble _) fun _ => WithinR.pure _
theorem withinR_inSizeAt (i : UInt64) (v : List UInt64) : WithinR T ab (inSizeAt i v) := by
  unfold inSizeAt
  split
  · exact WithinR.ub
  · exact WithinR.bind (withinR_inSize _) fun _ => WithinR.pure _

end prim

/-- Decompose a reader; the parts are known by the given lemmas. -/
macro "within" "[" ls:term,* "]" : tactic => `(tactic| repeat' first
  | with_reducible exact WithinR.pure _
  | with_reducible exact WithinR.ub
  | with_reducible exact WithinR.useVar _
  | with_reducible exact WithinR.assertGood _
  | with_reducible exact WithinR.assertC _ _
  | with_reducible exact WithinR.resize (by decide) _ _ _ _
  | with_reducible exact WithinR.pushBack (by decide) _ _ _
  | with_reducible exact WithinR.throw (by decide)
  | with_reducible exact withinR_extractSize
  | with_reducible exact withinR_extractInt
  | with_reducible exact withinR_readSizeVar
  | with_reducible exact withinR_inSize _
  | with_reducible exact withinR_inInt _
  | with_reducible exact withinR_inDouble _
  | with_reducible exact withinR_inIntVar _
  | with_reducible exact withinR_inString _
  | with_reducible exact withinR_inQuoted _
  | with_reducible exact withinR_readSize _
  | with_reducible exact withinR_readInt _
  | with_reducible exact withinR_readDouble _
  | with_reducible exact withinR_readSizes _
  | with_reducible exact withinR_readInts _
  | with_reducible exact withinR_readDoubles _
  | with_reducible exact withinR_readIntVar _
  | with_reducible exact withinR_eatWhiteSpace _
  | with_reducible exact withinR_inDoubleAt _ _
  | with_reducible exact withinR_inSizeAt _ _
  | with_reducible exact WithinR.lift (Within.nodesPerElement (by decide) _)
  | with_reducible exact WithinR.lift (Within.entriesPerNode _ _)
  | with_reducible exact WithinR.lift (Within.vecGet _ _)
  | with_reducible exact WithinR.lift (Within.vecSet _ _ _)
  | with_reducible exact WithinR.lift (Within.vecReserve (by decide) _ _)
  $[| with_reducible apply $(ls.getElems)]*
  | with_reducible refine WithinR.bind ?_ fun _ => ?_
  | with_reducible refine WithinR.ite ?_ ?_
  | with_reducible refine WithinR.forEach (fun _ => ?_) _
  | with_reducible refine WithinR.loopN (fun _ _ => ?_) _ _ _)

variable (cfg : Cfg)

theorem throws_format (f : MeshFormat) : WithinR [.unsupportedFeature] cfg.asserts (loadMeshFormat f) := by
  unfold loadMeshFormat; within []

theorem throws_groups (gs : List PhysicalGroup) : WithinR [.alloc] cfg.asserts (loadPhysicalGroups cfg gs) := by
  unfold loadPhysicalGroups loadPhysicalGroup; within []

theorem throws_intListAscii (v : List Int32) : WithinR [.alloc] cfg.asserts (loadIntListAscii cfg v) := by unfold loadIntListAscii; within []
theorem throws_intListBinary (v : List Int32) : WithinR [.alloc] cfg.asserts (loadIntListBinary cfg v) := by unfold loadIntListBinary; within []

theorem throws_entitiesAscii (e : Entities) : WithinR [.alloc] cfg.asserts (loadEntitiesAscii41 cfg e) := by
  unfold loadEntitiesAscii41 loadPointAscii loadBoxAscii; within [throws_intListAscii cfg]

theorem throws_entitiesBinary (e : Entities) : WithinR [.alloc] cfg.asserts (loadEntitiesBinary41 cfg e) := by
  unfold loadEntitiesBinary41 loadPointBinary loadBoxBinary; within [throws_intListBinary cfg]

theorem throws_nodes (f : MeshFormat) (hf : f.version = b! "2.2" ∨ f.version = b! "4.1") (n : Nodes) : WithinR [.alloc] cfg.asserts (loadNodes cfg f n) := by
  have h1 : ∀ n, WithinR [.alloc] cfg.asserts (loadNodesAscii41 cfg n) := fun n => by unfold loadNodesAscii41 loadNodeBlockAscii41; within []
  have h2 : ∀ n, WithinR [.alloc] cfg.asserts (loadNodesBinary41 cfg n) := fun n => by unfold loadNodesBinary41 loadNodeBlockBinary41; within []
  have h3 : ∀ n, WithinR [.alloc] cfg.asserts (loadNodesAscii22 cfg n) := fun n => by unfold loadNodesAscii22; within []
  have h4 : ∀ n, WithinR [.alloc] cfg.asserts (loadNodesBinary22 cfg n) := fun n => by unfold loadNodesBinary22 loadNodeBinary22; within []
  unfold loadNodes
  rcases hf with e | e <;> rw [e]
  · rw [if_neg (by decide), if_pos rfl]; within [h3, h4]
  · rw [if_pos rfl]; within [h1, h2]

theorem within_make {T : List Exc} {ab : Bool} (hT : Exc.alloc ∈ T) (hU : Exc.unsupportedFeature ∈ T) (n t : Int32) (tags ids : List Int32) (bs : List ElementBlock) (maps : List PhysMap) :
    Within T ab (makeElement22 cfg n t tags ids bs maps) := by
  unfold makeElement22
  refine Within.bind (Within.vecPush hT _ _ _) fun _ _ => Within.bind (Within.getElementDim hU _) fun _ _ => ?_
  match tags with
  | [] => exact Within.bind (Within.pure _) fun _ _ => Within.bind (Within.vecResize hT _ _ _ _) fun _ _ => Within.pure _
  | [t0] => exact Within.bind (Within.pure _) fun _ _ => Within.bind (Within.vecResize hT _ _ _ _) fun _ _ => Within.pure _
  | t0 :: t1 :: ts =>
    exact Within.bind (Within.vecGet _ _) fun _ _ => Within.bind (Within.vecSet _ _ _) fun _ _ => Within.bind (Within.pure _) fun _ _ =>
      Within.bind (Within.vecResize hT _ _ _ _) fun _ _ => Within.pure _

theorem within_create {T : List Exc} {ab : Bool} (hT : Exc.alloc ∈ T) (maps : List PhysMap) (e : Entities) : Within T ab (createAllEntities cfg maps e) := by
  have hc : ∀ {E : Type} (mk : Int32 → List Int32 → E) (p : PhysMap) (es : List E), Within T ab (createEntities cfg mk p es) := fun mk p es => by
    unfold createEntities
    exact Within.foldO (fun x _ v => Within.vecPush hT _ _ _) _
  unfold createAllEntities
  refine Within.bind (Within.vecGet _ _) fun _ _ => Within.bind (hc _ _ _) fun _ _ => Within.bind (Within.vecGet _ _) fun _ _ => Within.bind (hc _ _ _) fun _ _ => ?_
  exact Within.bind (Within.vecGet _ _) fun _ _ => Within.bind (hc _ _ _) fun _ _ => Within.bind (Within.vecGet _ _) fun _ _ => Within.bind (hc _ _ _) fun _ _ => Within.pure _

theorem throws_elements (f : MeshFormat) (hf : f.version = b! "2.2" ∨ f.version = b! "4.1") (e : Elements) (en : Entities) :
    WithinR (if f.version = b! "2.2" ∧ f.fileType ≠ 0 then [.alloc, .unsupportedFeature, .invalidFormat] else [.alloc, .unsupportedFeature]) cfg.asserts (loadElements cfg f e en) := by
  have h1 : ∀ e, WithinR [.alloc, .unsupportedFeature] cfg.asserts (loadElementsAscii41 cfg e) := fun n => by unfold loadElementsAscii41 loadElementBlockAscii41; within []
  have h2 : ∀ e, WithinR [.alloc, .unsupportedFeature] cfg.asserts (loadElementsBinary41 cfg e) := fun n => by unfold loadElementsBinary41 loadElementBlockBinary41; within []
  have h3 : ∀ e en, WithinR [.alloc, .unsupportedFeature] cfg.asserts (loadElementsAscii22 cfg e en) := fun e en => by
    unfold loadElementsAscii22 loadElementAscii22
    within [WithinR.lift (within_make cfg (by decide) (by decide) _ _ _ _ _ _), WithinR.lift (within_create cfg (by decide) _ _)]
  have h4 : ∀ n k st, WithinR [.alloc, .unsupportedFeature, .invalidFormat] cfg.asserts (loadElementGroups22 cfg n k st) := fun n k => by
    induction k with
    | zero => exact fun st => ⟨fun s => trivial⟩
    | succ k ih =>
      intro st
      rw [loadElementGroups22]
      unfold loadElementGroupBinary22 loadElementBinary22
      within [WithinR.lift (within_make cfg (by decide) (by decide) _ _ _ _ _ _), ih]
  have h5 : ∀ e en, WithinR [.alloc, .unsupportedFeature, .invalidFormat] cfg.asserts (loadElementsBinary22 cfg e en) := fun e en => by
    unfold loadElementsBinary22
    refine WithinR.bind (withinR_inSize _) fun _ => WithinR.bind (WithinR.lift (Within.vecReserve (by decide) _ _)) fun _ => WithinR.bind (withinR_eatWhiteSpace _) fun _ =>
      WithinR.bind ⟨fun s => (h4 _ _ _).all s⟩ fun _ => ?_
    within [WithinR.lift (within_create cfg (by decide) _ _)]
  unfold loadElements
  rcases hf with e | e <;> rw [e]
  · rw [if_neg (show ¬ (b! "2.2" = b! "4.1") by decide), if_pos rfl]
    by_cases ht : f.fileType = 0
    · rw [if_pos ht, if_neg (by simp [ht])]; exact h3 _ _
    · rw [if_neg ht, if_pos ⟨rfl, ht⟩]; exact h5 _ _
  · rw [if_pos rfl, if_neg (by simp)]; within [h1, h2]

theorem throws_data (f : MeshFormat) (k : Bool) (ds : List Data) : WithinR [.alloc, .invalidFormat] cfg.asserts (loadDataSection cfg f k ds) := by
  have h1 : ∀ n k e, WithinR [.alloc, .invalidFormat] cfg.asserts (loadDataEntryAscii cfg n k e) := fun n k e => by unfold loadDataEntryAscii; within []
  have h2 : ∀ n k e, WithinR [.alloc, .invalidFormat] cfg.asserts (loadDataEntryBinary41 cfg n k e) := fun n k e => by unfold loadDataEntryBinary41; within []
  have h3 : ∀ n k e, WithinR [.alloc, .invalidFormat] cfg.asserts (loadDataEntryBinary22 cfg n k e) := fun n k e => by unfold loadDataEntryBinary22; within []
  have h4 : ∀ e, WithinR [.alloc, .invalidFormat] cfg.asserts (loadDataHeader cfg e) := fun e => by unfold loadDataHeader; within []
  have h5 : WithinR [.alloc, .invalidFormat] cfg.asserts (loadData cfg f k) := by
    unfold loadData
    refine WithinR.bind (h4 _) fun hd => ?_
    split
    · within [h1, h2, h3]
    · within []
  unfold loadDataSection
  within [h5]

theorem throws_curves (f : MeshFormat) (cs : List Curve) : WithinR (if cfg.nanospline then [.alloc] else []) cfg.asserts (loadCurves cfg f cs) := by
  unfold loadCurves loadCurveAscii loadCurveBinary loadCurveHeader
  cases cfg.nanospline
  · exact WithinR.pure _
  · simp only [if_true]; within []

theorem throws_patches (f : MeshFormat) (cs : List Patch) : WithinR (if cfg.nanospline then [.alloc] else []) cfg.asserts (loadPatches cfg f cs) := by
  unfold loadPatches loadPatchAscii loadPatchBinary loadPatchHeader
  cases cfg.nanospline
  · exact WithinR.pure _
  · simp only [if_true]; within []

/-! ## Sections, the main loop, post-processing -/

theorem throws_entities (f : MeshFormat) (hf : f.version = b! "2.2" ∨ f.version = b! "4.1") (e : Entities) :
    WithinR (if f.version = b! "2.2" then [.invalidFormat] else [.alloc]) cfg.asserts (loadEntities cfg f e) := by
  unfold loadEntities
  rcases hf with e | e <;> rw [e]
  · rw [if_neg (show ¬ (b! "2.2" = b! "4.1") by decide), if_pos rfl, if_pos rfl]; within []
  · rw [if_pos rfl, if_neg (by decide)]; within [throws_entitiesAscii cfg, throws_entitiesBinary cfg]

theorem WithinR.map {α β : Type} {T : List Exc} {ab : Bool} {p : Rd α} {f : α → Rd β} (h : WithinR T ab p) (hf : ∀ v, ∃ w, f v = Pure.pure w) : WithinR T ab (p >>= f) :=
  WithinR.bind h fun v => by
    obtain ⟨w, e⟩ := hf v
    rw [e]
    exact WithinR.pure _

theorem throws_section (name : Bytes) (s : MshSpec) (hf : s.meshFormat.version = b! "2.2" ∨ s.meshFormat.version = b! "4.1") :
    WithinR (sectionThrows cfg.nanospline s.meshFormat name) cfg.asserts (loadSection cfg name s) := by
  unfold loadSection sectionThrows
  by_cases h0 : name = b! "$MeshFormat"
  · rw [if_pos h0, if_pos h0]; exact WithinR.map (throws_format cfg _) fun v => ⟨_, rfl⟩
  rw [if_neg h0, if_neg h0]
  by_cases h1 : name = b! "$Entities"
  · rw [if_pos h1, if_pos h1]; exact WithinR.map (throws_entities cfg _ hf _) fun v => ⟨_, rfl⟩
  rw [if_neg h1, if_neg h1]
  by_cases h2 : name = b! "$PhysicalNames"
  · rw [if_pos h2, if_pos (Or.inl h2)]; exact WithinR.map (throws_groups cfg _) fun v => ⟨_, rfl⟩
  rw [if_neg h2]
  by_cases h3 : name = b! "$Nodes"
  · rw [if_pos h3, if_pos (Or.inr h3)]; exact WithinR.map (throws_nodes cfg _ hf _) fun v => ⟨_, rfl⟩
  rw [if_neg h3, if_neg (fun h => h.elim h2 h3)]
  by_cases h4 : name = b! "$Elements"
  · rw [if_pos h4, if_pos h4]; exact WithinR.map (throws_elements cfg _ hf _ _) fun v => ⟨_, rfl⟩
  rw [if_neg h4, if_neg h4]
  by_cases h5 : name = b! "$NodeData"
  · rw [if_pos h5, if_pos (Or.inl h5)]; exact WithinR.map (throws_data cfg _ _ _) fun v => ⟨_, rfl⟩
  rw [if_neg h5]
  by_cases h6 : name = b! "$ElementData"
  · rw [if_pos h6, if_pos (Or.inr (Or.inl h6))]; exact WithinR.map (throws_data cfg _ _ _) fun v => ⟨_, rfl⟩
  rw [if_neg h6]
  by_cases h7 : name = b! "$ElementNodeData"
  · rw [if_pos h7, if_pos (Or.inr (Or.inr h7))]; exact WithinR.map (throws_data cfg _ _ _) fun v => ⟨_, rfl⟩
  rw [if_neg h7, if_neg (fun h => h.elim h5 fun h => h.elim h6 h7)]
  by_cases h8 : name = b! "$NanoSplineFormat"
  · rw [if_pos h8]; exact WithinR.map (withinR_inString _) fun v => ⟨_, rfl⟩
  rw [if_neg h8]
  by_cases h9 : name = b! "$Curves"
  · rw [if_pos h9]
    have := throws_curves cfg s.meshFormat s.curves
    cases hn : cfg.nanospline with
    | true => rw [if_pos ⟨rfl, Or.inl h9⟩]; rw [hn] at this; exact WithinR.map this fun v => ⟨_, rfl⟩
    | false => rw [if_neg (fun h => by cases h.1)]; rw [hn] at this; exact WithinR.map this fun v => ⟨_, rfl⟩
  rw [if_neg h9]
  by_cases h10 : name = b! "$Patches"
  · rw [if_pos h10]
    have := throws_patches cfg s.meshFormat s.patches
    cases hn : cfg.nanospline with
    | true => rw [if_pos ⟨rfl, Or.inr h10⟩]; rw [hn] at this; exact WithinR.map this fun v => ⟨_, rfl⟩
    | false => rw [if_neg (fun h => by cases h.1)]; rw [hn] at this; exact WithinR.map this fun v => ⟨_, rfl⟩
  rw [if_neg h10]
  exact WithinR.pure _

theorem within_forwardTo {T : List Exc} {ab : Bool} (m : Bytes) : WithinR T ab (forwardTo m) := by
  have : ∀ n buf, WithinR T ab (forwardToFuel m n buf) := fun n => by
    induction n with
    | zero => exact fun _ => ⟨fun _ => trivial⟩
    | succ n ih =>
      refine fun buf => ⟨fun s => ?_⟩
      rw [forwardToFuel]
      beta_reduce
      split
      · trivial
      · exact (WithinR.bind (withinR_inString _) fun _ => ih _).all s
  exact ⟨fun s => (this _ _).all s⟩

theorem within_nodesPerElement {T : List Exc} {ab : Bool} {t : Int32} {k : Nat} (h : mshNodes t = some k) : Within T ab (nodesPerElement t) := by
  rw [(nodesPerElement_of_mshNodes h).1]
  trivial

/-- What follows reading can only run out of memory: the types of all elements read are known. -/
theorem within_post (s : MshSpec) (hs : ∀ b ∈ s.elements.entityBlocks, ∃ k, mshNodes b.elementType = some k) : Within [.alloc] cfg.asserts (loadPostProcess cfg s) := by
  unfold loadPostProcess
  split
  · refine Within.bind ?_ fun _ _ => Within.bind ?_ fun _ _ => Within.pure _
    · unfold regroupNodes
      refine Within.bind (Within.vecResize (by decide) _ _ _ _) fun _ _ => Within.bind (Within.vecResize (by decide) _ _ _ _) fun _ _ => ?_
      refine Within.bind (Within.foldO (fun b hb v => ?_) _) fun _ _ => Within.bind (Within.foldO (fun b hb v => Within.loopO (fun i v => ?_) _ _ _) _) fun _ _ => Within.pure _
      · obtain ⟨k, hk⟩ := hs b hb
        refine Within.bind (within_nodesPerElement hk) fun _ _ => Within.loopO (fun i v => Within.loopO (fun j v => ?_) _ _ _) _ _ _
        exact Within.bind (Within.vecGet _ _) fun _ _ => Within.bind (Within.vecSet _ _ _) fun _ _ => Within.bind (Within.vecSet _ _ _) fun _ _ => Within.pure _
      · unfold regroupNode
        refine Within.bind (Within.vecGet _ _) fun t _ => Within.bind (Within.vecGet _ _) fun _ _ => Within.bind (Within.vecGet _ _) fun _ _ => ?_
        have h : ∀ st : Regroup, Within [.alloc] cfg.asserts (if cfg.asserts && st.blocks.isEmpty then .abort
            else do
              let blocks ← vecModifyBack st.blocks (fun c => do
                let ts ← vecPush cfg c.tags t
                let d ← vecPush cfg c.data (← vecGet b.data (UInt64.ofNat i * 3))
                let d ← vecPush cfg d (← vecGet b.data (UInt64.ofNat i * 3 + 1))
                let d ← vecPush cfg d (← vecGet b.data (UInt64.ofNat i * 3 + 2))
                return { c with tags := ts, data := d })
              return { st with blocks }) := fun st => by
          split
          · rename_i h
            show cfg.asserts = true
            cases h' : cfg.asserts
            · rw [h'] at h; simp at h
            · rfl
          · refine Within.bind (Within.vecModifyBack _ fun c => ?_) fun _ _ => Within.pure _
            refine Within.bind (Within.vecPush (by decide) _ _ _) fun _ _ => Within.bind (Within.vecGet _ _) fun _ _ => Within.bind (Within.vecPush (by decide) _ _ _) fun _ _ => ?_
            refine Within.bind (Within.vecGet _ _) fun _ _ => Within.bind (Within.vecPush (by decide) _ _ _) fun _ _ => ?_
            exact Within.bind (Within.vecGet _ _) fun _ _ => Within.bind (Within.vecPush (by decide) _ _ _) fun _ _ => Within.pure _
        dsimp only
        split
        · refine Within.bind (Within.vecReserve (by decide) _ _) fun _ _ => Within.bind (Within.vecReserve (by decide) _ _) fun _ _ =>
            Within.bind (Within.vecPush (by decide) _ _ _) fun _ _ => ?_
          exact Within.bind (Within.pure _) fun _ _ => h _
        · exact Within.bind (Within.pure _) fun _ _ => h _
    · unfold regroupElements
      refine Within.bind (Within.vecReserve (by decide) _ _) fun _ _ => Within.bind (Within.foldO (fun b hb v => ?_) _) fun _ _ => Within.pure _
      have h : ∀ st : RegroupE, Within [.alloc] cfg.asserts (do
          let blocks ← vecModifyBack st.blocks (fun c =>
            if c.data.length + b.data.length ≤ cfg.maxCount then
              .ok { c with numElementsInBlock := c.numElementsInBlock + b.numElementsInBlock
                           data := c.data ++ b.data }
            else .throw .alloc)
          return { st with blocks }) := fun st => Within.bind (Within.vecModifyBack _ fun c => Within.ite (Within.ok _) (Within.throw (by decide))) fun _ _ => Within.pure _
      unfold regroupElement
      dsimp only
      split
      · refine Within.bind (Within.vecPush (by decide) _ _ _) fun _ _ => ?_
        exact Within.bind (Within.pure _) fun _ _ => h _
      · exact Within.bind (Within.pure _) fun _ _ => h _
  · exact Within.ok _

/-- Outcomes that end the program or leave it by an exception come from a round of the main loop. -/
theorem loadFull_stops (cfg : Cfg) {o : Outcome (MshSpec × Stream)} (h1 : ∀ v, o ≠ .ok v) (h2 : o ≠ .hang) (k : Nat) :
    ∀ (spec : MshSpec) (s : Stream), s.rem.length ≤ k → loadFull cfg spec s = o →
    ∃ x, Relation.ReflTransGen (MainIter cfg) (spec, s) x ∧ x.2.eof = false ∧ loadRound cfg x.1 x.2 = o := by
  induction k using Nat.strongRecOn with
  | ind k ih =>
    intro spec s hk h
    cases he : s.eof with
    | true => rw [loadFull_eof he] at h; exact absurd h.symm (h1 _)
    | false =>
      cases hf : s.fail with
      | true => rw [loadFull_stuck hf he] at h; exact absurd h.symm h2
      | false =>
        rw [loadFull_round he, Rd.bind_def] at h
        cases hr : loadRound cfg spec s with
        | ok q =>
          rw [hr] at h
          simp only at h
          rcases loadRound_progress (by simp [Stream.good, he, hf]) hr with hp | hp
          · rw [loadFull_eof hp] at h; exact absurd h.symm (h1 _)
          · obtain ⟨x, h1, h2⟩ := ih q.2.rem.length (by omega) q.1 q.2 le_rfl h
            exact ⟨x, .head ⟨he, hr⟩ h1, h2⟩
        | ub => rw [hr] at h; exact ⟨(spec, s), .refl, he, hr.trans h⟩
        | hang => rw [hr] at h; exact ⟨(spec, s), .refl, he, hr.trans h⟩
        | throw e => rw [hr] at h; exact ⟨(spec, s), .refl, he, hr.trans h⟩
        | abort => rw [hr] at h; exact ⟨(spec, s), .refl, he, hr.trans h⟩

theorem inString_chars {st st' : Stream} {buf : Bytes} (h : inString [] st = .ok (buf, st')) : ∀ c ∈ buf, isSpace c = false := by
  unfold inString at h
  rcases hs : sentry st with ⟨b, t⟩
  rw [hs] at h
  cases b with
  | false => cases h; exact fun c hc => (List.not_mem_nil hc).elim
  | true =>
    cases h
    intro c hc
    simpa using List.mem_takeWhile_imp hc

/-- A round of the main loop throws because of the section it reads. -/
theorem round_throw {s : MshSpec} {st : Stream} {e : Exc} (h : loadRound cfg s st = .throw e) :
    ∃ w n r, Blank w ∧ (∀ c ∈ n, isSpace c = false) ∧ st = gs (w ++ 36 :: n ++ r) ∧ WsNext r ∧ loadSection cfg (36 :: n) s (payload r) = .throw e := by
  unfold loadRound at h
  rw [Rd.bind_def] at h
  cases hi : inString [] st with
  | ok x =>
    obtain ⟨buf, s'⟩ := x
    rw [hi] at h
    simp only at h
    split at h
    · rename_i rest
      obtain ⟨w, hw, hst, hs', hn⟩ := inString_at hi (by simp)
      refine ⟨w, rest, s'.rem, hw, fun c hc => inString_chars hi c (by simp [hc]), hst, hn, ?_⟩
      rw [Rd.bind_def] at h
      have e1 : payload s'.rem = s' := hs'.symm
      rw [e1]
      cases hs : loadSection cfg (36 :: rest) s s' with
      | ok q =>
        rw [hs] at h
        have := (WithinR.bind (within_forwardTo (T := []) (ab := false) (endMarker (36 :: rest))) fun _ => WithinR.pure q.1).all q.2
        simp only at h
        rw [h] at this
        cases this
      | throw x => rw [hs] at h; exact h
      | abort => rw [hs] at h; cases h
      | ub => rw [hs] at h; cases h
      | hang => rw [hs] at h; cases h
    · cases h
  | throw x => have := (withinR_inString (T := []) (ab := false) []).all st; rw [hi] at this; cases this
  | abort => rw [hi] at h; cases h
  | hang => rw [hi] at h; cases h
  | ub => rw [hi] at h; cases h

theorem round_abort {s : MshSpec} {st : Stream} (hv : s.meshFormat.version = b! "4.1" ∨ s.meshFormat.version = b! "2.2") (h : loadRound cfg s st = .abort) : cfg.asserts = true := by
  have : ∀ st, loadRound cfg s st = .abort → cfg.asserts = true := fun st h => by
    have hT : ∀ buf, WithinR [.runtimeError, .corruptData, .alloc, .unsupportedFeature, .invalidFormat] cfg.asserts (loadSection cfg buf s) := fun buf =>
      ⟨fun st => by
        have := (throws_section cfg buf s hv.symm).all st
        cases ho : loadSection cfg buf s st with
        | throw e =>
          have : ∀ e, e ∈ [Exc.runtimeError, .corruptData, .alloc, .unsupportedFeature, .invalidFormat] := fun e => by cases e <;> decide
          exact this e
        | abort => rw [ho] at this; exact this
        | _ => trivial⟩
    have hr : WithinR [.runtimeError, .corruptData, .alloc, .unsupportedFeature, .invalidFormat] cfg.asserts (loadRound cfg s) := by
      unfold loadRound
      refine WithinR.bind (withinR_inString _) fun buf => ?_
      split
      · exact WithinR.bind (hT _) fun _ => WithinR.bind (within_forwardTo _) fun _ => WithinR.pure _
      · exact WithinR.pure _
    have := hr.all st
    rw [h] at this
    exact this
  exact this st h

/-- The types of the elements read are known. -/
theorem arrives_types {file : Bytes} {x : MshSpec × Stream} (h : Arrives cfg (Stream.ofBytes file) x) : ∀ b ∈ x.1.elements.entityBlocks, ∃ k, mshNodes b.elementType = some k := by
  have : x.1.Inv cfg := (reach_keeps (F := file) (I := MshSpec.Inv cfg) (fun buf _ s hs => loadSection_post cfg buf s hs) h ⟨inv_start cfg, List.suffix_refl _⟩).1
  intro b hb
  obtain ⟨k, hk, -⟩ := (this.elements.block b hb).loaded
  exact ⟨k, hk⟩

/-- Exceptions of `load_msh`: from a section, or after reading. -/
theorem loadMsh_throw_iff (file : Bytes) (e : Exc) : loadMsh cfg file = .throw e ↔
    (∃ s name r, (∃ n, name = 36 :: n ∧ ∀ c ∈ n, isSpace c = false) ∧ ArrivesAt cfg file s name r ∧ loadSection cfg name s (payload r) = .throw e) ∨
    ∃ s st, Arrives cfg (Stream.ofBytes file) (s, st) ∧ st.eof = true ∧ loadPostProcess cfg s = .throw e := by
  unfold loadMsh
  rw [loadStream_eq]
  constructor
  · intro h
    cases hf : loadFull cfg {} (Stream.ofBytes file) with
    | ok x =>
      rw [hf] at h
      obtain ⟨h1, h2⟩ := loadFull_ok cfg _ _ _ x le_rfl hf
      exact Or.inr ⟨x.1, x.2, h1, h2, h⟩
    | throw e' =>
      rw [hf] at h
      obtain ⟨x, h1, h2, h3⟩ := loadFull_stops cfg (by simp) (by simp) _ _ _ le_rfl hf
      obtain ⟨w, n, r, hw, hn, hst, hr, hs⟩ := round_throw cfg h3
      cases h
      refine Or.inl ⟨x.1, 36 :: n, r, ⟨n, rfl, hn⟩, ⟨hr, w, hw, ?_⟩, hs⟩
      have : x = (x.1, gs (w ++ 36 :: n ++ r)) := Prod.ext rfl hst
      rw [this] at h1
      exact h1
    | ub => rw [hf] at h; cases h
    | abort => rw [hf] at h; cases h
    | hang => rw [hf] at h; cases h
  · rintro (⟨s, name, r, ⟨n, rfl, hn⟩, ⟨hr, w, hw, ha⟩, hs⟩ | ⟨s, st, ha, he, hr⟩)
    · have h1 := loadFull_reach ha
      simp only at h1
      rw [h1, loadFull_round rfl, Rd.bind_def]
      have : loadRound cfg s ⟨w ++ 36 :: n ++ r, false, false⟩ = .throw e := by
        unfold loadRound
        have := inString_end (b := r) [] (tag_word hn) ?_ hw
        · rw [Rd.bind_ok this]
          exact Rd.bind_throw hs
        · cases r with
          | nil => exact Or.inl rfl
          | cons c r => exact Or.inr ⟨c, r, rfl, hr c rfl⟩
      rw [this]
    · have h1 := loadFull_reach ha
      simp only at h1
      rw [h1, loadFull_eof he]
      exact hr

/-- A failed assertion needs assertions. -/
theorem loadMsh_abort {file : Bytes} (h : loadMsh cfg file = .abort) : cfg.asserts = true := by
  unfold loadMsh at h
  rw [loadStream_eq] at h
  cases hf : loadFull cfg {} (Stream.ofBytes file) with
  | ok x =>
    rw [hf] at h
    obtain ⟨h1, h2⟩ := loadFull_ok cfg _ _ _ x le_rfl hf
    have := within_post cfg x.1 (arrives_types cfg h1)
    simp only at h
    rw [h] at this
    exact this
  | abort =>
    obtain ⟨x, h1, h2, h3⟩ := loadFull_stops cfg (by simp) (by simp) _ _ _ le_rfl hf
    exact round_abort cfg (arrives_version h1) h3
  | ub => rw [hf] at h; cases h
  | throw e => rw [hf] at h; cases h
  | hang => rw [hf] at h; cases h

end MshIO
