import Verif.Proofs.Loop
import Verif.Model.Save
import Verif.Spec.Builds

/-!
# Two builds run side by side

`Under a m p q`: the reader `p` of one build does what the reader `q` of the other does, or stops: by an assertion (if `a`), for want of memory (if `m`).
-/

namespace MshIO

/-- The two readers agree, or the first one stops. -/
structure Under {α : Type} (a m : Bool) (p q : Rd α) : Prop where
  of ::
  all : ∀ s, StopsOr a m (p s) (q s)

section closure
variable {α β : Type} {a m : Bool}

theorem StopsOr.refl (x : Outcome α) : StopsOr a m x x := Or.inr (Or.inr rfl)

theorem StopsOr.bind {x y : Outcome α} {f g : α → Outcome β} (h : StopsOr a m x y) (hf : ∀ v, StopsOr a m (f v) (g v)) : StopsOr a m (x >>= f) (y >>= g) := by
  rcases h with ⟨h, rfl⟩ | ⟨h, rfl⟩ | rfl
  · exact Or.inl ⟨h, rfl⟩
  · exact Or.inr (Or.inl ⟨h, rfl⟩)
  · cases x with
    | ok v => exact hf v
    | throw e => exact StopsOr.refl _
    | abort => exact StopsOr.refl _
    | ub => exact StopsOr.refl _
    | hang => exact StopsOr.refl _

theorem Under.refl (p : Rd α) : Under a m p p := ⟨fun _ => StopsOr.refl _⟩

theorem Under.bind {p q : Rd α} {f g : α → Rd β} (h : Under a m p q) (hf : ∀ v, Under a m (f v) (g v)) : Under a m (p >>= f) (q >>= g) := by
  refine ⟨fun s => ?_⟩
  rw [Rd.bind_def, Rd.bind_def]
  rcases h.all s with ⟨h, e⟩ | ⟨h, e⟩ | e
  · rw [e]; exact Or.inl ⟨h, rfl⟩
  · rw [e]; exact Or.inr (Or.inl ⟨h, rfl⟩)
  · rw [e]
    cases q s with
    | ok r => obtain ⟨v, t⟩ := r; exact (hf v).all t
    | throw e => exact StopsOr.refl _
    | abort => exact StopsOr.refl _
    | ub => exact StopsOr.refl _
    | hang => exact StopsOr.refl _

theorem Under.lift {x y : Outcome α} (h : StopsOr a m x y) : Under a m (Rd.lift x) (Rd.lift y) := by
  refine ⟨fun s => ?_⟩
  rcases h with ⟨h, rfl⟩ | ⟨h, rfl⟩ | rfl
  · exact Or.inl ⟨h, rfl⟩
  · exact Or.inr (Or.inl ⟨h, rfl⟩)
  · exact StopsOr.refl _

theorem Under.ite {c : Prop} [Decidable c] {p q p' q' : Rd α} (h : Under a m p p') (h' : Under a m q q') : Under a m (if c then p else q) (if c then p' else q') := by
  split <;> assumption

theorem Under.forEach {f g : α → Rd α} (h : ∀ v, Under a m (f v) (g v)) (l : List α) : Under a m (MshIO.forEach f l) (MshIO.forEach g l) := by
  induction l with
  | nil => exact Under.refl _
  | cons v l ih => exact Under.bind (h v) fun _ => Under.bind ih fun _ => Under.refl _

theorem Under.loopN {f g : Nat → α → Rd α} (h : ∀ i v, Under a m (f i v) (g i v)) (n i : Nat) (v : α) : Under a m (MshIO.loopN f n i v) (MshIO.loopN g n i v) := by
  induction n generalizing i v with
  | zero => exact Under.refl _
  | succ n ih => exact Under.bind (h i v) fun _ => ih _ _

theorem StopsOr.foldO {f g : α → β → Outcome β} (h : ∀ x v, StopsOr a m (f x v) (g x v)) (l : List α) (v : β) : StopsOr a m (MshIO.foldO f l v) (MshIO.foldO g l v) := by
  induction l generalizing v with
  | nil => exact StopsOr.refl _
  | cons x l ih => exact StopsOr.bind (h x v) fun _ => ih _

theorem StopsOr.loopO {f g : Nat → β → Outcome β} (h : ∀ i v, StopsOr a m (f i v) (g i v)) (n i : Nat) (v : β) : StopsOr a m (MshIO.loopO f n i v) (MshIO.loopO g n i v) := by
  induction n generalizing i v with
  | zero => exact StopsOr.refl _
  | succ n ih => exact StopsOr.bind (h i v) fun _ => ih _ _

end closure

section builds
variable {a m : Bool} {c d : Cfg} (h : Builds a m c d)
include h

theorem under_assertC (x : Bool) : Under a m (assertC c x) (assertC d x) := by
  refine ⟨fun s => ?_⟩
  unfold assertC
  rcases h.asserts with e | ⟨ha, e⟩
  · rw [e]; exact StopsOr.refl _
  · rw [e]
    cases c.asserts <;> cases x
    · exact StopsOr.refl _
    · exact StopsOr.refl _
    · exact Or.inl ⟨ha, rfl⟩
    · exact StopsOr.refl _

theorem under_assertGood : Under a m (assertGood c) (assertGood d) := ⟨fun s => (under_assertC h s.good).all s⟩

theorem stops_resize {α : Type} (v : List α) (n : UInt64) (x : α) : StopsOr a m (vecResize c v n x) (vecResize d v n x) := by
  unfold vecResize
  rcases h.memory with e | ⟨hm, e⟩
  · rw [e]; exact StopsOr.refl _
  · by_cases h1 : n.toNat ≤ c.maxCount
    · rw [if_pos h1, if_pos (h1.trans e)]; exact StopsOr.refl _
    · rw [if_neg h1]; exact Or.inr (Or.inl ⟨hm, rfl⟩)

theorem stops_reserve (n : UInt64) : StopsOr a m (vecReserve c n) (vecReserve d n) := by
  unfold vecReserve
  rcases h.memory with e | ⟨hm, e⟩
  · rw [e]; exact StopsOr.refl _
  · by_cases h1 : n.toNat ≤ c.maxCount
    · rw [if_pos h1, if_pos (h1.trans e)]; exact StopsOr.refl _
    · rw [if_neg h1]; exact Or.inr (Or.inl ⟨hm, rfl⟩)

theorem stops_push {α : Type} (v : List α) (x : α) : StopsOr a m (vecPush c v x) (vecPush d v x) := by
  unfold vecPush
  rcases h.memory with e | ⟨hm, e⟩
  · rw [e]; exact StopsOr.refl _
  · by_cases h1 : v.length < c.maxCount
    · rw [if_pos h1, if_pos (h1.trans_le e)]; exact StopsOr.refl _
    · rw [if_neg h1]; exact Or.inr (Or.inl ⟨hm, rfl⟩)

theorem under_resize {α : Type} (v : List α) (n : UInt64) (x : α) : Under a m (resize c v n x) (resize d v n x) := Under.lift (stops_resize h v n x)
theorem under_pushBack {α : Type} (v : List α) (x : α) : Under a m (pushBack c v x) (pushBack d v x) := Under.lift (stops_push h v x)

end builds

/-- Decompose a reader that is the same program in both builds; the parts are known by the given lemmas. -/
macro "under" h:term "with" ls:term,+ : tactic => `(tactic| repeat' first
  | with_reducible exact Under.refl _
  | with_reducible exact under_resize $h _ _ _
  | with_reducible exact under_pushBack $h _ _
  | with_reducible exact under_assertGood $h
  | with_reducible exact under_assertC $h _
  $[| with_reducible apply $(ls.getElems)]*
  | with_reducible refine Under.bind ?_ fun _ => ?_
  | with_reducible refine Under.ite ?_ ?_
  | with_reducible refine Under.forEach (fun _ => ?_) _
  | with_reducible refine Under.loopN (fun _ _ => ?_) _ _ _)

macro "under" h:term : tactic => `(tactic| under $h with under_resize $h)

section builds
variable {a m : Bool} {c d : Cfg} (h : Builds a m c d)
include h

theorem under_groups (gs : List PhysicalGroup) : Under a m (loadPhysicalGroups c gs) (loadPhysicalGroups d gs) := by
  unfold loadPhysicalGroups; under h

theorem under_intListAscii (v : List Int32) : Under a m (loadIntListAscii c v) (loadIntListAscii d v) := by unfold loadIntListAscii; under h
theorem under_intListBinary (v : List Int32) : Under a m (loadIntListBinary c v) (loadIntListBinary d v) := by unfold loadIntListBinary; under h
theorem under_pointAscii (v) : Under a m (loadPointAscii c v) (loadPointAscii d v) := by unfold loadPointAscii; under h with under_intListAscii h
theorem under_boxAscii (v) : Under a m (loadBoxAscii c v) (loadBoxAscii d v) := by unfold loadBoxAscii; under h with under_intListAscii h
theorem under_pointBinary (v) : Under a m (loadPointBinary c v) (loadPointBinary d v) := by unfold loadPointBinary; under h with under_intListBinary h
theorem under_boxBinary (v) : Under a m (loadBoxBinary c v) (loadBoxBinary d v) := by unfold loadBoxBinary; under h with under_intListBinary h

theorem under_entities (f : MeshFormat) (e : Entities) : Under a m (loadEntities c f e) (loadEntities d f e) := by
  unfold loadEntities loadEntitiesAscii41 loadEntitiesBinary41
  under h with under_pointAscii h, under_boxAscii h, under_pointBinary h, under_boxBinary h

theorem under_nodes (f : MeshFormat) (n : Nodes) : Under a m (loadNodes c f n) (loadNodes d f n) := by
  unfold loadNodes
  have h1 : ∀ b, Under a m (loadNodeBlockAscii41 c b) (loadNodeBlockAscii41 d b) := fun b => by unfold loadNodeBlockAscii41; under h
  have h2 : ∀ b, Under a m (loadNodeBlockBinary41 c b) (loadNodeBlockBinary41 d b) := fun b => by unfold loadNodeBlockBinary41; under h
  have h3 : ∀ i b, Under a m (loadNodeBinary22 c i b) (loadNodeBinary22 d i b) := fun i b => by unfold loadNodeBinary22; under h
  have h4 : ∀ n, Under a m (loadNodesAscii41 c n) (loadNodesAscii41 d n) := fun n => by unfold loadNodesAscii41; under h with h1
  have h5 : ∀ n, Under a m (loadNodesBinary41 c n) (loadNodesBinary41 d n) := fun n => by unfold loadNodesBinary41; under h with h2
  have h6 : ∀ n, Under a m (loadNodesAscii22 c n) (loadNodesAscii22 d n) := fun n => by unfold loadNodesAscii22; under h
  have h7 : ∀ n, Under a m (loadNodesBinary22 c n) (loadNodesBinary22 d n) := fun n => by unfold loadNodesBinary22; under h with h3
  under h with h4, h5, h6, h7

theorem stops_make (n t : Int32) (tags ids : List Int32) (bs : List ElementBlock) (maps : List PhysMap) :
    StopsOr a m (makeElement22 c n t tags ids bs maps) (makeElement22 d n t tags ids bs maps) := by
  unfold makeElement22
  refine StopsOr.bind (stops_push h _ _) fun _ => StopsOr.bind (StopsOr.refl _) fun _ => ?_
  match tags with
  | [] => exact StopsOr.bind (StopsOr.refl _) fun x => StopsOr.bind (stops_resize h _ _ _) fun _ => StopsOr.refl _
  | [t0] => exact StopsOr.bind (StopsOr.refl _) fun x => StopsOr.bind (stops_resize h _ _ _) fun _ => StopsOr.refl _
  | t0 :: t1 :: ts =>
    exact StopsOr.bind (StopsOr.refl _) fun x => StopsOr.bind (StopsOr.refl _) fun x => StopsOr.bind (StopsOr.refl _) fun x => StopsOr.bind (stops_resize h _ _ _) fun _ => StopsOr.refl _

theorem stops_create (maps : List PhysMap) (e : Entities) : StopsOr a m (createAllEntities c maps e) (createAllEntities d maps e) := by
  unfold createAllEntities
  have hc : ∀ {E : Type} (mk : Int32 → List Int32 → E) (p : PhysMap) (es : List E), StopsOr a m (createEntities c mk p es) (createEntities d mk p es) := fun mk p es => by
    unfold createEntities
    exact StopsOr.foldO (fun x v => stops_push h _ _) _ _
  refine StopsOr.bind (StopsOr.refl _) fun _ => StopsOr.bind (hc _ _ _) fun _ => StopsOr.bind (StopsOr.refl _) fun _ => StopsOr.bind (hc _ _ _) fun _ => ?_
  refine StopsOr.bind (StopsOr.refl _) fun _ => StopsOr.bind (hc _ _ _) fun _ => StopsOr.bind (StopsOr.refl _) fun _ => StopsOr.bind (hc _ _ _) fun _ => StopsOr.refl _

theorem under_elements (f : MeshFormat) (e : Elements) (en : Entities) : Under a m (loadElements c f e en) (loadElements d f e en) := by
  unfold loadElements
  have h1 : ∀ b, Under a m (loadElementBlockAscii41 c b) (loadElementBlockAscii41 d b) := fun b => by unfold loadElementBlockAscii41; under h
  have h2 : ∀ b, Under a m (loadElementBlockBinary41 c b) (loadElementBlockBinary41 d b) := fun b => by unfold loadElementBlockBinary41; under h
  have h4 : ∀ n, Under a m (loadElementsAscii41 c n) (loadElementsAscii41 d n) := fun n => by unfold loadElementsAscii41; under h with h1
  have h5 : ∀ n, Under a m (loadElementsBinary41 c n) (loadElementsBinary41 d n) := fun n => by unfold loadElementsBinary41; under h with h2
  have hm : ∀ n t tags ids bs maps, Under a m (Rd.lift (makeElement22 c n t tags ids bs maps)) (Rd.lift (makeElement22 d n t tags ids bs maps)) :=
    fun _ _ _ _ _ _ => Under.lift (stops_make h _ _ _ _ _ _)
  have hc : ∀ maps en, Under a m (Rd.lift (createAllEntities c maps en)) (Rd.lift (createAllEntities d maps en)) := fun _ _ => Under.lift (stops_create h _ _)
  have hr : ∀ n, Under a m (Rd.lift (vecReserve c n)) (Rd.lift (vecReserve d n)) := fun _ => Under.lift (stops_reserve h _)
  have h6 : ∀ st, Under a m (loadElementAscii22 c st) (loadElementAscii22 d st) := fun st => by unfold loadElementAscii22; under h with hm
  have h7 : ∀ e en, Under a m (loadElementsAscii22 c e en) (loadElementsAscii22 d e en) := fun e en => by unfold loadElementsAscii22; under h with h6, hc
  have h8 : ∀ n t k st, Under a m (loadElementBinary22 c n t k st) (loadElementBinary22 d n t k st) := fun n t k st => by unfold loadElementBinary22; under h with hm
  have h9 : ∀ n st, Under a m (loadElementGroupBinary22 c n st) (loadElementGroupBinary22 d n st) := fun n st => by unfold loadElementGroupBinary22; under h with h8
  have h10 : ∀ n k st, Under a m (loadElementGroups22 c n k st) (loadElementGroups22 d n k st) := fun n k => by
    induction k with
    | zero => exact fun st => Under.refl _
    | succ k ih => intro st; rw [loadElementGroups22, loadElementGroups22]; under h with h9, ih
  have h11 : ∀ e en, Under a m (loadElementsBinary22 c e en) (loadElementsBinary22 d e en) := fun e en => by
    unfold loadElementsBinary22
    refine Under.bind (Under.refl _) fun _ => Under.bind (hr _) fun _ => Under.bind (Under.refl _) fun _ => Under.bind ⟨fun s => (h10 _ _ _).all s⟩ fun _ => ?_
    under h with hc
  under h with h4, h5, h7, h11

theorem under_data (f : MeshFormat) (k : Bool) (ds : List Data) : Under a m (loadDataSection c f k ds) (loadDataSection d f k ds) := by
  unfold loadDataSection
  have h1 : ∀ f k e, Under a m (loadDataEntryAscii c f k e) (loadDataEntryAscii d f k e) := fun f k e => by unfold loadDataEntryAscii; under h
  have h2 : ∀ f k e, Under a m (loadDataEntryBinary41 c f k e) (loadDataEntryBinary41 d f k e) := fun f k e => by unfold loadDataEntryBinary41; under h
  have h3 : ∀ f k e, Under a m (loadDataEntryBinary22 c f k e) (loadDataEntryBinary22 d f k e) := fun f k e => by unfold loadDataEntryBinary22; under h
  have h4 : ∀ e, Under a m (loadDataHeader c e) (loadDataHeader d e) := fun e => by unfold loadDataHeader; under h
  have h5 : Under a m (loadData c f k) (loadData d f k) := by
    unfold loadData
    refine Under.bind (h4 _) fun hd => ?_
    split
    · under h with h1, h2, h3
    · exact Under.refl _
  under h with h5

theorem under_curves (f : MeshFormat) (cs : List Curve) : Under a m (loadCurves c f cs) (loadCurves d f cs) := by
  unfold loadCurves
  have h1 : ∀ e, Under a m (loadCurveAscii c e) (loadCurveAscii d e) := fun e => by unfold loadCurveAscii; under h
  have h2 : ∀ e, Under a m (loadCurveBinary c e) (loadCurveBinary d e) := fun e => by unfold loadCurveBinary; under h
  rw [h.nanospline]
  under h with h1, h2

theorem under_patches (f : MeshFormat) (cs : List Patch) : Under a m (loadPatches c f cs) (loadPatches d f cs) := by
  unfold loadPatches
  have h1 : ∀ e, Under a m (loadPatchAscii c e) (loadPatchAscii d e) := fun e => by unfold loadPatchAscii; under h
  have h2 : ∀ e, Under a m (loadPatchBinary c e) (loadPatchBinary d e) := fun e => by unfold loadPatchBinary; under h
  rw [h.nanospline]
  under h with h1, h2

theorem under_section (name : Bytes) (s : MshSpec) : Under a m (loadSection c name s) (loadSection d name s) := by
  unfold loadSection
  under h with under_entities h, under_groups h, under_nodes h, under_elements h, under_data h, under_curves h, under_patches h

theorem under_round (s : MshSpec) : Under a m (loadRound c s) (loadRound d s) := by
  unfold loadRound
  refine Under.bind (Under.refl _) fun buf => ?_
  split
  · under h with under_section h
  · exact Under.refl _

theorem under_loop (n : Nat) (s : MshSpec) : Under a m (loadLoop c n s) (loadLoop d n s) := by
  induction n generalizing s with
  | zero => exact Under.refl _
  | succ n ih =>
    refine ⟨fun t => ?_⟩
    unfold loadLoop
    split
    · exact StopsOr.refl _
    · exact (Under.bind (under_round h s) ih).all t

theorem stops_regroupNode (t : UInt64) (x y : List UInt64) (b : NodeBlock) (i : Nat) (st : Regroup) : StopsOr a m (regroupNode c t x y b i st) (regroupNode d t x y b i st) := by
  unfold regroupNode
  have hk : ∀ (t : UInt64) (st : Regroup), StopsOr a m
      (if c.asserts && st.blocks.isEmpty then .abort else do
        let blocks ← vecModifyBack st.blocks (fun e => do
          let ts ← vecPush c e.tags t
          let q ← vecPush c e.data (← vecGet b.data (UInt64.ofNat i * 3))
          let q ← vecPush c q (← vecGet b.data (UInt64.ofNat i * 3 + 1))
          let q ← vecPush c q (← vecGet b.data (UInt64.ofNat i * 3 + 2))
          return { e with tags := ts, data := q })
        return { st with blocks } : Outcome Regroup)
      (if d.asserts && st.blocks.isEmpty then .abort else do
        let blocks ← vecModifyBack st.blocks (fun e => do
          let ts ← vecPush d e.tags t
          let q ← vecPush d e.data (← vecGet b.data (UInt64.ofNat i * 3))
          let q ← vecPush d q (← vecGet b.data (UInt64.ofNat i * 3 + 1))
          let q ← vecPush d q (← vecGet b.data (UInt64.ofNat i * 3 + 2))
          return { e with tags := ts, data := q })
        return { st with blocks }) := by
    intro t st
    have hb : StopsOr a m (do
        let blocks ← vecModifyBack st.blocks (fun e => do
          let ts ← vecPush c e.tags t
          let q ← vecPush c e.data (← vecGet b.data (UInt64.ofNat i * 3))
          let q ← vecPush c q (← vecGet b.data (UInt64.ofNat i * 3 + 1))
          let q ← vecPush c q (← vecGet b.data (UInt64.ofNat i * 3 + 2))
          return { e with tags := ts, data := q })
        return { st with blocks } : Outcome Regroup) (do
        let blocks ← vecModifyBack st.blocks (fun e => do
          let ts ← vecPush d e.tags t
          let q ← vecPush d e.data (← vecGet b.data (UInt64.ofNat i * 3))
          let q ← vecPush d q (← vecGet b.data (UInt64.ofNat i * 3 + 1))
          let q ← vecPush d q (← vecGet b.data (UInt64.ofNat i * 3 + 2))
          return { e with tags := ts, data := q })
        return { st with blocks }) := by
      refine StopsOr.bind ?_ fun _ => StopsOr.refl _
      unfold vecModifyBack
      split
      · exact StopsOr.refl _
      · refine StopsOr.bind ?_ fun _ => StopsOr.refl _
        refine StopsOr.bind (stops_push h _ _) fun _ => StopsOr.bind (StopsOr.refl _) fun _ => StopsOr.bind (stops_push h _ _) fun _ => ?_
        refine StopsOr.bind (StopsOr.refl _) fun _ => StopsOr.bind (stops_push h _ _) fun _ => ?_
        exact StopsOr.bind (StopsOr.refl _) fun _ => StopsOr.bind (stops_push h _ _) fun _ => StopsOr.refl _
    rcases h.asserts with e | ⟨ha, e⟩
    · rw [e]
      split
      · exact StopsOr.refl _
      · exact hb
    · by_cases hx : (c.asserts && st.blocks.isEmpty) = true
      · rw [if_pos hx]; exact Or.inl ⟨ha, rfl⟩
      · rw [if_neg hx, e]; exact hb
  refine StopsOr.bind (StopsOr.refl _) fun t => StopsOr.bind (StopsOr.refl _) fun dim => StopsOr.bind (StopsOr.refl _) fun tag => ?_
  split
  · refine StopsOr.bind (stops_reserve h _) fun _ => StopsOr.bind (stops_reserve h _) fun _ => StopsOr.bind (stops_push h _ _) fun _ => ?_
    exact hk _ _
  · exact hk _ _

theorem stops_regroupElement (b : ElementBlock) (st : RegroupE) : StopsOr a m (regroupElement c b st) (regroupElement d b st) := by
  unfold regroupElement
  have hk : ∀ st : RegroupE, StopsOr a m (do
      let blocks ← vecModifyBack st.blocks (fun e =>
        if e.data.length + b.data.length ≤ c.maxCount then
          .ok { e with numElementsInBlock := e.numElementsInBlock + b.numElementsInBlock, data := e.data ++ b.data }
        else .throw .alloc)
      return { st with blocks } : Outcome RegroupE) (do
      let blocks ← vecModifyBack st.blocks (fun e =>
        if e.data.length + b.data.length ≤ d.maxCount then
          .ok { e with numElementsInBlock := e.numElementsInBlock + b.numElementsInBlock, data := e.data ++ b.data }
        else .throw .alloc)
      return { st with blocks }) := by
    intro st
    refine StopsOr.bind ?_ fun _ => StopsOr.refl _
    unfold vecModifyBack
    split
    · exact StopsOr.refl _
    · refine StopsOr.bind ?_ fun _ => StopsOr.refl _
      rcases h.memory with e | ⟨hm, e⟩
      · rw [e]; exact StopsOr.refl _
      · beta_reduce
        split
        · rename_i h1; rw [if_pos (h1.trans e)]; exact StopsOr.refl _
        · exact Or.inr (Or.inl ⟨hm, rfl⟩)
  split
  · exact StopsOr.bind (stops_push h _ _) fun _ => hk _
  · exact hk _

theorem stops_post (s : MshSpec) : StopsOr a m (loadPostProcess c s) (loadPostProcess d s) := by
  unfold loadPostProcess
  split
  · refine StopsOr.bind ?_ fun _ => StopsOr.bind ?_ fun _ => StopsOr.refl _
    · unfold regroupNodes
      refine StopsOr.bind (stops_resize h _ _ _) fun _ => StopsOr.bind (stops_resize h _ _ _) fun _ => StopsOr.bind (StopsOr.refl _) fun _ => ?_
      exact StopsOr.bind (StopsOr.foldO (fun b st => StopsOr.loopO (fun i st => stops_regroupNode h _ _ _ _ _ _) _ _ _) _ _) fun _ => StopsOr.refl _
    · unfold regroupElements
      exact StopsOr.bind (stops_reserve h _) fun _ => StopsOr.bind (StopsOr.foldO (fun b st => stops_regroupElement h _ _) _ _) fun _ => StopsOr.refl _
  · exact StopsOr.refl _

theorem stops_load (s : Stream) : StopsOr a m (loadStream c s) (loadStream d s) := by
  unfold loadStream
  rcases (under_loop h (s.rem.length + 2) {}).all s with ⟨ha, e⟩ | ⟨hm, e⟩ | e
  · rw [e]; exact Or.inl ⟨ha, rfl⟩
  · rw [e]; exact Or.inr (Or.inl ⟨hm, rfl⟩)
  · rw [e]
    split
    · exact stops_post h _
    all_goals exact StopsOr.refl _

end builds

/-! ## Writing -/

/-- The two writers agree, or the first one is stopped by an assertion and has written the beginning of what the second one writes. -/
structure UnderW {α : Type} (p q : Wr α) : Prop where
  of ::
  all : p = q ∨ p.2 = .abort ∧ p.1 <+: q.1

theorem UnderW.refl {α : Type} (p : Wr α) : UnderW p p := ⟨Or.inl rfl⟩

theorem Wr.bind_prefix {α β : Type} (p : Wr α) (f : α → Wr β) : p.1 <+: (p >>= f).1 := by
  obtain ⟨b, o⟩ := p
  cases o <;> first | exact List.prefix_append _ _ | exact List.prefix_refl _

theorem UnderW.bind {α β : Type} {p q : Wr α} {f g : α → Wr β} (h : UnderW p q) (hf : ∀ v, UnderW (f v) (g v)) : UnderW (p >>= f) (q >>= g) := by
  rcases h.all with rfl | ⟨h1, h2⟩
  · obtain ⟨b, o⟩ := p
    cases o with
    | ok v =>
      rcases (hf v).all with e | ⟨e1, e2⟩
      · refine ⟨Or.inl ?_⟩
        show (b ++ (f v).1, (f v).2) = (b ++ (g v).1, (g v).2)
        rw [e]
      · exact ⟨Or.inr ⟨e1, by show b ++ (f v).1 <+: b ++ (g v).1; exact (List.prefix_append_right_inj b).mpr e2⟩⟩
    | throw e => exact UnderW.refl _
    | abort => exact UnderW.refl _
    | ub => exact UnderW.refl _
    | hang => exact UnderW.refl _
  · obtain ⟨b, o⟩ := p
    simp only at h1 h2
    subst h1
    exact ⟨Or.inr ⟨rfl, h2.trans (Wr.bind_prefix q g)⟩⟩

theorem UnderW.forW {α : Type} {f g : α → Wr Unit} (h : ∀ v, UnderW (f v) (g v)) (l : List α) : UnderW (MshIO.forW f l) (MshIO.forW g l) := by
  induction l with
  | nil => exact UnderW.refl _
  | cons v l ih => exact UnderW.bind (h v) fun _ => ih

theorem UnderW.when {p q : Wr Unit} (c : Bool) (h : UnderW p q) : UnderW (whenW c p) (whenW c q) := by
  cases c
  · exact UnderW.refl _
  · exact h

theorem underW_save {c d : Cfg} (hn : c.nanospline = d.nanospline) (hf : c.fmt = d.fmt) (ha : d.asserts = true → c.asserts = true) (s : MshSpec) : UnderW (saveMsh c s) (saveMsh d s) := by
  obtain ⟨ca, cn, cf, cm, hcm⟩ := c
  obtain ⟨da, dn, df, dm, hdm⟩ := d
  simp only at hn hf ha
  subst hn hf
  have hw : ∀ x, UnderW (assertW ⟨ca, cn, cf, cm, hcm⟩ x) (assertW ⟨da, cn, cf, dm, hdm⟩ x) := fun x => by
    cases da
    · cases ca <;> cases x
      · exact UnderW.refl _
      · exact UnderW.refl _
      · exact ⟨Or.inr ⟨rfl, List.nil_prefix⟩⟩
      · exact UnderW.refl _
    · rw [show ca = true from ha rfl]; exact UnderW.refl _
  have hk : ∀ data st ks, saveControl.saveKnots ⟨ca, cn, cf, cm, hcm⟩ data st ks = saveControl.saveKnots ⟨da, cn, cf, dm, hdm⟩ data st ks := fun data st ks => by
    induction ks generalizing st with
    | nil => rfl
    | cons k ks ih => rw [saveControl.saveKnots, saveControl.saveKnots, ih]
  have hc : ∀ data n e ks, UnderW (saveControl ⟨ca, cn, cf, cm, hcm⟩ data n e ks) (saveControl ⟨da, cn, cf, dm, hdm⟩ data n e ks) := fun data n e ks => by
    unfold saveControl
    rw [hk]
    exact UnderW.refl _
  unfold saveMsh
  refine UnderW.bind (UnderW.refl _) fun _ => UnderW.bind (UnderW.refl _) fun _ => UnderW.bind (UnderW.refl _) fun _ => UnderW.bind (UnderW.refl _) fun _ => ?_
  refine UnderW.bind (UnderW.refl _) fun _ => UnderW.bind (UnderW.refl _) fun _ => UnderW.bind (UnderW.refl _) fun _ => UnderW.bind (UnderW.refl _) fun _ => ?_
  refine UnderW.when _ (UnderW.bind (UnderW.refl _) fun _ => UnderW.bind (UnderW.when _ ?_) fun _ => UnderW.when _ ?_)
  · unfold saveCurves
    refine UnderW.bind (UnderW.refl _) fun _ => UnderW.bind (UnderW.refl _) fun _ => ?_
    split
    · refine UnderW.bind (UnderW.forW (fun v => ?_) _) fun _ => UnderW.refl _
      exact UnderW.bind (UnderW.refl _) fun _ => UnderW.bind (hw _) fun _ => hc _ _ _ _
    · refine UnderW.bind (UnderW.forW (fun v => ?_) _) fun _ => UnderW.refl _
      exact UnderW.bind (UnderW.refl _) fun _ => UnderW.bind (hw _) fun _ => UnderW.refl _
  · unfold savePatches
    refine UnderW.bind (UnderW.refl _) fun _ => UnderW.bind (UnderW.refl _) fun _ => ?_
    split
    · refine UnderW.bind (UnderW.forW (fun v => ?_) _) fun _ => UnderW.refl _
      exact UnderW.bind (UnderW.refl _) fun _ => UnderW.bind (hw _) fun _ => hc _ _ _ _
    · refine UnderW.bind (UnderW.forW (fun v => ?_) _) fun _ => UnderW.refl _
      exact UnderW.bind (UnderW.refl _) fun _ => UnderW.bind (hw _) fun _ => UnderW.refl _

end MshIO
