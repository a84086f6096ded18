import Verif.Proofs.Replace

/-!
# Sections that add to what was read before: data, and nodes and elements of version 2.2
-/

namespace MshIO

variable {α β : Type}

/-- `y` does what `x` does, when `x` succeeds. -/
def OLike (R : α → β → Prop) (x : Outcome α) (y : Outcome β) : Prop := ∀ a, x = .ok a → ∃ b, y = .ok b ∧ R a b

theorem OLike.refl (x : Outcome α) : OLike Eq x x := fun a h => ⟨a, h, rfl⟩

theorem OLike.pure {R : α → β → Prop} {a : α} {b : β} (h : R a b) : OLike R (Pure.pure a) (Pure.pure b) := by
  intro a' e; cases e; exact ⟨b, rfl, h⟩

theorem OLike.bind {α' β' : Type} {R : α → β → Prop} {S : α' → β' → Prop} {x : Outcome α} {y : Outcome β} {f : α → Outcome α'} {g : β → Outcome β'}
    (h1 : OLike R x y) (h2 : ∀ a b, R a b → OLike S (f a) (g b)) : OLike S (x >>= f) (y >>= g) := by
  intro c e
  cases hx : x with
  | ok a =>
    obtain ⟨b, hb, hr⟩ := h1 a hx
    rw [hx] at e
    obtain ⟨d, hd, hs⟩ := h2 a b hr c e
    exact ⟨d, by rw [hb]; exact hd, hs⟩
  | _ => rw [hx] at e; cases e

theorem OLike.same {α' β' : Type} {S : α' → β' → Prop} {x : Outcome α} {f : α → Outcome α'} {g : α → Outcome β'}
    (h2 : ∀ a, OLike S (f a) (g a)) : OLike S (x >>= f) (x >>= g) := (OLike.refl x).bind fun a b h => h ▸ h2 a

theorem Sticky.lift (x : Outcome α) : Sticky (Rd.lift x) := by
  refine ⟨fun s a s' e hf => ?_⟩
  cases x <;> simp [Rd.lift] at e
  rw [← e.2]; exact hf

theorem OLike.lift {R : α → β → Prop} {x : Outcome α} {y : Outcome β} (h : OLike R x y) : Alike R (Rd.lift x) (Rd.lift y) := by
  refine ⟨Sticky.lift x, fun s a s' e _ => ?_⟩
  cases x <;> simp [Rd.lift] at e
  obtain ⟨b, hb, hr⟩ := h _ rfl
  obtain ⟨rfl, rfl⟩ := e
  exact ⟨b, by rw [hb]; rfl, hr⟩

theorem olike_vecPush (cfg : Cfg) (p : List α) (v : List α) (x y : α) :
    OLike (fun a b => a = p ++ (v ++ [x]) ∧ b = v ++ [y]) (vecPush cfg (p ++ v) x) (vecPush cfg v y) := by
  intro a e
  unfold vecPush at e ⊢
  split at e
  · rename_i h
    rw [List.length_append] at h
    rw [if_pos (by omega)]
    cases e
    exact ⟨_, rfl, by rw [List.append_assoc], rfl⟩
  · cases e

theorem olike_createEntities {E : Type} (cfg : Cfg) (mk : Int32 → List Int32 → E) (m : PhysMap) (p es : List E) :
    OLike (fun a b => a = p ++ b) (createEntities cfg mk m (p ++ es)) (createEntities cfg mk m es) := by
  unfold createEntities
  induction m generalizing es with
  | nil => intro a e; cases e; exact ⟨es, rfl, rfl⟩
  | cons q m ih =>
    rw [foldO, foldO]
    refine (olike_vecPush cfg p es _ (mk q.1 q.2)).bind fun a b h => ?_
    rw [h.1, h.2]
    exact ih _

theorem olike_createAllEntities (cfg : Cfg) (maps : List PhysMap) (e : Entities) :
    OLike (fun a b => a = e.append b) (createAllEntities cfg maps e) (createAllEntities cfg maps {}) := by
  have h : ∀ {E : Type} (mk : Int32 → List Int32 → E) (m : PhysMap) (p : List E), OLike (fun a b => a = p ++ b) (createEntities cfg mk m p) (createEntities cfg mk m []) := by
    intro E mk m p
    have := olike_createEntities cfg mk m p []
    rwa [List.append_nil] at this
  unfold createAllEntities
  refine OLike.same fun _ => (h _ _ _).bind fun a1 b1 h1 => OLike.same fun _ => (h _ _ _).bind fun a2 b2 h2 => OLike.same fun _ => (h _ _ _).bind fun a3 b3 h3 =>
    OLike.same fun _ => (h _ _ _).bind fun a4 b4 h4 => OLike.pure ?_
  rw [h1, h2, h3, h4]; rfl

theorem olike_makeElement22 (cfg : Cfg) (num ty : Int32) (tags ids : List Int32) (p bs : List ElementBlock) (maps : List PhysMap) :
    OLike (fun a b => a.1 = p ++ b.1 ∧ a.2 = b.2) (makeElement22 cfg num ty tags ids (p ++ bs) maps) (makeElement22 cfg num ty tags ids bs maps) := by
  unfold makeElement22
  refine (olike_vecPush cfg p bs {} {}).bind fun _ _ _ => OLike.same fun _ => ?_
  match tags with
  | _ :: _ :: _ | [_] | [] =>
    repeat refine OLike.same fun _ => ?_
    exact OLike.pure (And.intro (List.append_assoc ..) rfl)

/-! ## Data -/

theorem alike_dataSection (cfg : Cfg) (f : MeshFormat) (en : Bool) (ds : List Data) :
    Alike (fun a b => ∃ d, a = ds ++ [d] ∧ b = [d]) (loadDataSection cfg f en ds) (loadDataSection cfg f en []) := by
  unfold loadDataSection
  have h := olike_vecPush cfg ds [] ({} : Data) {}
  rw [List.append_nil] at h
  refine Alike.bind (OLike.lift h) (fun _ => (Sticky.bind (tame_loadData ..).sticky fun _ => (Tame.pure _).sticky)) fun a b h => ?_
  refine Alike.same (tame_loadData ..) fun d => Alike.pure ⟨d, ?_⟩
  rw [h.1, h.2]
  simp

/-! ## Nodes of version 2.2 -/

theorem foldMin_toNat (l : List UInt64) (a b : UInt64) (h : a.toNat ≤ b.toNat) :
    (l.foldl (fun a b => if b < a then b else a) a).toNat = min a.toNat (l.foldl (fun a b => if b < a then b else a) b).toNat := by
  induction l generalizing a b with
  | nil => simp only [List.foldl_nil]; omega
  | cons x l ih =>
    simp only [List.foldl_cons]
    by_cases h1 : x < a
    · have h2 : x < b := by rw [UInt64.lt_iff_toNat_lt] at *; omega
      rw [if_pos h1, if_pos h2]
      have := ih x x (Nat.le_refl _)
      rw [UInt64.lt_iff_toNat_lt] at h1
      omega
    · rw [if_neg h1]
      refine ih a _ ?_
      split
      · rw [UInt64.lt_iff_toNat_lt] at h1; omega
      · exact h

theorem foldMax_toNat (l : List UInt64) (a b : UInt64) (h : b.toNat ≤ a.toNat) :
    (l.foldl (fun a b => if a < b then b else a) a).toNat = max a.toNat (l.foldl (fun a b => if a < b then b else a) b).toNat := by
  induction l generalizing a b with
  | nil => simp only [List.foldl_nil]; omega
  | cons x l ih =>
    simp only [List.foldl_cons]
    by_cases h1 : a < x
    · have h2 : b < x := by rw [UInt64.lt_iff_toNat_lt] at *; omega
      rw [if_pos h1, if_pos h2]
      have := ih x x (Nat.le_refl _)
      rw [UInt64.lt_iff_toNat_lt] at h1
      omega
    · rw [if_neg h1]
      refine ih a _ ?_
      split
      · rw [UInt64.lt_iff_toNat_lt] at h1; omega
      · exact h

/-- What a `$Nodes` section of version 2.2 adds. -/
structure NodesPlus (n : Nodes) (a b : Nodes) : Prop where
  blocks : a.entityBlocks = n.entityBlocks ++ b.entityBlocks
  numBlocks : a.numEntityBlocks = n.numEntityBlocks + b.numEntityBlocks
  numNodes : a.numNodes = n.numNodes + b.numNodes
  lo : a.minNodeTag.toNat = min n.minNodeTag.toNat b.minNodeTag.toNat
  hi : a.maxNodeTag.toNat = max n.maxNodeTag.toNat b.maxNodeTag.toNat

/-- The nodes a reader of version 2.2 starts from when nothing was read before. -/
def noNodes : Nodes := { minNodeTag := sizeMax, maxNodeTag := 0, numNodes := 0 }

theorem nodesPlus_end (n : Nodes) (num : UInt64) (tags : List UInt64) (data : List Double) {a b : List NodeBlock} (h : a = n.entityBlocks ++ ([] ++ [({} : NodeBlock)]) ∧ b = [] ++ [({} : NodeBlock)]) :
    NodesPlus n
      { numEntityBlocks := n.numEntityBlocks + 1, numNodes := n.numNodes + num, minNodeTag := (updateTagRange n tags).1, maxNodeTag := (updateTagRange n tags).2,
        entityBlocks := a.dropLast ++ [{ numNodesInBlock := num, tags, data }] }
      { numEntityBlocks := noNodes.numEntityBlocks + 1, numNodes := noNodes.numNodes + num, minNodeTag := (updateTagRange noNodes tags).1,
        maxNodeTag := (updateTagRange noNodes tags).2, entityBlocks := b.dropLast ++ [{ numNodesInBlock := num, tags, data }] } := by
  obtain ⟨rfl, rfl⟩ := h
  refine ⟨by simp, ?_, ?_, ?_, ?_⟩
  · show _ = n.numEntityBlocks + (0 + 1); rw [UInt64.zero_add]
  · show _ = n.numNodes + (0 + num); rw [UInt64.zero_add]
  · exact foldMin_toNat tags _ _ (by
      show _ ≤ sizeMax.toNat
      have := UInt64.toNat_lt n.minNodeTag
      have : sizeMax.toNat = 2 ^ 64 - 1 := by decide
      omega)
  · exact foldMax_toNat tags _ _ (by show (0 : UInt64).toNat ≤ _; exact Nat.zero_le _)

theorem alike_nodesAscii22 (cfg : Cfg) (n : Nodes) : Alike (NodesPlus n) (loadNodesAscii22 cfg n) (loadNodesAscii22 cfg noNodes) := by
  unfold loadNodesAscii22
  have h := olike_vecPush cfg n.entityBlocks [] ({} : NodeBlock) {}
  rw [List.append_nil] at h
  refine Alike.bind (OLike.lift h) (fun _ => Tame.sticky (by tame)) fun a b h => ?_
  refine Alike.same (tame_inSize 0) fun num => Alike.same (tame_assertGood _) fun _ => Alike.same (tame_resize ..) fun _ => Alike.same (tame_resize ..) fun _ =>
    Alike.same ?_ fun r => Alike.pure (nodesPlus_end n num r.1 r.2 h)
  tame

theorem alike_nodesBinary22 (cfg : Cfg) (n : Nodes) : Alike (NodesPlus n) (loadNodesBinary22 cfg n) (loadNodesBinary22 cfg noNodes) := by
  unfold loadNodesBinary22
  have h := olike_vecPush cfg n.entityBlocks [] ({} : NodeBlock) {}
  rw [List.append_nil] at h
  refine Alike.bind (OLike.lift h) (fun _ => Tame.sticky (by unfold loadNodeBinary22; tame)) fun a b h => ?_
  refine Alike.same (tame_inSize 0) fun num => Alike.same (tame_assertGood _) fun _ => Alike.same (tame_resize ..) fun _ => Alike.same (tame_resize ..) fun _ =>
    Alike.same (tame_eatWhiteSpace _) fun _ => Alike.same ?_ fun r => Alike.pure (nodesPlus_end n num r.1 r.2 h)
  unfold loadNodeBinary22; tame

/-! ## Elements of version 2.2 -/

/-- What an `$Elements` section of version 2.2 adds; `sum` tells whether the number of elements is added up. -/
structure ElementsPlus (sum : Bool) (n : Elements) (e : Entities) (a b : Elements × Entities) : Prop where
  blocks : a.1.entityBlocks = n.entityBlocks ++ b.1.entityBlocks
  lo : a.1.minElementTag.toNat = min n.minElementTag.toNat b.1.minElementTag.toNat
  hi : a.1.maxElementTag.toNat = max n.maxElementTag.toNat b.1.maxElementTag.toNat
  entities : a.2 = e.append b.2
  numBlocks : a.1.numEntityBlocks = if sum then n.numEntityBlocks + b.1.numEntityBlocks else UInt64.ofNat a.1.entityBlocks.length
  numElements : a.1.numElements = if sum then n.numElements + b.1.numElements else b.1.numElements

def noElements : Elements := { minElementTag := sizeMax, maxElementTag := 0 }

/-- The states of the two text readers. -/
structure Ascii22.Plus (n : Elements) (a b : Ascii22) : Prop where
  same : a = { b with lo := a.lo, hi := a.hi, blocks := a.blocks }
  blocks : a.blocks = n.entityBlocks ++ b.blocks
  lo : a.lo.toNat = min n.minElementTag.toNat b.lo.toNat
  hi : a.hi.toNat = max n.maxElementTag.toNat b.hi.toNat

theorem alike_elementAscii22 (cfg : Cfg) (n : Elements) {a b : Ascii22} (h : Ascii22.Plus n a b) :
    Alike (Ascii22.Plus n) (loadElementAscii22 cfg a) (loadElementAscii22 cfg b) := by
  unfold loadElementAscii22
  have e : a.elementNum = b.elementNum ∧ a.elementType = b.elementType ∧ a.numTags = b.numTags ∧ a.tags = b.tags ∧ a.nodeIds = b.nodeIds ∧ a.maps = b.maps := by
    rw [h.same]; exact ⟨rfl, rfl, rfl, rfl, rfl, rfl⟩
  obtain ⟨e1, e2, e3, e4, e5, e6⟩ := e
  rw [e1, e2, e3, e4, e5, e6, h.blocks]
  refine Alike.same (tame_inIntVar _) fun _ => Alike.same (tame_inIntVar _) fun _ => Alike.same (tame_inIntVar _) fun _ => Alike.same (tame_useVar _) fun _ =>
    Alike.same (tame_resize ..) fun _ => Alike.same (Tame.forEach tame_inInt _) fun _ => Alike.same (tame_useVar _) fun _ =>
    Alike.same (Tame.lift (NoHang.nodesPerElement _)) fun _ => Alike.same (tame_resize ..) fun _ => Alike.same (Tame.forEach tame_inInt _) fun _ =>
    Alike.same (tame_useVar _) fun en => Alike.bind (OLike.lift (olike_makeElement22 cfg _ _ _ _ _ _ _)) (fun _ => (Tame.pure _).sticky) fun x y hxy => Alike.pure ?_
  obtain ⟨x1, x2⟩ := x
  obtain ⟨y1, y2⟩ := y
  obtain ⟨hx1, hx2⟩ := hxy
  simp only at hx1 hx2
  subst hx1 hx2
  refine ⟨rfl, rfl, ?_, ?_⟩
  · have := h.lo
    simp only
    split <;> split <;> rename_i h1 h2 <;> rw [UInt64.lt_iff_toNat_lt] at h1 h2 <;> omega
  · have := h.hi
    simp only
    split <;> split <;> rename_i h1 h2 <;> rw [UInt64.lt_iff_toNat_lt] at h1 h2 <;> omega

theorem alike_elementsAscii22 (cfg : Cfg) (n : Elements) (e : Entities) :
    Alike (ElementsPlus true n e) (loadElementsAscii22 cfg n e) (loadElementsAscii22 cfg noElements {}) := by
  unfold loadElementsAscii22
  refine Alike.same tame_extractSize fun _ => Alike.same (tame_useVar _) fun num => ?_
  have hl := alike_loopN (R := fun _ => Ascii22.Plus n) (f := fun _ st => loadElementAscii22 cfg st) num.toNat 0
    { lo := n.minElementTag, hi := n.maxElementTag, blocks := n.entityBlocks } { lo := noElements.minElementTag, hi := noElements.maxElementTag, blocks := noElements.entityBlocks }
    ⟨rfl, by simp [noElements], by
      show n.minElementTag.toNat = min n.minElementTag.toNat sizeMax.toNat
      have := UInt64.toNat_lt n.minElementTag
      have : sizeMax.toNat = 2 ^ 64 - 1 := by decide
      omega, by show _ = max _ (0 : UInt64).toNat; exact (Nat.max_eq_left (Nat.zero_le _)).symm⟩
    (fun _ a => tame_loadElementAscii22 cfg a) fun _ a b _ h => alike_elementAscii22 cfg n h
  refine hl.bind (fun _ => ((Tame.lift (NoHang.createAllEntities ..)).bind fun _ => Tame.pure _).sticky) fun a b h => ?_
  have em : a.maps = b.maps := by rw [h.same]
  rw [em]
  refine (OLike.lift (olike_createAllEntities cfg b.maps e)).bind (fun _ => (Tame.pure _).sticky) fun x y hxy => Alike.pure ⟨h.blocks, h.lo, h.hi, hxy, ?_, ?_⟩
  · show n.numEntityBlocks + num = n.numEntityBlocks + (0 + num)
    rw [UInt64.zero_add]
  show n.numElements + num = n.numElements + (0 + num)
  rw [UInt64.zero_add]

/-- The states of the two binary readers. -/
def Binary22.Plus (n : Elements) (a b : Binary22) : Prop := a = { b with blocks := n.entityBlocks ++ b.blocks }

theorem alike_elementBinary22 (cfg : Cfg) (n : Elements) (num : UInt64) (ty nt : Int32) {a b : Option Int32 × Binary22} (h : a.1 = b.1 ∧ Binary22.Plus n a.2 b.2) :
    Alike (fun a b => a.1 = b.1 ∧ Binary22.Plus n a.2 b.2) (loadElementBinary22 cfg num ty nt a) (loadElementBinary22 cfg num ty nt b) := by
  obtain ⟨a1, a2⟩ := a
  obtain ⟨b1, b2⟩ := b
  obtain ⟨h1, h2⟩ := h
  simp only at h1
  unfold Binary22.Plus at h2
  simp only at h2
  subst h1 h2
  unfold loadElementBinary22
  simp only
  refine Alike.same (tame_readIntVar _) fun _ => ?_
  split
  · exact ⟨Tame.ub.sticky, fun _ _ _ e _ => by cases e⟩
  refine Alike.same (tame_readInts _) fun _ => Alike.same (tame_readInts _) fun _ => Alike.same (tame_useVar _) fun _ => ?_
  refine Alike.bind (OLike.lift (olike_makeElement22 cfg _ _ _ _ _ _ _)) (fun _ => Tame.sticky (by tame)) fun x y hxy => ?_
  obtain ⟨x1, x2⟩ := x
  obtain ⟨y1, y2⟩ := y
  obtain ⟨hx1, hx2⟩ := hxy
  simp only at hx1 hx2
  subst hx1 hx2
  simp only
  split
  · exact ⟨(Tame.throw _).sticky, fun _ _ _ e _ => by cases e⟩
  · exact Alike.pure ⟨rfl, rfl⟩

theorem alike_elementGroupBinary22 (cfg : Cfg) (n : Elements) (num : UInt64) {a b : Binary22} (h : Binary22.Plus n a b) :
    Alike (Binary22.Plus n) (loadElementGroupBinary22 cfg num a) (loadElementGroupBinary22 cfg num b) := by
  unfold Binary22.Plus at h
  subst h
  unfold loadElementGroupBinary22
  refine Alike.same (tame_readIntVar _) fun _ => Alike.same (tame_readIntVar _) fun _ => Alike.same (tame_readIntVar _) fun _ => Alike.same (tame_useVar _) fun _ =>
    Alike.same (tame_resize ..) fun _ => Alike.same (tame_useVar _) fun _ => Alike.same (Tame.lift (NoHang.nodesPerElement _)) fun _ =>
    Alike.same (tame_resize ..) fun _ => Alike.same (tame_useVar _) fun _ => ?_
  refine (alike_loopN (R := fun _ (a b : Option Int32 × Binary22) => a.1 = b.1 ∧ Binary22.Plus n a.2 b.2) _ _ _ _ ?_ (fun _ a => tame_loadElementBinary22 cfg _ _ _ a)
    fun _ a b _ h => alike_elementBinary22 cfg n _ _ _ h).bind (fun _ => (Tame.pure _).sticky) fun x y hxy => Alike.pure hxy.2
  exact ⟨rfl, rfl⟩

theorem sticky_elementGroups22 (cfg : Cfg) (num : UInt64) (fuel : Nat) (a : Binary22) : Sticky (loadElementGroups22 cfg num fuel a) := by
  induction fuel generalizing a with
  | zero => exact ⟨fun _ _ _ e => by cases e⟩
  | succ fuel ih =>
    rw [loadElementGroups22]
    split
    · exact (Tame.pure _).sticky
    · exact (tame_loadElementGroupBinary22 cfg num a).sticky.bind ih

theorem alike_elementGroups22 (cfg : Cfg) (n : Elements) (num : UInt64) (fuel : Nat) {a b : Binary22} (h : Binary22.Plus n a b) :
    Alike (Binary22.Plus n) (loadElementGroups22 cfg num fuel a) (loadElementGroups22 cfg num fuel b) := by
  induction fuel generalizing a b with
  | zero => exact ⟨⟨fun _ _ _ e => by cases e⟩, fun _ _ _ e => by cases e⟩
  | succ fuel ih =>
    rw [loadElementGroups22, loadElementGroups22]
    have hp : a.processed = b.processed := by rw [h]
    rw [hp]
    split
    · exact Alike.pure h
    · exact (alike_elementGroupBinary22 cfg n num h).bind (sticky_elementGroups22 cfg num fuel) fun _ _ => ih

theorem alike_elementsBinary22 (cfg : Cfg) (n : Elements) (e : Entities) :
    Alike (ElementsPlus false n e) (loadElementsBinary22 cfg n e) (loadElementsBinary22 cfg noElements {}) := by
  unfold loadElementsBinary22
  refine Alike.next (alike_inSize _ _) fun num => Alike.same (Tame.lift (NoHang.vecReserve ..)) fun _ => Alike.same (tame_eatWhiteSpace _) fun _ => ?_
  have hl : Alike (Binary22.Plus n) (fun s => loadElementGroups22 cfg num (s.rem.length + 2) { blocks := n.entityBlocks } s)
      (fun s => loadElementGroups22 cfg num (s.rem.length + 2) { blocks := noElements.entityBlocks } s) :=
    ⟨⟨fun s a s' e => (sticky_elementGroups22 ..).all s a s' e⟩,
      fun s a s' e => (alike_elementGroups22 cfg n num _ (by simp [Binary22.Plus, noElements])).all s a s' e⟩
  refine hl.bind (fun _ => ((Tame.lift (NoHang.createAllEntities ..)).bind fun _ => Tame.pure _).sticky) fun a b h => ?_
  unfold Binary22.Plus at h
  subst h
  refine (OLike.lift (olike_createAllEntities cfg b.maps e)).bind (fun _ => (Tame.pure _).sticky) fun x y hxy => Alike.pure ⟨rfl, ?_, ?_, hxy, rfl, rfl⟩
  · show UInt64.toNat (if sizeOfInt b.minTag < n.minElementTag then sizeOfInt b.minTag else n.minElementTag) =
      min _ (UInt64.toNat (if sizeOfInt b.minTag < sizeMax then sizeOfInt b.minTag else sizeMax))
    have h1 := UInt64.toNat_lt n.minElementTag
    have h2 := UInt64.toNat_lt (sizeOfInt b.minTag)
    have h3 : sizeMax.toNat = 2 ^ 64 - 1 := by decide
    split <;> split <;> rename_i h1 h2 <;> rw [UInt64.lt_iff_toNat_lt] at h1 h2 <;> omega
  · show UInt64.toNat (if n.maxElementTag < sizeOfInt b.maxTag then sizeOfInt b.maxTag else n.maxElementTag) =
      max _ (UInt64.toNat (if 0 < sizeOfInt b.maxTag then sizeOfInt b.maxTag else 0))
    have h3 : (0 : UInt64).toNat = 0 := rfl
    split <;> split <;> rename_i h1 h2 <;> rw [UInt64.lt_iff_toNat_lt] at h1 h2 <;> omega

/-! ## Sections -/

theorem alike_dataSections (cfg : Cfg) {name : Bytes} (hn : name ∈ addedSections) (s : MshSpec) :
    Alike (fun a b => ∃ d, a = s.addData name d ∧ b = (onlyFormat s.meshFormat).addData name d)
      (loadSection cfg (36 :: name) s) (loadSection cfg (36 :: name) (onlyFormat s.meshFormat)) := by
  simp only [addedSections, List.mem_cons, List.not_mem_nil, or_false] at hn
  rcases hn with rfl | rfl | rfl
  · show Alike _ (loadDataSection cfg s.meshFormat false s.nodeData >>= fun q => pure { s with nodeData := q })
      (loadDataSection cfg s.meshFormat false [] >>= fun q => pure { onlyFormat s.meshFormat with nodeData := q })
    exact (alike_dataSection ..).bind (fun _ => (Tame.pure _).sticky) fun a b ⟨d, ha, hb⟩ => Alike.pure ⟨d, by rw [ha]; rfl, by rw [hb]; rfl⟩
  · show Alike _ (loadDataSection cfg s.meshFormat false s.elementData >>= fun q => pure { s with elementData := q })
      (loadDataSection cfg s.meshFormat false [] >>= fun q => pure { onlyFormat s.meshFormat with elementData := q })
    exact (alike_dataSection ..).bind (fun _ => (Tame.pure _).sticky) fun a b ⟨d, ha, hb⟩ => Alike.pure ⟨d, by rw [ha]; rfl, by rw [hb]; rfl⟩
  · show Alike _ (loadDataSection cfg s.meshFormat true s.elementNodeData >>= fun q => pure { s with elementNodeData := q })
      (loadDataSection cfg s.meshFormat true [] >>= fun q => pure { onlyFormat s.meshFormat with elementNodeData := q })
    exact (alike_dataSection ..).bind (fun _ => (Tame.pure _).sticky) fun a b ⟨d, ha, hb⟩ => Alike.pure ⟨d, by rw [ha]; rfl, by rw [hb]; rfl⟩

theorem alike_nodes22 (cfg : Cfg) {f : MeshFormat} (hv : f.version = b! "2.2") {n : Nodes} (hn : n.entityBlocks ≠ []) :
    Alike (NodesPlus n) (loadNodes cfg f n) (loadNodes cfg f {}) := by
  unfold loadNodes
  have h0 : ¬ n.entityBlocks.length = 0 := fun h => hn (List.length_eq_zero_iff.1 h)
  have h22 : ¬ (b! "2.2" : Bytes) = b! "4.1" := by decide
  simp only [hv, h22, h0, if_false, if_true]
  split
  · exact alike_nodesAscii22 cfg n
  · exact alike_nodesBinary22 cfg n

theorem alike_nodesSection22 (cfg : Cfg) {s : MshSpec} (hv : s.meshFormat.version = b! "2.2") (hn : s.nodes.entityBlocks ≠ []) :
    Alike (fun t t0 => AddsNodes s t0 t) (loadSection cfg (36 :: b! "Nodes") s) (loadSection cfg (36 :: b! "Nodes") (onlyFormat s.meshFormat)) := by
  show Alike _ (loadNodes cfg s.meshFormat s.nodes >>= fun q => pure { s with nodes := q })
    (loadNodes cfg s.meshFormat {} >>= fun q => pure { onlyFormat s.meshFormat with nodes := q })
  exact (alike_nodes22 cfg hv hn).bind (fun _ => (Tame.pure _).sticky) fun a b h => Alike.pure ⟨rfl, h.blocks, h.numBlocks, h.numNodes, h.lo, h.hi⟩

theorem alike_elements22 (cfg : Cfg) {f : MeshFormat} (hv : f.version = b! "2.2") (n : Elements) (e : Entities) :
    Alike (ElementsPlus (f.fileType = 0) (if n.entityBlocks = [] then { n with minElementTag := sizeMax, maxElementTag := 0 } else n) e)
      (loadElements cfg f n e) (loadElements cfg f {} {}) := by
  unfold loadElements
  simp only [hv, List.length_eq_zero_iff]
  by_cases hf : f.fileType = 0
  · simp only [hf, if_true]
    exact alike_elementsAscii22 cfg _ e
  · simp only [hf, if_false]
    exact alike_elementsBinary22 cfg _ e

theorem alike_elementsSection22 (cfg : Cfg) {s : MshSpec} (hv : s.meshFormat.version = b! "2.2") :
    Alike (fun t t0 => AddsElements s t0 t ∧
        t.elements.numEntityBlocks = (if s.meshFormat.fileType = 0 then s.elements.numEntityBlocks + t0.elements.numEntityBlocks
          else UInt64.ofNat t.elements.entityBlocks.length) ∧
        t.elements.numElements = (if s.meshFormat.fileType = 0 then s.elements.numElements + t0.elements.numElements else t0.elements.numElements))
      (loadSection cfg (36 :: b! "Elements") s) (loadSection cfg (36 :: b! "Elements") (onlyFormat s.meshFormat)) := by
  show Alike _ (loadElements cfg s.meshFormat s.elements s.entities >>= fun q => pure { s with elements := q.1, entities := q.2 })
    (loadElements cfg s.meshFormat {} {} >>= fun q => pure { onlyFormat s.meshFormat with elements := q.1, entities := q.2 })
  refine (alike_elements22 cfg hv _ _).bind (fun _ => (Tame.pure _).sticky) fun a b h => Alike.pure ?_
  obtain ⟨h1, h2, h3, h4, h5, h6⟩ := h
  have h7 := UInt64.toNat_lt b.1.minElementTag
  have h8 : sizeMax.toNat = 2 ^ 64 - 1 := by decide
  have h9 : (0 : UInt64).toNat = 0 := rfl
  refine ⟨⟨rfl, ?_, ?_, ?_, h4⟩, ?_, ?_⟩ <;> by_cases hb : s.elements.entityBlocks = [] <;> simp only [hb, if_true, if_false] at h1 h2 h3 h5 h6 ⊢
  · exact h1
  · exact h1
  · rw [h2]; show min sizeMax.toNat b.1.minElementTag.toNat = b.1.minElementTag.toNat; omega
  · exact h2
  · rw [h3]; show max (0 : UInt64).toNat b.1.maxElementTag.toNat = b.1.maxElementTag.toNat; omega
  · exact h3
  all_goals first
    | (simpa only [decide_eq_true_eq] using h5)
    | (simpa only [decide_eq_true_eq] using h6)

end MshIO
