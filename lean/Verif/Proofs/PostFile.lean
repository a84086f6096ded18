import Verif.Proofs.Post
import Verif.Proofs.Outcome
import Verif.Spec.Loaded

/-! # The shape of what `load_msh` returns -/

namespace MshIO

/-! ## Entities and names -/

def PointEntity.Small (cfg : Cfg) (p : PointEntity) : Prop := p.physicalGroupTags.length ≤ cfg.maxCount
def BoxEntity.Small (cfg : Cfg) (p : BoxEntity) : Prop :=
  p.physicalGroupTags.length ≤ cfg.maxCount ∧ p.boundaryTags.length ≤ cfg.maxCount

structure Entities.Small (cfg : Cfg) (e : Entities) : Prop where
  points : e.points.length ≤ cfg.maxCount
  curves : e.curves.length ≤ cfg.maxCount
  surfaces : e.surfaces.length ≤ cfg.maxCount
  volumes : e.volumes.length ≤ cfg.maxCount
  point : ∀ p ∈ e.points, p.Small cfg
  curve : ∀ p ∈ e.curves, p.Small cfg
  surface : ∀ p ∈ e.surfaces, p.Small cfg
  volume : ∀ p ∈ e.volumes, p.Small cfg

theorem loadIntListAscii_post (cfg : Cfg) (v : List Int32) : Post (loadIntListAscii cfg v) fun l => l.length ≤ cfg.maxCount :=
  Post.skip fun _ => Post.skip fun n => Post.bind (Post.resize cfg v n 0) fun l hl =>
    (Post.forEach_length _ l).mono fun l' h => by rw [h]; exact hl.2

theorem loadIntListBinary_post (cfg : Cfg) (v : List Int32) : Post (loadIntListBinary cfg v) fun l => l.length ≤ cfg.maxCount :=
  Post.skip fun _ => Post.skip fun _ => Post.skip fun n => Post.bind (Post.resize cfg v n 0) fun l hl =>
    Post.bind (Post.readInts l) fun l' h => Post.skip fun _ => Post.pure (by rw [h]; exact hl.2)

theorem loadPointAscii_post (cfg : Cfg) (p : PointEntity) : Post (loadPointAscii cfg p) (·.Small cfg) :=
  Post.skip fun _ => Post.skip fun _ => Post.skip fun _ => Post.skip fun _ =>
    Post.bind (loadIntListAscii_post cfg _) fun _ h => Post.pure h

theorem loadPointBinary_post (cfg : Cfg) (p : PointEntity) : Post (loadPointBinary cfg p) (·.Small cfg) :=
  Post.skip fun _ => Post.skip fun _ => Post.skip fun _ => Post.skip fun _ =>
    Post.bind (loadIntListBinary_post cfg _) fun _ h => Post.pure h

theorem loadBoxAscii_post (cfg : Cfg) (p : BoxEntity) : Post (loadBoxAscii cfg p) (·.Small cfg) :=
  Post.skip fun _ => Post.skip fun _ => Post.skip fun _ => Post.skip fun _ => Post.skip fun _ => Post.skip fun _ => Post.skip fun _ =>
    Post.bind (loadIntListAscii_post cfg _) fun _ h => Post.bind (loadIntListAscii_post cfg _) fun _ h' => Post.pure ⟨h, h'⟩

theorem loadBoxBinary_post (cfg : Cfg) (p : BoxEntity) : Post (loadBoxBinary cfg p) (·.Small cfg) :=
  Post.skip fun _ => Post.skip fun _ => Post.skip fun _ => Post.skip fun _ => Post.skip fun _ => Post.skip fun _ => Post.skip fun _ =>
    Post.bind (loadIntListBinary_post cfg _) fun _ h => Post.bind (loadIntListBinary_post cfg _) fun _ h' => Post.pure ⟨h, h'⟩

theorem loadEntitiesAscii41_post (cfg : Cfg) (e : Entities) : Post (loadEntitiesAscii41 cfg e) (·.Small cfg) := by
  unfold loadEntitiesAscii41
  refine Post.skip fun _ => Post.skip fun _ => Post.skip fun _ => Post.skip fun _ => Post.skip fun _ =>
    Post.skip fun n1 => Post.bind (Post.resize cfg _ n1 _) fun l1 h1 =>
    Post.skip fun n2 => Post.bind (Post.resize cfg _ n2 _) fun l2 h2 =>
    Post.skip fun n3 => Post.bind (Post.resize cfg _ n3 _) fun l3 h3 =>
    Post.skip fun n4 => Post.bind (Post.resize cfg _ n4 _) fun l4 h4 =>
    Post.bind (Post.forEach (loadPointAscii_post cfg) l1) fun m1 g1 =>
    Post.bind (Post.forEach (loadBoxAscii_post cfg) l2) fun m2 g2 =>
    Post.bind (Post.forEach (loadBoxAscii_post cfg) l3) fun m3 g3 =>
    Post.bind (Post.forEach (loadBoxAscii_post cfg) l4) fun m4 g4 => Post.skip fun _ => Post.pure ?_
  exact ⟨by rw [g1.1]; exact h1.2, by rw [g2.1]; exact h2.2, by rw [g3.1]; exact h3.2, by rw [g4.1]; exact h4.2, g1.2, g2.2, g3.2, g4.2⟩

theorem loadEntitiesBinary41_post (cfg : Cfg) (e : Entities) : Post (loadEntitiesBinary41 cfg e) (·.Small cfg) := by
  unfold loadEntitiesBinary41
  refine Post.skip fun _ => Post.skip fun _ => Post.skip fun _ => Post.skip fun _ => Post.skip fun _ => Post.skip fun _ =>
    Post.skip fun n1 => Post.bind (Post.resize cfg _ n1 _) fun l1 h1 =>
    Post.skip fun n2 => Post.bind (Post.resize cfg _ n2 _) fun l2 h2 =>
    Post.skip fun n3 => Post.bind (Post.resize cfg _ n3 _) fun l3 h3 =>
    Post.skip fun n4 => Post.bind (Post.resize cfg _ n4 _) fun l4 h4 =>
    Post.bind (Post.forEach (loadPointBinary_post cfg) l1) fun m1 g1 =>
    Post.bind (Post.forEach (loadBoxBinary_post cfg) l2) fun m2 g2 =>
    Post.bind (Post.forEach (loadBoxBinary_post cfg) l3) fun m3 g3 =>
    Post.bind (Post.forEach (loadBoxBinary_post cfg) l4) fun m4 g4 => Post.pure ?_
  exact ⟨by rw [g1.1]; exact h1.2, by rw [g2.1]; exact h2.2, by rw [g3.1]; exact h3.2, by rw [g4.1]; exact h4.2, g1.2, g2.2, g3.2, g4.2⟩

theorem loadEntities_post (cfg : Cfg) (f : MeshFormat) (e : Entities) (h : e.Small cfg) : Post (loadEntities cfg f e) (·.Small cfg) := by
  unfold loadEntities
  exact Post.ite (fun _ => Post.ite (fun _ => loadEntitiesAscii41_post cfg e) fun _ => loadEntitiesBinary41_post cfg e)
    fun _ => Post.ite (fun _ => Post.throw) fun _ => Post.pure h

theorem sizeOfInt_le {x : Int32} {m : Nat} (hm : m < 2 ^ 60) (h : (sizeOfInt x).toNat ≤ m) :
    0 ≤ x.toInt ∧ ((sizeOfInt x).toNat : Int) = x.toInt := by
  have h1 := toNat_sizeOfInt x
  have h2 := Int32.toInt_lt x
  have h3 := Int32.le_toInt x
  split at h1 <;> omega

theorem loadPhysicalGroups_post (cfg : Cfg) (v : List PhysicalGroup) :
    Post (loadPhysicalGroups cfg v) fun l => l.length ≤ cfg.maxCount ∧ l.length < 2 ^ 31 := by
  unfold loadPhysicalGroups
  refine Post.skip fun _ => Post.skip fun n => Post.bind (Post.resize cfg v _ _) fun l hl =>
    Post.bind (Post.forEach_length _ l) fun l' h' => Post.skip fun _ => Post.pure ?_
  rw [h']
  refine ⟨hl.2, ?_⟩
  have h1 := sizeOfInt_le cfg.maxCount_lt (x := n) (by omega)
  have h2 := Int32.toInt_lt n
  omega

theorem loadMeshFormat_post (f : MeshFormat) :
    Post (loadMeshFormat f) fun g => g.version = b! "4.1" ∨ g.version = b! "2.2" := by
  unfold loadMeshFormat
  refine Post.skip fun v => Post.ite (fun _ => Post.throw) fun hv => Post.skip fun _ => Post.skip fun _ => ?_
  have hv' : v = b! "4.1" ∨ v = b! "2.2" := by
    by_cases h : v = b! "2.2"
    · exact Or.inr h
    · refine Or.inl ?_
      by_contra h'
      exact hv ⟨h, h'⟩
  refine Post.ite (fun _ => Post.throw) fun _ => Post.ite (fun _ => ?_) fun _ => Post.pure hv'
  exact Post.skip fun _ => Post.skip fun _ => Post.ite (fun _ => Post.throw) fun _ => Post.pure hv'

/-! ## Nodes -/

structure NodeBlock.LoadedIn (cfg : Cfg) (b : NodeBlock) : Prop where
  loaded : b.Loaded
  tags : b.tags.length ≤ cfg.maxCount
  data : b.data.length ≤ cfg.maxCount

structure Nodes.LoadedIn (cfg : Cfg) (n : Nodes) : Prop where
  blocks : n.entityBlocks.length = n.numEntityBlocks.toNat
  small : n.entityBlocks.length ≤ cfg.maxCount
  block : ∀ b ∈ n.entityBlocks, b.LoadedIn cfg

theorem entriesPerNode_post (b : NodeBlock) :
    OPost (entriesPerNode b.parametric b.entityDim) fun e => (b.parametric = 1 → 3 + b.entityDim.toInt < 2 ^ 31) ∧ e.toNat = b.perNode := by
  unfold entriesPerNode NodeBlock.perNode
  refine OPost.ite (fun h => OPost.ite (fun _ => OPost.ub) fun h' => OPost.ok ⟨fun _ => by omega, ?_⟩)
    fun h => OPost.ok ⟨fun h' => absurd h' h, by rw [if_neg h]; rfl⟩
  rw [if_pos h]
  have h1 := toNat_sizeOfInt (3 + b.entityDim)
  have h2 := Int32.toInt_lt b.entityDim
  have h3 := Int32.le_toInt b.entityDim
  have h4 : (3 + b.entityDim).toInt = 3 + b.entityDim.toInt := by
    rw [Int32.toInt_add]
    show (3 + b.entityDim.toInt).bmod (2 ^ 32) = _
    exact Int.bmod_eq_of_le (by omega) (by omega)
  rw [h4] at h1
  split at h1 <;> omega

theorem mul_toNat_mod (a b : UInt64) : (a * b).toNat = a.toNat * b.toNat % 2 ^ 64 := UInt64.toNat_mul a b

theorem loadNodeBlockAscii41_post (cfg : Cfg) (b : NodeBlock) : Post (loadNodeBlockAscii41 cfg b) (·.LoadedIn cfg) := by
  unfold loadNodeBlockAscii41
  refine Post.skip fun d => Post.skip fun t => Post.skip fun p => Post.skip fun num => Post.skip fun _ =>
    Post.bind (Post.resize cfg _ num _) fun tags h1 => Post.bind (Post.forEach_length _ tags) fun tags' h2 =>
    Post.skip fun _ => Post.skip fun _ => Post.bind (Post.lift (entriesPerNode_post ⟨d, t, p, num, [], []⟩)) fun e he =>
    Post.bind (Post.resize cfg _ _ _) fun data h3 => Post.bind
      (Post.loopN_inv (P := fun l => l.length = data.length) (fun j l hl => Post.loopN_inv (P := fun l => l.length = data.length)
        (fun k l hl => (Post.inDoubleAt _ l).mono fun l' h => h.trans hl) _ _ l hl) _ _ data rfl) fun data' h4 =>
    Post.skip fun _ => Post.pure ?_
  refine ⟨⟨he.1, by rw [h2]; exact h1.1, ?_⟩, by rw [h2]; exact h1.2, by rw [h4]; exact h3.2⟩
  show data'.length = _
  rw [h4, h3.1, mul_toNat_mod, he.2]
  rfl

theorem loadNodeBlockBinary41_post (cfg : Cfg) (b : NodeBlock) : Post (loadNodeBlockBinary41 cfg b) (·.LoadedIn cfg) := by
  unfold loadNodeBlockBinary41
  refine Post.skip fun d => Post.skip fun t => Post.skip fun p => Post.skip fun num => Post.skip fun _ =>
    Post.bind (Post.resize cfg _ num _) fun tags h1 => Post.bind (Post.readSizes tags) fun tags' h2 =>
    Post.skip fun _ => Post.bind (Post.lift (entriesPerNode_post ⟨d, t, p, num, [], []⟩)) fun e he =>
    Post.bind (Post.resize cfg _ _ _) fun data h3 => Post.bind (Post.readDoubles data) fun data' h4 =>
    Post.skip fun _ => Post.pure ?_
  refine ⟨⟨he.1, by rw [h2]; exact h1.1, ?_⟩, by rw [h2]; exact h1.2, by rw [h4]; exact h3.2⟩
  show data'.length = _
  rw [h4, h3.1, mul_toNat_mod, he.2]
  rfl

theorem loadNodesAscii41_post (cfg : Cfg) (n : Nodes) : Post (loadNodesAscii41 cfg n) (·.LoadedIn cfg) := by
  unfold loadNodesAscii41
  refine Post.skip fun nb => Post.skip fun _ => Post.skip fun _ => Post.skip fun _ => Post.skip fun _ =>
    Post.bind (Post.resize cfg _ nb _) fun bs h => Post.bind (Post.forEach (loadNodeBlockAscii41_post cfg) bs) fun bs' h' => Post.pure ?_
  exact ⟨by rw [h'.1]; exact h.1, by rw [h'.1]; exact h.2, h'.2⟩

theorem loadNodesBinary41_post (cfg : Cfg) (n : Nodes) : Post (loadNodesBinary41 cfg n) (·.LoadedIn cfg) := by
  unfold loadNodesBinary41
  refine Post.skip fun _ => Post.skip fun nb => Post.skip fun _ => Post.skip fun _ => Post.skip fun _ => Post.skip fun _ =>
    Post.bind (Post.resize cfg _ nb _) fun bs h => Post.bind (Post.forEach (loadNodeBlockBinary41_post cfg) bs) fun bs' h' => Post.pure ?_
  exact ⟨by rw [h'.1]; exact h.1, by rw [h'.1]; exact h.2, h'.2⟩

theorem nodes22_append {cfg : Cfg} {n : Nodes} {blocks : List NodeBlock} {b b0 : NodeBlock} {num : UInt64} {lo hi : UInt64}
    (h : n.LoadedIn cfg) (hb : blocks = n.entityBlocks ++ [b0] ∧ blocks.length ≤ cfg.maxCount) (hl : b.LoadedIn cfg) :
    Nodes.LoadedIn cfg ⟨n.numEntityBlocks + 1, num, lo, hi, blocks.dropLast ++ [b]⟩ := by
  obtain ⟨rfl, hs⟩ := hb
  have hm := cfg.maxCount_lt
  have h1 := h.blocks
  rw [List.length_append] at hs
  refine ⟨?_, ?_, ?_⟩
  · show (List.dropLast _ ++ [b]).length = (n.numEntityBlocks + 1).toNat
    rw [List.dropLast_concat, List.length_append, UInt64.toNat_add, h1]
    simp only [List.length_cons, List.length_nil, UInt64.reduceToNat] at hs ⊢
    omega
  · show (List.dropLast _ ++ [b]).length ≤ _
    rw [List.dropLast_concat, List.length_append]
    exact hs
  · intro c hc
    change c ∈ List.dropLast _ ++ [b] at hc
    rw [List.dropLast_concat] at hc
    rcases List.mem_append.mp hc with hc | hc
    · exact h.block c hc
    · rw [List.mem_singleton] at hc; subst hc; exact hl

theorem nodeBlock22 {cfg : Cfg} {num : UInt64} {tags : List UInt64} {data : List Double}
    (h1 : tags.length = num.toNat) (h2 : tags.length ≤ cfg.maxCount) (h3 : data.length = (num * 3).toNat) (h4 : data.length ≤ cfg.maxCount) :
    NodeBlock.LoadedIn cfg { numNodesInBlock := num, tags, data } :=
  ⟨⟨by intro h; exact absurd (show (0 : Int32) = 1 from h) (by decide), h1, h3.trans (mul_toNat_mod _ _)⟩, h2, h4⟩

theorem loadNodesAscii22_post (cfg : Cfg) (n : Nodes) (h : n.LoadedIn cfg) : Post (loadNodesAscii22 cfg n) (·.LoadedIn cfg) := by
  unfold loadNodesAscii22
  refine Post.bind (Post.pushBack cfg _ _) fun blocks hb => Post.skip fun num => Post.skip fun _ =>
    Post.bind (Post.resize cfg _ num _) fun tags h1 => Post.bind (Post.resize cfg _ _ _) fun data h2 =>
    Post.bind (Post.loopN_inv (P := fun st : List UInt64 × List Double => st.1.length = tags.length ∧ st.2.length = data.length)
      (fun j st hst => ?_) _ _ _ ⟨rfl, rfl⟩) fun st hst => ?_
  · obtain ⟨t, d⟩ := st
    exact Post.bind (Post.inSizeAt _ _) fun t1 e1 => Post.bind (Post.inDoubleAt _ _) fun d1 e2 =>
      Post.bind (Post.inDoubleAt _ _) fun d2 e3 => Post.bind (Post.inDoubleAt _ _) fun d3 e4 =>
      Post.skip fun _ => Post.pure ⟨e1.trans hst.1, e4.trans (e3.trans (e2.trans hst.2))⟩
  · obtain ⟨t, d⟩ := st
    exact Post.pure (nodes22_append h hb (nodeBlock22 (hst.1.trans h1.1) (hst.1.trans_le h1.2) (hst.2.trans h2.1) (hst.2.trans_le h2.2)))

theorem OPost.vecGet {α : Type} (v : List α) (i : UInt64) : OPost (vecGet v i) fun _ => i.toNat < v.length := by
  unfold MshIO.vecGet
  cases h : v[i.toNat]? with
  | none => exact OPost.ub
  | some a => exact OPost.ok (List.getElem?_eq_some_iff.mp h).1

theorem loadNodeBinary22_post (cfg : Cfg) (i : Nat) (st : List UInt64 × List Double) (hi : 3 * i + 2 < 2 ^ 64) :
    Post (loadNodeBinary22 cfg i st) fun r => r.1.length = st.1.length ∧ r.2.length = st.2.length := by
  unfold loadNodeBinary22
  refine Post.skip fun _ => Post.skip fun _ => Post.skip fun tag => Post.bind (Post.lift (OPost.vecSet _ _ _)) fun tags h1 =>
    Post.skip fun x => Post.skip fun y => Post.bind (Post.lift (OPost.vecGet _ _)) fun z hz =>
    Post.bind (Post.readDoubles _) fun c hc => Post.pure ⟨h1, ?_⟩
  show (st.2.take (3 * i) ++ c ++ st.2.drop (3 * i + 3)).length = st.2.length
  rw [List.length_append, List.length_append, List.length_take, List.length_drop, hc]
  have : (UInt64.ofNat i * 3 + 2).toNat = 3 * i + 2 := by
    rw [UInt64.toNat_add, UInt64.toNat_mul, UInt64.toNat_ofNat', show (3 : UInt64).toNat = 3 from rfl, show (2 : UInt64).toNat = 2 from rfl]
    omega
  rw [this] at hz
  simp only [List.length_cons, List.length_nil]
  omega

theorem loadNodesBinary22_post (cfg : Cfg) (n : Nodes) (h : n.LoadedIn cfg) : Post (loadNodesBinary22 cfg n) (·.LoadedIn cfg) := by
  unfold loadNodesBinary22
  refine Post.bind (Post.pushBack cfg _ _) fun blocks hb => Post.skip fun num => Post.skip fun _ =>
    Post.bind (Post.resize cfg _ num _) fun tags h1 => Post.bind (Post.resize cfg _ _ _) fun data h2 => Post.skip fun _ =>
    Post.bind (Post.loopN (P := fun _ (st : List UInt64 × List Double) => st.1.length = tags.length ∧ st.2.length = data.length)
      _ _ _ ⟨rfl, rfl⟩ fun j st _ hj hst => ?_) fun st hst => ?_
  · have hm := cfg.maxCount_lt
    exact (loadNodeBinary22_post cfg j st (by omega)).mono fun r hr => ⟨hr.1.trans hst.1, hr.2.trans hst.2⟩
  · obtain ⟨t, d⟩ := st
    exact Post.pure (nodes22_append h hb (nodeBlock22 (hst.1.trans h1.1) (hst.1.trans_le h1.2) (hst.2.trans h2.1) (hst.2.trans_le h2.2)))

theorem loadNodes_post (cfg : Cfg) (f : MeshFormat) (n : Nodes) (h : n.LoadedIn cfg) : Post (loadNodes cfg f n) (·.LoadedIn cfg) := by
  unfold loadNodes
  have h' : (if n.entityBlocks.length = 0 then { n with minNodeTag := sizeMax, maxNodeTag := 0, numNodes := 0 } else n).LoadedIn cfg := by
    split
    · exact ⟨h.1, h.2, h.3⟩
    · exact h
  exact Post.ite (fun _ => Post.ite (fun _ => loadNodesAscii41_post cfg _) fun _ => loadNodesBinary41_post cfg _)
    fun _ => Post.ite (fun _ => Post.ite (fun _ => loadNodesAscii22_post cfg _ h') fun _ => loadNodesBinary22_post cfg _ h') fun _ => Post.throw

/-! ## Elements -/

structure ElementBlock.LoadedIn (cfg : Cfg) (b : ElementBlock) : Prop where
  loaded : b.Loaded
  data : b.data.length ≤ cfg.maxCount

structure Elements.LoadedIn (cfg : Cfg) (n : Elements) : Prop where
  blocks : n.entityBlocks.length = n.numEntityBlocks.toNat
  small : n.entityBlocks.length ≤ cfg.maxCount
  block : ∀ b ∈ n.entityBlocks, b.LoadedIn cfg

theorem nodesPerElement_post (t : Int32) : OPost (nodesPerElement t) fun n => mshNodes t = some n.toNat ∧ n.toNat ≤ 56 := by
  intro n hn
  cases h : mshNodes t with
  | none => rw [mshNodes_none h] at hn; cases hn
  | some m =>
    obtain ⟨h1, h2, _⟩ := nodesPerElement_of_mshNodes h
    rw [h1] at hn
    cases hn
    rw [UInt64.toNat_ofNat', Nat.mod_eq_of_lt (by omega)]
    exact ⟨rfl, h2⟩

theorem toNat_succ {n : UInt64} (h : n.toNat ≤ 56) : (n + 1).toNat = n.toNat + 1 := by
  rw [UInt64.toNat_add, show (1 : UInt64).toNat = 1 from rfl]
  omega

theorem loadElementBlockAscii41_post (cfg : Cfg) (b : ElementBlock) : Post (loadElementBlockAscii41 cfg b) (·.LoadedIn cfg) := by
  unfold loadElementBlockAscii41
  refine Post.skip fun d => Post.skip fun t => Post.skip fun ty => Post.skip fun num =>
    Post.bind (Post.lift (nodesPerElement_post ty)) fun n hn =>
    Post.bind (Post.resize cfg _ _ _) fun data h3 => Post.bind
      (Post.loopN_inv (P := fun l => l.length = data.length) (fun j l hl => Post.loopN_inv (P := fun l => l.length = data.length)
        (fun k l hl => (Post.inSizeAt _ l).mono fun l' h => h.trans hl) _ _ l hl) _ _ data rfl) fun data' h4 =>
    Post.skip fun _ => Post.pure ?_
  refine ⟨⟨n.toNat, hn.1, ?_⟩, by rw [h4]; exact h3.2⟩
  show data'.length = _
  rw [h4, h3.1, mul_toNat_mod, toNat_succ hn.2]

theorem loadElementBlockBinary41_post (cfg : Cfg) (b : ElementBlock) : Post (loadElementBlockBinary41 cfg b) (·.LoadedIn cfg) := by
  unfold loadElementBlockBinary41
  refine Post.skip fun d => Post.skip fun t => Post.skip fun ty => Post.skip fun num =>
    Post.bind (Post.lift (nodesPerElement_post ty)) fun n hn =>
    Post.bind (Post.resize cfg _ _ _) fun data h3 => Post.bind (Post.readSizes data) fun data' h4 =>
    Post.skip fun _ => Post.pure ?_
  refine ⟨⟨n.toNat, hn.1, ?_⟩, by rw [h4]; exact h3.2⟩
  show data'.length = _
  rw [h4, h3.1, mul_toNat_mod, toNat_succ hn.2]

theorem loadElementsAscii41_post (cfg : Cfg) (n : Elements) : Post (loadElementsAscii41 cfg n) (·.LoadedIn cfg) := by
  unfold loadElementsAscii41
  refine Post.skip fun nb => Post.skip fun _ => Post.skip fun _ => Post.skip fun _ => Post.skip fun _ =>
    Post.bind (Post.resize cfg _ nb _) fun bs h => Post.bind (Post.forEach (loadElementBlockAscii41_post cfg) bs) fun bs' h' => Post.pure ?_
  exact ⟨by rw [h'.1]; exact h.1, by rw [h'.1]; exact h.2, h'.2⟩

theorem loadElementsBinary41_post (cfg : Cfg) (n : Elements) : Post (loadElementsBinary41 cfg n) (·.LoadedIn cfg) := by
  unfold loadElementsBinary41
  refine Post.skip fun _ => Post.skip fun nb => Post.skip fun _ => Post.skip fun _ => Post.skip fun _ => Post.skip fun _ =>
    Post.bind (Post.resize cfg _ nb _) fun bs h => Post.bind (Post.forEach (loadElementBlockBinary41_post cfg) bs) fun bs' h' => Post.pure ?_
  exact ⟨by rw [h'.1]; exact h.1, by rw [h'.1]; exact h.2, h'.2⟩

/-- The groups in the physical-tag maps come from a set, whose size we bound by the number of insertions. -/
structure Blocks22 (cfg : Cfg) (base : List ElementBlock) (k : Nat) (blocks : List ElementBlock) : Prop where
  length : blocks.length = base.length + k
  small : blocks.length ≤ cfg.maxCount
  block : ∀ b ∈ blocks, b.LoadedIn cfg

theorem makeElement22_post (cfg : Cfg) (num ty : Int32) (tags ids : List Int32) (blocks : List ElementBlock) (maps : List PhysMap)
    (hty : mshNodes ty = some ids.length) (base : List ElementBlock) (k : Nat) (h : Blocks22 cfg base k blocks) :
    OPost (makeElement22 cfg num ty tags ids blocks maps) fun r => Blocks22 cfg base (k + 1) r.1 := by
  unfold makeElement22
  obtain ⟨-, h56, -⟩ := nodesPerElement_of_mshNodes hty
  refine OPost.bind (OPost.vecPush cfg blocks _) fun bs hbs => OPost.skip fun dim => ?_
  suffices hs : ∀ (et : Int32) (m : List PhysMap), OPost (vecResize cfg ([] : List UInt64) (UInt64.ofNat (ids.length + 1)) 0 >>= fun _ =>
      (pure (blocks ++ [⟨dim, et, ty, 1, sizeOfInt num :: ids.map sizeOfInt⟩], m) : Outcome (List ElementBlock × List PhysMap)))
        fun r => Blocks22 cfg base (k + 1) r.1 by
    match tags with
    | [] => exact OPost.skip fun r => hs r.1 r.2
    | [t0] => exact OPost.skip fun r => hs r.1 r.2
    | t0 :: t1 :: _ => exact OPost.skip fun _ => OPost.skip fun _ => OPost.skip fun r => hs r.1 r.2
  intro et m
  refine OPost.bind (OPost.vecResize cfg _ _ _) fun l hl => OPost.pure ?_
  obtain ⟨rfl, hbs⟩ := hbs
  rw [UInt64.toNat_ofNat', Nat.mod_eq_of_lt (by omega)] at hl
  rw [List.length_append] at hbs
  refine ⟨?_, ?_, ?_⟩
  · show (blocks ++ [_]).length = _
    rw [List.length_append, h.length]
    rfl
  · show (blocks ++ [_]).length ≤ _
    rw [List.length_append]
    exact hbs
  · intro c hc
    rcases List.mem_append.mp (show c ∈ blocks ++ [_] from hc) with hc | hc
    · exact h.block c hc
    · rw [List.mem_singleton] at hc
      subst hc
      refine ⟨⟨ids.length, hty, ?_⟩, ?_⟩
      · show (_ :: ids.map sizeOfInt).length = (1 : UInt64).toNat * _ % _
        rw [List.length_cons, List.length_map, show (1 : UInt64).toNat = 1 from rfl]
        omega
      · show (_ :: ids.map sizeOfInt).length ≤ _
        rw [List.length_cons, List.length_map]
        omega

theorem setInsert_len (x : Int32) (l : List Int32) : (setInsert x l).length ≤ l.length + 1 := by
  induction l with
  | nil => simp [setInsert]
  | cons y l ih =>
    unfold setInsert
    split
    · simp
    · split
      · simp
      · simpa using ih

/-- A map holding at most `k` keys and sets. -/
def Maps22 (k : Nat) (maps : List PhysMap) : Prop := ∀ m ∈ maps, m.length ≤ k ∧ ∀ p ∈ m, p.2.length ≤ k

theorem physAdd_len (k v : Int32) (N : Nat) (m : PhysMap) (h : m.length ≤ N ∧ ∀ p ∈ m, p.2.length ≤ N) :
    (physAdd k v m).length ≤ N + 1 ∧ ∀ p ∈ physAdd k v m, p.2.length ≤ N + 1 := by
  induction m generalizing N with
  | nil => simp [physAdd]
  | cons q m ih =>
    obtain ⟨k', vs⟩ := q
    unfold physAdd
    obtain ⟨h1, h2⟩ := h
    rw [List.length_cons] at h1
    split
    · refine ⟨by simp only [List.length_cons]; omega, ?_⟩
      intro p hp
      rcases List.mem_cons.mp hp with rfl | hp
      · simp
      · exact Nat.le_succ_of_le (h2 p hp)
    · split
      · refine ⟨by simp only [List.length_cons]; omega, ?_⟩
        intro p hp
        rcases List.mem_cons.mp hp with rfl | hp
        · exact (setInsert_len v vs).trans (Nat.succ_le_succ (h2 _ List.mem_cons_self))
        · exact Nat.le_succ_of_le (h2 p (List.mem_cons_of_mem _ hp))
      · have hl : m.length ≤ N - 1 := by omega
        have a : (physAdd k v m).length ≤ m.length + 1 := by
          clear h2 ih hl h1
          induction m with
          | nil => simp [physAdd]
          | cons q m ih =>
            obtain ⟨k1, v1⟩ := q
            unfold physAdd
            split
            · simp
            · split
              · simp
              · simpa using ih
        refine ⟨by simp only [List.length_cons]; omega, ?_⟩
        intro p hp
        rcases List.mem_cons.mp hp with rfl | hp
        · exact Nat.le_succ_of_le (h2 _ List.mem_cons_self)
        · exact (ih N ⟨by omega, fun p hp => h2 p (List.mem_cons_of_mem _ hp)⟩).2 p hp

theorem makeElement22_maps (cfg : Cfg) (num ty : Int32) (tags ids : List Int32) (blocks : List ElementBlock) (maps : List PhysMap)
    (k : Nat) (h : Maps22 k maps) :
    OPost (makeElement22 cfg num ty tags ids blocks maps) fun r => Maps22 (k + 1) r.2 := by
  unfold makeElement22
  have h' : Maps22 (k + 1) maps := fun m hm => ⟨Nat.le_succ_of_le (h m hm).1, fun p hp => Nat.le_succ_of_le ((h m hm).2 p hp)⟩
  refine OPost.skip fun bs => OPost.skip fun dim => ?_
  suffices hs : ∀ (r : Int32 × List PhysMap), Maps22 (k + 1) r.2 →
      OPost (vecResize cfg ([] : List UInt64) (UInt64.ofNat (ids.length + 1)) 0 >>= fun _ =>
      (pure (blocks ++ [⟨dim, r.1, ty, 1, sizeOfInt num :: ids.map sizeOfInt⟩], r.2) : Outcome (List ElementBlock × List PhysMap)))
        fun r => Maps22 (k + 1) r.2 by
    match tags with
    | [] => exact OPost.bind (OPost.pure (Q := fun r : Int32 × List PhysMap => Maps22 (k + 1) r.2) h') hs
    | [t0] => exact OPost.bind (OPost.pure (Q := fun r : Int32 × List PhysMap => Maps22 (k + 1) r.2) h') hs
    | t0 :: t1 :: _ =>
      refine OPost.bind (P := fun m => m ∈ maps) ?_ fun m hm => OPost.bind (P := Maps22 (k + 1)) ?_ fun maps' hm' =>
        OPost.bind (OPost.pure (Q := fun r : Int32 × List PhysMap => Maps22 (k + 1) r.2) hm') hs
      · intro m hm
        unfold vecGet at hm
        split at hm
        · next a ha => cases hm; exact List.mem_of_getElem? ha
        · cases hm
      · unfold vecSet
        refine OPost.ite (fun hl => OPost.ok ?_) fun _ => OPost.ub
        intro c hc
        rcases List.mem_or_eq_of_mem_set hc with hc | rfl
        · exact h' c hc
        · exact physAdd_len _ _ _ _ (h m hm)
  exact fun r hr => OPost.skip fun l => OPost.pure hr

theorem createEntities_post {E : Type} (cfg : Cfg) (mk : Int32 → List Int32 → E) (m : PhysMap) (es : List E) (Q : E → Prop)
    (hQ : ∀ p ∈ m, Q (mk p.1 p.2)) (hs : es.length ≤ cfg.maxCount) (he : ∀ e ∈ es, Q e) :
    OPost (createEntities cfg mk m es) fun l => l.length ≤ cfg.maxCount ∧ ∀ e ∈ l, Q e := by
  unfold createEntities
  refine OPost.foldO m (fun p hp st hst => ?_) es ⟨hs, he⟩
  obtain ⟨k, vs⟩ := p
  refine (OPost.vecPush cfg st _).mono ?_
  rintro l ⟨rfl, hl⟩
  refine ⟨hl, ?_⟩
  intro e he
  rcases List.mem_append.mp he with he | he
  · exact hst.2 e he
  · rw [List.mem_singleton] at he; subst he; exact hQ _ hp

theorem createAllEntities_post (cfg : Cfg) (maps : List PhysMap) (e : Entities) (k : Nat) (hk : k ≤ cfg.maxCount) (hm : Maps22 k maps)
    (he : e.Small cfg) : OPost (createAllEntities cfg maps e) (·.Small cfg) := by
  have g : ∀ i, OPost (vecGet maps i) fun m => m ∈ maps := by
    intro i m hm
    unfold vecGet at hm
    split at hm
    · next a ha => cases hm; exact List.mem_of_getElem? ha
    · cases hm
  unfold createAllEntities
  refine OPost.bind (g 0) fun m0 h0 => OPost.bind (createEntities_post cfg _ m0 _ (fun p : PointEntity => p.Small cfg)
      (fun p hp => ((hm m0 h0).2 p hp).trans hk) he.points he.point) fun points hp =>
    OPost.bind (g 1) fun m1 h1 => OPost.bind (createEntities_post cfg _ m1 _ (fun p : BoxEntity => p.Small cfg)
      (fun p hp => ⟨((hm m1 h1).2 p hp).trans hk, Nat.zero_le _⟩) he.curves he.curve) fun curves hc =>
    OPost.bind (g 2) fun m2 h2 => OPost.bind (createEntities_post cfg _ m2 _ (fun p : BoxEntity => p.Small cfg)
      (fun p hp => ⟨((hm m2 h2).2 p hp).trans hk, Nat.zero_le _⟩) he.surfaces he.surface) fun surfaces hs =>
    OPost.bind (g 3) fun m3 h3 => OPost.bind (createEntities_post cfg _ m3 _ (fun p : BoxEntity => p.Small cfg)
      (fun p hp => ⟨((hm m3 h3).2 p hp).trans hk, Nat.zero_le _⟩) he.volumes he.volume) fun volumes hv => OPost.pure ?_
  exact ⟨hp.1, hc.1, hs.1, hv.1, hp.2, hc.2, hs.2, hv.2⟩

theorem OPost.and {α : Type} {m : Outcome α} {P Q : α → Prop} (h : OPost m P) (h' : OPost m Q) : OPost m fun a => P a ∧ Q a :=
  fun a e => ⟨h a e, h' a e⟩

theorem loadElementAscii22_post (cfg : Cfg) (base : List ElementBlock) (k : Nat) (st : Ascii22)
    (h : Blocks22 cfg base k st.blocks ∧ Maps22 k st.maps) :
    Post (loadElementAscii22 cfg st) fun r => Blocks22 cfg base (k + 1) r.blocks ∧ Maps22 (k + 1) r.maps := by
  unfold loadElementAscii22
  refine Post.skip fun _ => Post.skip fun _ => Post.skip fun _ => Post.skip fun _ => Post.skip fun _ => Post.skip fun tags =>
    Post.skip fun et => Post.bind (Post.lift (nodesPerElement_post et)) fun n hn => Post.bind (Post.resize cfg _ _ _) fun ids h1 =>
    Post.bind (Post.forEach_length _ ids) fun ids' h2 => Post.skip fun en =>
    Post.bind (Post.lift ((makeElement22_post cfg en et tags ids' st.blocks st.maps ?_ base k h.1).and
      (makeElement22_maps cfg en et tags ids' st.blocks st.maps k h.2))) fun r hr => ?_
  · rw [h2, h1.1]; exact hn.1
  · obtain ⟨bs, ms⟩ := r
    exact Post.pure hr

theorem maps22_start : Maps22 0 [[], [], [], []] := by
  intro m hm
  simp only [List.mem_cons, List.not_mem_nil, or_false, or_self] at hm
  subst hm
  simp

theorem elements22_done {cfg : Cfg} {e : Elements} {k : Nat} {blocks : List ElementBlock} (h : e.LoadedIn cfg)
    (hb : Blocks22 cfg e.entityBlocks k blocks) (num : UInt64) (hk : num.toNat = k) (x lo hi : UInt64) :
    Elements.LoadedIn cfg ⟨e.numEntityBlocks + num, x, lo, hi, blocks⟩ := by
  refine ⟨?_, hb.small, hb.block⟩
  show blocks.length = (e.numEntityBlocks + num).toNat
  have h1 := hb.length
  have h2 := h.blocks
  have h3 := hb.small
  have h4 := cfg.maxCount_lt
  rw [UInt64.toNat_add]
  omega

theorem loadElementsAscii22_post (cfg : Cfg) (e : Elements) (ents : Entities) (h : e.LoadedIn cfg) (he : ents.Small cfg) :
    Post (loadElementsAscii22 cfg e ents) fun r => r.1.LoadedIn cfg ∧ r.2.Small cfg := by
  unfold loadElementsAscii22
  refine Post.skip fun _ => Post.skip fun num => Post.bind (Post.loopN
    (P := fun i (st : Ascii22) => Blocks22 cfg e.entityBlocks i st.blocks ∧ Maps22 i st.maps) _ _ _
    ⟨⟨rfl, h.small, h.block⟩, maps22_start⟩ fun j st _ _ hst => loadElementAscii22_post cfg _ j st hst) fun st hst => ?_
  rw [Nat.zero_add] at hst
  have hk : num.toNat ≤ cfg.maxCount := by
    have := hst.1.length
    have := hst.1.small
    omega
  exact Post.bind (Post.lift (createAllEntities_post cfg st.maps ents _ hk hst.2 he)) fun es hes =>
    Post.pure ⟨elements22_done h hst.1 num rfl _ _ _, hes⟩

/-- What the binary version 2.2 loop keeps. -/
def Inv22B (cfg : Cfg) (base : List ElementBlock) (st : Binary22) : Prop :=
  ∃ k, Blocks22 cfg base k st.blocks ∧ Maps22 k st.maps

theorem loadElementBinary22_post (cfg : Cfg) (base : List ElementBlock) (N : UInt64) (et nt : Int32) (n : Nat) (hn : mshNodes et = some n)
    (st : Option Int32 × Binary22) (h : Inv22B cfg base st.2 ∧ st.2.nodeIds.length = n) :
    Post (loadElementBinary22 cfg N et nt st) fun r => Inv22B cfg base r.2 ∧ r.2.nodeIds.length = n := by
  unfold loadElementBinary22
  obtain ⟨⟨k, hb, hm⟩, hl⟩ := h
  refine Post.skip fun id => Post.ite (fun _ => Post.ub) fun _ => Post.skip fun tags => Post.bind (Post.readInts _) fun ids hi =>
    Post.skip fun id => Post.bind (Post.lift ((makeElement22_post cfg id et tags ids st.2.blocks st.2.maps ?_ base k hb).and
      (makeElement22_maps cfg id et tags ids st.2.blocks st.2.maps k hm))) fun r hr => ?_
  · rw [hi, hl]; exact hn
  · obtain ⟨bs, ms⟩ := r
    exact Post.ite (fun _ => Post.throw) fun _ => Post.pure ⟨⟨k + 1, hr⟩, hi.trans hl⟩

theorem loadElementGroupBinary22_post (cfg : Cfg) (base : List ElementBlock) (N : UInt64) (st : Binary22) (h : Inv22B cfg base st) :
    Post (loadElementGroupBinary22 cfg N st) (Inv22B cfg base) := by
  unfold loadElementGroupBinary22
  refine Post.skip fun _ => Post.skip fun _ => Post.skip fun _ => Post.skip fun nt => Post.skip fun tags => Post.skip fun et =>
    Post.bind (Post.lift (nodesPerElement_post et)) fun n hn => Post.bind (Post.resize cfg _ _ _) fun ids h1 => Post.skip fun nb =>
    Post.bind (Post.loopN_inv (P := fun st : Option Int32 × Binary22 => Inv22B cfg base st.2 ∧ st.2.nodeIds.length = n.toNat)
      (fun j st hst => loadElementBinary22_post cfg base N et nt _ hn.1 st hst) _ _ _ ⟨h, h1.1⟩) fun r hr => ?_
  obtain ⟨a, st'⟩ := r
  exact Post.pure hr.1

theorem loadElementGroups22_post (cfg : Cfg) (base : List ElementBlock) (N : UInt64) (fuel : Nat) : ∀ st, Inv22B cfg base st →
    Post (loadElementGroups22 cfg N fuel st) (Inv22B cfg base) := by
  induction fuel with
  | zero => intro st _ s a s' e; cases e
  | succ n ih =>
    intro st h
    unfold loadElementGroups22
    exact Post.ite (fun _ => Post.pure h) fun _ => Post.bind (loadElementGroupBinary22_post cfg base N st h) ih

theorem loadElementsBinary22_post (cfg : Cfg) (e : Elements) (ents : Entities) (h : e.LoadedIn cfg) (he : ents.Small cfg) :
    Post (loadElementsBinary22 cfg e ents) fun r => r.1.LoadedIn cfg ∧ r.2.Small cfg := by
  unfold loadElementsBinary22
  refine Post.skip fun num => Post.skip fun _ => Post.skip fun _ => Post.bind (P := Inv22B cfg e.entityBlocks) ?_ fun st hst => ?_
  · intro s a s' hh
    exact loadElementGroups22_post cfg e.entityBlocks num _ { blocks := e.entityBlocks } ⟨0, ⟨rfl, h.small, h.block⟩, maps22_start⟩ s a s' hh
  · obtain ⟨k, hb, hm⟩ := hst
    have hk : k ≤ cfg.maxCount := by
      have := hb.length
      have := hb.small
      omega
    refine Post.bind (Post.lift (createAllEntities_post cfg st.maps ents _ hk hm he)) fun es hes => Post.pure ⟨⟨?_, hb.small, hb.block⟩, hes⟩
    show st.blocks.length = (sizeU st.blocks).toNat
    have := hb.small
    have := cfg.maxCount_lt
    rw [sizeU, UInt64.toNat_ofNat', Nat.mod_eq_of_lt (by omega)]

theorem loadElements_post (cfg : Cfg) (f : MeshFormat) (e : Elements) (ents : Entities) (h : e.LoadedIn cfg) (he : ents.Small cfg) :
    Post (loadElements cfg f e ents) fun r => r.1.LoadedIn cfg ∧ r.2.Small cfg := by
  unfold loadElements
  have h' : (if e.entityBlocks.length = 0 then { e with minElementTag := sizeMax, maxElementTag := 0 } else e).LoadedIn cfg := by
    split
    · exact ⟨h.1, h.2, h.3⟩
    · exact h
  refine Post.ite (fun _ => Post.ite (fun _ => ?_) fun _ => ?_)
    fun _ => Post.ite (fun _ => Post.ite (fun _ => loadElementsAscii22_post cfg _ _ h' he) fun _ => loadElementsBinary22_post cfg _ _ h' he)
      fun _ => Post.throw
  · exact Post.bind (loadElementsAscii41_post cfg _) fun r hr => Post.pure ⟨hr, he⟩
  · exact Post.bind (loadElementsBinary41_post cfg _) fun r hr => Post.pure ⟨hr, he⟩

end MshIO
