import Verif.Proofs.Volume
import Verif.Proofs.PostAll

/-!
# What is read is paid for: version 2.2, the conversion of version 2.2, and whole files
-/

namespace MshIO

variable {α β σ : Type}

/-! ## Nodes -/

theorem pays_nodesAscii22 (cfg : Cfg) (n : Nodes) : Pays (wNodes n) (loadNodesAscii22 cfg n) wNodes := by
  unfold loadNodesAscii22
  refine Pays.bindP _ (Pays.free (tame_pushBack _ _ _)) (post_pushBack _ _ _) (fun l => Tame.sticky (by tame)) fun bs hbs => ?_
  refine (pays_inSize _ _).one fun num => Pays.skip (tame_assertGood cfg) fun _ => ?_
  refine Pays.bindP _ (Pays.free (tame_resize _ _ _ _)) (post_resize _ _ _ _) (fun l => Tame.sticky (by tame)) fun tags ht => ?_
  refine Pays.bindP _ (Pays.free (tame_resize _ _ _ _)) (post_resize _ _ _ _) (fun l => Tame.sticky (by tame)) fun data hd => ?_
  refine Pays.bindP (P := fun p : List UInt64 × List Double => p.1.length = tags.length ∧ p.2.length = data.length) _
    (Pays.loopN (P := fun _ => True) 4 (fun i a => Tame.sticky (by tame)) (fun _ _ _ _ _ _ _ => trivial) (fun i a k _ => ?_) num.toNat 0 _ (tags, data) trivial)
    (Post.loopN_inv (fun i a ha => ?_) _ _ _ ⟨rfl, rfl⟩) (fun a => Tame.sticky (by tame)) fun a ha => ?_
  · obtain ⟨t, d⟩ := a
    exact (pays_inSizeAt _ _ _).one fun t => (pays_inDoubleAt _ _ _).one fun d => (pays_inDoubleAt _ _ _).one fun d => (pays_inDoubleAt _ _ _).one fun d =>
      Pays.skip (tame_assertGood cfg) fun _ => Pays.pure (by omega)
  · obtain ⟨t, d⟩ := a
    exact Post.bind (Post.inSizeAt _ _) fun t h0 => Post.bind (Post.inDoubleAt _ _) fun d h1 => Post.bind (Post.inDoubleAt _ _) fun d h2 => Post.bind (Post.inDoubleAt _ _) fun d h3 =>
      Post.skip fun _ => Post.pure ⟨by rw [h0]; exact ha.1, by rw [h3, h2, h1]; exact ha.2⟩
  · refine Pays.pure ?_
    obtain ⟨t, d⟩ := a
    simp only at ha
    simp only [wNodes, hbs, List.dropLast_concat, List.map_append, List.map_cons, List.map_nil, List.sum_append, List.sum_cons, List.sum_nil, wNodeBlock, ha.1, ha.2, ht, hd]
    have : (num * 3).toNat ≤ num.toNat * 3 := by rw [UInt64.toNat_mul]; exact Nat.mod_le _ _
    omega

theorem pays_nodesBinary22 (cfg : Cfg) (n : Nodes) : Pays (wNodes n) (loadNodesBinary22 cfg n) wNodes := by
  unfold loadNodesBinary22
  have hT : ∀ i a, Tame (loadNodeBinary22 cfg i a) := fun i a => by unfold loadNodeBinary22; tame
  refine Pays.bindP _ (Pays.free (tame_pushBack _ _ _)) (post_pushBack _ _ _) (fun l => Tame.sticky (by tame)) fun bs hbs => ?_
  refine (pays_inSize _ _).one fun num => Pays.skip (tame_assertGood cfg) fun _ => ?_
  refine Pays.bindP _ (Pays.free (tame_resize _ _ _ _)) (Post.resize _ _ _ _) (fun l => Tame.sticky (by tame)) fun tags ht => ?_
  refine Pays.bindP _ (Pays.free (tame_resize _ _ _ _)) (post_resize _ _ _ _) (fun l => Tame.sticky (by tame)) fun data hd => ?_
  refine Pays.skip (tame_eatWhiteSpace 1) fun _ => ?_
  refine Pays.bindP (P := fun p : List UInt64 × List Double => p.1.length = tags.length ∧ p.2.length ≤ data.length) _
    (Pays.loopN (P := fun _ => True) 4 (fun i a => (hT i a).sticky) (fun _ _ _ _ _ _ _ => trivial) (fun i a k _ => ?_) num.toNat 0 _ (tags, data) trivial)
    (Post.loopN (P := fun _ (p : List UInt64 × List Double) => p.1.length = tags.length ∧ p.2.length ≤ data.length) _ _ _ ⟨rfl, Nat.le_refl _⟩ fun i a _ hi ha => ?_) (fun a => Tame.sticky (by tame)) fun a ha => ?_
  · unfold loadNodeBinary22
    exact Pays.skip (tame_assertGood cfg) fun _ => (pays_readIntVar _ _).one fun v => Pays.skip (tame_useVar _) fun tag => Pays.skip (Tame.lift (NoHang.vecSet _ _ _)) fun tags =>
      Pays.skip (Tame.lift (NoHang.vecGet _ _)) fun x => Pays.skip (Tame.lift (NoHang.vecGet _ _)) fun y => Pays.skip (Tame.lift (NoHang.vecGet _ _)) fun z =>
      Pays.bindP _ (pays_readDoubles _ _) (Post.readDoubles _) (fun _ => (Tame.pure _).sticky) fun c hc => Pays.pure (by rw [hc]; simp)
  · have := ht.1
    have := ht.2
    have := cfg.maxCount_lt
    exact (loadNodeBinary22_post cfg i a (by omega)).mono fun r hr => ⟨hr.1.trans ha.1, by rw [hr.2]; exact ha.2⟩
  · refine Pays.pure ?_
    obtain ⟨t, d⟩ := a
    simp only at ha
    simp only [wNodes, hbs, List.dropLast_concat, List.map_append, List.map_cons, List.map_nil, List.sum_append, List.sum_cons, List.sum_nil, wNodeBlock, ha.1]
    have h1 := ht.1
    have h2 := ha.2
    rw [hd] at h2
    have : (num * 3).toNat ≤ num.toNat * 3 := by rw [UInt64.toNat_mul]; exact Nat.mod_le _ _
    omega

/-! ## Elements -/

theorem Pays.loopW {f : Nat → σ → Rd σ} {v : σ → Nat} (h : ∀ i a k, Pays (k + v a) (f i a) fun a' => k + v a') (n : Nat) :
    ∀ i k a, Pays (k + v a) (MshIO.loopN f n i a) fun a' => k + v a' := by
  induction n with
  | zero => intro i k a; exact Pays.pure (Nat.le_refl _)
  | succ n ih => intro i k a; unfold MshIO.loopN; exact Pays.bind _ (h i a k) fun a' => ih (i + 1) k a'

/-- The weight of a map from tags to physical groups. -/
def wMap (m : PhysMap) : Nat := (m.map fun p => 1 + p.2.length).sum
def wMaps (l : List PhysMap) : Nat := (l.map wMap).sum

theorem physAdd_weight (k v : Int32) (m : PhysMap) : wMap (physAdd k v m) ≤ wMap m + 2 := by
  induction m with
  | nil => simp [physAdd, wMap]
  | cons p m ih =>
    obtain ⟨k', vs⟩ := p
    unfold physAdd
    split
    · simp [wMap]; omega
    split
    · have := setInsert_length v vs
      simp [wMap]; omega
    · simp only [wMap, List.map_cons, List.sum_cons] at ih ⊢
      omega

theorem sum_set_le {f : α → Nat} {c : Nat} (l : List α) : ∀ (i : Nat) (a x : α), l[i]? = some a → f x ≤ f a + c → ((l.set i x).map f).sum ≤ (l.map f).sum + c := by
  induction l with
  | nil => intro i a x h; simp at h
  | cons b l ih =>
    intro i a x h hx
    cases i with
    | zero => simp at h; subst h; simp; omega
    | succ i =>
      have := ih i a x (by simpa using h) hx
      simp only [List.set_cons_succ, List.map_cons, List.sum_cons]
      omega

theorem opost_vecGet {v : List α} {i : UInt64} : OPost (vecGet v i) fun a => v[i.toNat]? = some a := by
  unfold vecGet
  split
  · exact OPost.ok ‹_›
  · exact OPost.ub

/-- One element: its block weighs two and its nodes; two tags pay for what is added to a map. -/
theorem makeElement22_weight (cfg : Cfg) (en et : Int32) (tags ids : List Int32) (bs : List ElementBlock) (maps : List PhysMap) :
    OPost (makeElement22 cfg en et tags ids bs maps) fun p => (p.1.map wElementBlock).sum + wMaps p.2 ≤ (bs.map wElementBlock).sum + wMaps maps + tags.length + ids.length + 2 := by
  unfold makeElement22
  refine OPost.skip fun _ => OPost.skip fun dim => ?_
  suffices hs : ∀ (t : Int32) (m : List PhysMap), wMaps m ≤ wMaps maps + tags.length → OPost (vecResize cfg ([] : List UInt64) (UInt64.ofNat (ids.length + 1)) 0 >>= fun _ =>
      (pure (bs ++ [⟨dim, t, et, 1, sizeOfInt en :: ids.map sizeOfInt⟩], m) : Outcome (List ElementBlock × List PhysMap)))
        fun p => (p.1.map wElementBlock).sum + wMaps p.2 ≤ (bs.map wElementBlock).sum + wMaps maps + tags.length + ids.length + 2 by
    match tags with
    | [] => exact hs _ _ (Nat.le_add_right _ _)
    | [t0] => exact hs _ _ (Nat.le_add_right _ _)
    | t0 :: t1 :: _ =>
      refine OPost.bind opost_vecGet fun m hm => OPost.bind (P := fun ms => wMaps ms ≤ wMaps maps + 2) ?_ fun ms h => hs _ _ ?_
      · unfold vecSet
        exact OPost.ite (fun _ => OPost.ok (sum_set_le maps _ m _ hm (physAdd_weight _ _ _))) fun _ => OPost.ub
      · simp only [List.length_cons]; omega
  · intro t m hq
    refine OPost.skip fun _ => OPost.pure ?_
    simp only [List.map_append, List.map_cons, List.map_nil, List.sum_append, List.sum_cons, List.sum_nil, wElementBlock, List.length_cons, List.length_map]
    omega

theorem createEntities_weight {E : Type} (cfg : Cfg) (mk : Int32 → List Int32 → E) (w : E → Nat) (hw : ∀ t g, w (mk t g) = 1 + g.length) (m : PhysMap) :
    ∀ es, OPost (createEntities cfg mk m es) fun es' => (es'.map w).sum = (es.map w).sum + wMap m := by
  induction m with
  | nil => intro es; exact OPost.ok (by simp [wMap])
  | cons p m ih =>
    intro es
    unfold createEntities foldO
    refine OPost.bind (OPost.vecPush cfg _ _) fun es1 h1 => (ih es1).mono fun es2 h2 => ?_
    rw [h2, h1.1]
    simp only [List.map_append, List.map_cons, List.map_nil, List.sum_append, List.sum_cons, List.sum_nil, wMap, hw]
    omega

theorem createAllEntities_weight (cfg : Cfg) (maps : List PhysMap) (e : Entities) :
    OPost (createAllEntities cfg maps e) fun e' => wEntities e' ≤ wEntities e + wMaps maps := by
  unfold createAllEntities
  refine OPost.bind opost_vecGet fun m0 h0 => OPost.bind (createEntities_weight cfg _ wPoint (fun _ _ => rfl) _ _) fun p hp => ?_
  refine OPost.bind opost_vecGet fun m1 h1 => OPost.bind (createEntities_weight cfg _ wBox (fun _ _ => rfl) _ _) fun c hc => ?_
  refine OPost.bind opost_vecGet fun m2 h2 => OPost.bind (createEntities_weight cfg _ wBox (fun _ _ => rfl) _ _) fun s hs => ?_
  refine OPost.bind opost_vecGet fun m3 h3 => OPost.bind (createEntities_weight cfg _ wBox (fun _ _ => rfl) _ _) fun v hv => OPost.pure ?_
  change maps[0]? = _ at h0
  change maps[1]? = _ at h1
  change maps[2]? = _ at h2
  change maps[3]? = _ at h3
  match maps, h0, h1, h2, h3 with
  | _ :: _ :: _ :: _ :: rest, h0, h1, h2, h3 =>
    simp only [List.getElem?_cons_zero, List.getElem?_cons_succ, Option.some.injEq] at h0 h1 h2 h3
    subst h0 h1 h2 h3
    simp only [wEntities, wMaps, List.map_cons, List.sum_cons] at *
    omega

theorem pays_elementAscii22 (cfg : Cfg) (st : Ascii22) (k : Nat) :
    Pays (k + ((st.blocks.map wElementBlock).sum + wMaps st.maps)) (loadElementAscii22 cfg st) fun st' => k + ((st'.blocks.map wElementBlock).sum + wMaps st'.maps) := by
  unfold loadElementAscii22
  refine (pays_inIntVar _ _).one fun en => (pays_inIntVar _ _).one fun et => Pays.skip (tame_inIntVar _) fun nt => Pays.skip (tame_useVar _) fun nt => Pays.skip (tame_resize _ _ _ _) fun tags =>
    Pays.bind _ (Pays.forEach_len pays_inInt tags) fun tags => Pays.skip (tame_useVar _) fun et' => Pays.skip (Tame.lift (NoHang.nodesPerElement _)) fun n => Pays.skip (tame_resize _ _ _ _) fun ids =>
    Pays.bind _ (Pays.forEach_len pays_inInt ids) fun ids => Pays.skip (tame_useVar _) fun en' =>
    Pays.bind (fun p => k + ((p.1.map wElementBlock).sum + wMaps p.2)) (Pays.lift ((makeElement22_weight cfg en' et' tags ids st.blocks st.maps).mono fun p hp => ?_)) fun p => Pays.pure (Nat.le_refl _)
  omega

theorem pays_elementsAscii22 (cfg : Cfg) (e : Elements) (ents : Entities) :
    Pays (wElements e + wEntities ents) (loadElementsAscii22 cfg e ents) fun p => wElements p.1 + wEntities p.2 := by
  unfold loadElementsAscii22
  refine Pays.skip tame_extractSize fun a => Pays.skip (tame_useVar _) fun num => ?_
  refine Pays.bind (fun st => wEntities ents + ((st.blocks.map wElementBlock).sum + wMaps st.maps)) ?_ fun st => ?_
  · have := Pays.loopW (v := fun st : Ascii22 => (st.blocks.map wElementBlock).sum + wMaps st.maps) (fun _ st k => pays_elementAscii22 cfg st k) num.toNat 0 (wEntities ents)
      { lo := e.minElementTag, hi := e.maxElementTag, blocks := e.entityBlocks }
    rw [show wElements e + wEntities ents = wEntities ents + ((e.entityBlocks.map wElementBlock).sum + wMaps [[], [], [], []]) from by
      simp [wElements, wMaps, wMap]; omega]
    exact this
  · refine Pays.bind (fun en => (st.blocks.map wElementBlock).sum + wEntities en) (Pays.lift ((createAllEntities_weight cfg _ _).mono fun en h => ?_)) fun en => Pays.pure (Nat.le_refl _)
    omega

theorem pays_elementBinary22 (cfg : Cfg) (N : UInt64) (et nt : Int32) (st : Option Int32 × Binary22) (k : Nat) :
    Pays (k + ((st.2.blocks.map wElementBlock).sum + wMaps st.2.maps)) (loadElementBinary22 cfg N et nt st) fun st' => k + ((st'.2.blocks.map wElementBlock).sum + wMaps st'.2.maps) := by
  unfold loadElementBinary22
  refine Pays.bind _ (pays_readIntVar4 _ _) fun id => Pays.ite (fun _ => Pays.ub) fun _ => ?_
  refine Pays.bind _ (pays_readInts _ _) fun tags => Pays.bind _ (pays_readInts _ _) fun ids => Pays.skip (tame_useVar _) fun id' =>
    Pays.bind (fun p => k + ((p.1.map wElementBlock).sum + wMaps p.2)) (Pays.lift ((makeElement22_weight cfg id' et tags ids st.2.blocks st.2.maps).mono fun p hp => ?_)) fun p =>
    Pays.ite (fun _ => Pays.throw) fun _ => Pays.pure (Nat.le_refl _)
  omega

theorem pays_groups22 (cfg : Cfg) (N : UInt64) (k : Nat) (fuel : Nat) : ∀ st : Binary22,
    Pays (k + ((st.blocks.map wElementBlock).sum + wMaps st.maps)) (loadElementGroups22 cfg N fuel st) fun st' => k + ((st'.blocks.map wElementBlock).sum + wMaps st'.maps) := by
  induction fuel with
  | zero => intro st; exact ⟨⟨fun _ _ _ h => by cases h⟩, fun _ _ _ h => by cases h⟩
  | succ fuel ih =>
    intro st
    unfold loadElementGroups22
    refine Pays.ite (fun _ => Pays.pure (Nat.le_refl _)) fun _ => Pays.bind _ ?_ fun st' => ih st'
    unfold loadElementGroupBinary22
    refine Pays.skip (tame_readIntVar _) fun et => Pays.skip (tame_readIntVar _) fun nb => Pays.skip (tame_readIntVar _) fun nt => Pays.skip (tame_useVar _) fun nt => Pays.skip (tame_resize _ _ _ _) fun tags =>
      Pays.skip (tame_useVar _) fun et => Pays.skip (Tame.lift (NoHang.nodesPerElement _)) fun n => Pays.skip (tame_resize _ _ _ _) fun ids => Pays.skip (tame_useVar _) fun nb => ?_
    exact Pays.bind _ (Pays.loopW (v := fun st : Option Int32 × Binary22 => (st.2.blocks.map wElementBlock).sum + wMaps st.2.maps)
      (fun _ st k => pays_elementBinary22 cfg N et nt st k) (sizeOfInt nb).toNat 0 k (none, { st with tags, nodeIds := ids })) fun st' => Pays.pure (Nat.le_refl _)

theorem pays_elementsBinary22 (cfg : Cfg) (e : Elements) (ents : Entities) :
    Pays (wElements e + wEntities ents) (loadElementsBinary22 cfg e ents) fun p => wElements p.1 + wEntities p.2 := by
  unfold loadElementsBinary22
  refine Pays.skip (tame_inSize _) fun N => Pays.skip (Tame.lift (NoHang.vecReserve _ _)) fun _ => Pays.skip (tame_eatWhiteSpace 1) fun _ => ?_
  refine Pays.bind (fun st => wEntities ents + ((st.blocks.map wElementBlock).sum + wMaps st.maps)) ?_ fun st => ?_
  · rw [show wElements e + wEntities ents = wEntities ents + ((e.entityBlocks.map wElementBlock).sum + wMaps [[], [], [], []]) from by
      simp [wElements, wMaps, wMap]; omega]
    exact ⟨⟨fun s => (pays_groups22 cfg N (wEntities ents) (s.rem.length + 2) { blocks := e.entityBlocks }).sticky.all s⟩,
      fun s => (pays_groups22 cfg N (wEntities ents) (s.rem.length + 2) { blocks := e.entityBlocks }).all s⟩
  · refine Pays.bind (fun en => (st.blocks.map wElementBlock).sum + wEntities en) (Pays.lift ((createAllEntities_weight cfg _ _).mono fun en h => ?_)) fun en => Pays.pure (Nat.le_refl _)
    omega

/-! ## Sections and files -/

theorem pays_nodes (cfg : Cfg) (f : MeshFormat) (n : Nodes) : Pays (wNodes n) (loadNodes cfg f n) wNodes := by
  unfold loadNodes
  have hw : ∀ n' : Nodes, n'.entityBlocks = n.entityBlocks → wNodes n' = wNodes n := fun n' h => by unfold wNodes; rw [h]
  rw [← hw (if n.entityBlocks.length = 0 then { n with minNodeTag := sizeMax, maxNodeTag := 0, numNodes := 0 } else n) (by split <;> rfl)]
  generalize (if n.entityBlocks.length = 0 then { n with minNodeTag := sizeMax, maxNodeTag := 0, numNodes := 0 } else n) = m
  exact Pays.ite (fun _ => Pays.ite (fun _ => (pays_nodes41 cfg m _).1.mono fun _ => by omega) fun _ => (pays_nodes41 cfg m _).2.mono fun _ => by omega)
    fun _ => Pays.ite (fun _ => Pays.ite (fun _ => pays_nodesAscii22 cfg m) fun _ => pays_nodesBinary22 cfg m) fun _ => Pays.throw

theorem pays_elements (cfg : Cfg) (f : MeshFormat) (e : Elements) (ents : Entities) :
    Pays (wElements e + wEntities ents) (loadElements cfg f e ents) fun p => wElements p.1 + wEntities p.2 := by
  unfold loadElements
  have hw : ∀ n' : Elements, n'.entityBlocks = e.entityBlocks → wElements n' = wElements e := fun n' h => by unfold wElements; rw [h]
  rw [← hw (if e.entityBlocks.length = 0 then { e with minElementTag := sizeMax, maxElementTag := 0 } else e) (by split <;> rfl)]
  generalize (if e.entityBlocks.length = 0 then { e with minElementTag := sizeMax, maxElementTag := 0 } else e) = m
  refine Pays.ite (fun _ => Pays.ite (fun _ => Pays.bind _ (pays_elements41 cfg m _).1 fun _ => Pays.pure ?_) fun _ => Pays.bind _ (pays_elements41 cfg m _).2 fun _ => Pays.pure ?_)
    fun _ => Pays.ite (fun _ => Pays.ite (fun _ => pays_elementsAscii22 cfg m ents) fun _ => pays_elementsBinary22 cfg m ents) fun _ => Pays.throw
  · simp only; omega
  · simp only; omega

theorem Pays.part {K k : Nat} {m : Rd α} {w : α → Nat} {g : α → β} {v : β → Nat} (c : Nat) (hk : k + c ≤ K) (h : Pays k m w) (hv : ∀ a, v (g a) = w a + c) :
    Pays K (m >>= fun a => Pure.pure (g a)) v := by
  exact Pays.bind (fun a => w a + c) ⟨h.sticky, fun s a s' e hf => by have := h.all s a s' e hf; omega⟩ fun a => Pays.pure (by rw [hv])

theorem pays_section (cfg : Cfg) (buf : Bytes) (s : MshSpec) : Pays (wSpec s) (loadSection cfg buf s) wSpec := by
  unfold loadSection
  refine Pays.ite (fun _ => Pays.skip (tame_loadMeshFormat _) fun x => Pays.pure (Nat.le_refl _)) fun _ => ?_
  refine Pays.ite (fun _ => Pays.part (wSpec s - wEntities s.entities) ?_ (pays_entities cfg _ _) fun x => ?_) fun _ => ?_
  · unfold wSpec; omega
  · simp only [wSpec]; omega
  refine Pays.ite (fun _ => Pays.part (wSpec s - (s.physicalGroups.map wGroup).sum) ?_ ((pays_physicalGroups cfg _ 0).mono (w' := fun x => (x.map wGroup).sum) fun x => Nat.le_add_left _ _) fun x => ?_) fun _ => ?_
  · unfold wSpec; omega
  · simp only [wSpec]; omega
  refine Pays.ite (fun _ => Pays.part (wSpec s - wNodes s.nodes) ?_ (pays_nodes cfg _ _) fun x => ?_) fun _ => ?_
  · unfold wSpec; omega
  · simp only [wSpec]; omega
  refine Pays.ite (fun _ => Pays.part (wSpec s - wElements s.elements - wEntities s.entities) ?_ (pays_elements cfg _ _ _) fun x => ?_) fun _ => ?_
  · unfold wSpec; omega
  · simp only [wSpec]; omega
  refine Pays.ite (fun _ => Pays.part (wSpec s - (s.nodeData.map wData).sum) ?_ (pays_dataSection cfg _ _ _) fun x => ?_) fun _ => ?_
  · unfold wSpec; omega
  · simp only [wSpec]; omega
  refine Pays.ite (fun _ => Pays.part (wSpec s - (s.elementData.map wData).sum) ?_ (pays_dataSection cfg _ _ _) fun x => ?_) fun _ => ?_
  · unfold wSpec; omega
  · simp only [wSpec]; omega
  refine Pays.ite (fun _ => Pays.part (wSpec s - (s.elementNodeData.map wData).sum) ?_ (pays_dataSection cfg _ _ _) fun x => ?_) fun _ => ?_
  · unfold wSpec; omega
  · simp only [wSpec]; omega
  refine Pays.ite (fun _ => Pays.skip (tame_inString _) fun x => Pays.pure (Nat.le_refl _)) fun _ => ?_
  refine Pays.ite (fun _ => Pays.part (wSpec s - (s.curves.map wCurve).sum) ?_ (pays_curves cfg _ _) fun x => ?_) fun _ => ?_
  · unfold wSpec; omega
  · simp only [wSpec]; omega
  refine Pays.ite (fun _ => Pays.part (wSpec s - (s.patches.map wPatch).sum) ?_ (pays_patches cfg _ _) fun x => ?_) fun _ => Pays.pure (Nat.le_refl _)
  · unfold wSpec; omega
  · simp only [wSpec]; omega

end MshIO
