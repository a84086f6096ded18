import Verif.Spec.Cut
import Verif.Proofs.Safe22

/-! # Cutting a file short in a build with assertions -/

namespace MshIO

variable {α β σ : Type}

/-! ## Readers that end with a good stream -/

/-- The reader comes back only with a good stream. -/
def EndsGood (m : Rd α) : Prop := ∀ s a s', m s = .ok (a, s') → s'.good = true

/-- The reader leaves a good stream good. -/
def KeepsGood (m : Rd α) : Prop := ∀ s a s', s.good = true → m s = .ok (a, s') → s'.good = true

theorem EndsGood.keeps {m : Rd α} (h : EndsGood m) : KeepsGood m := fun s a s' _ e => h s a s' e

theorem KeepsGood.pure (a : α) : KeepsGood (Pure.pure a : Rd α) := by
  intro s b s' hg e
  cases e; exact hg

theorem KeepsGood.lift (x : Outcome α) : KeepsGood (Rd.lift x) := by
  intro s b s' hg e
  unfold Rd.lift at e
  cases x <;> cases e
  exact hg

theorem KeepsGood.bind {m : Rd α} {f : α → Rd β} (h1 : KeepsGood m) (h2 : ∀ a, KeepsGood (f a)) : KeepsGood (m >>= f) := by
  intro s b s' hg e
  rw [Rd.bind_def] at e
  cases hm : m s with
  | ok r => rw [hm] at e; exact h2 r.1 r.2 b s' (h1 s r.1 r.2 hg hm) e
  | throw x => rw [hm] at e; cases e
  | abort => rw [hm] at e; cases e
  | ub => rw [hm] at e; cases e
  | hang => rw [hm] at e; cases e

theorem EndsGood.bind {m : Rd α} {f : α → Rd β} (h2 : ∀ a, EndsGood (f a)) : EndsGood (m >>= f) := by
  intro s b s' e
  rw [Rd.bind_def] at e
  cases hm : m s with
  | ok r => rw [hm] at e; exact h2 r.1 r.2 b s' e
  | throw x => rw [hm] at e; cases e
  | abort => rw [hm] at e; cases e
  | ub => rw [hm] at e; cases e
  | hang => rw [hm] at e; cases e

theorem EndsGood.then {m : Rd α} {f : α → Rd β} (h1 : EndsGood m) (h2 : ∀ a, KeepsGood (f a)) : EndsGood (m >>= f) := by
  intro s b s' e
  rw [Rd.bind_def] at e
  cases hm : m s with
  | ok r => rw [hm] at e; exact h2 r.1 r.2 b s' (h1 s r.1 r.2 hm) e
  | throw x => rw [hm] at e; cases e
  | abort => rw [hm] at e; cases e
  | ub => rw [hm] at e; cases e
  | hang => rw [hm] at e; cases e

theorem EndsGood.throw (e : Exc) : EndsGood (Rd.throw e : Rd α) := by
  intro s a s' h
  cases h

theorem KeepsGood.throw (e : Exc) : KeepsGood (Rd.throw e : Rd α) := (EndsGood.throw e).keeps

theorem EndsGood.assertGood {cfg : Cfg} (hA : cfg.asserts = true) : EndsGood (assertGood cfg) := by
  intro s a s' h
  unfold MshIO.assertGood at h
  rw [hA] at h
  cases hg : s.good with
  | true => rw [hg] at h; cases h; exact hg
  | false => rw [hg] at h; cases h

theorem KeepsGood.useVar (x : Option α) : KeepsGood (useVar x) := by
  cases x with
  | none => intro s a s' _ h; cases h
  | some a => exact KeepsGood.pure a

theorem KeepsGood.resize (cfg : Cfg) (v : List α) (n : UInt64) (d : α) : KeepsGood (resize cfg v n d) := KeepsGood.lift _

theorem KeepsGood.forEach {f : α → Rd α} (h : ∀ a, KeepsGood (f a)) (l : List α) : KeepsGood (MshIO.forEach f l) := by
  induction l with
  | nil => exact KeepsGood.pure _
  | cons a l ih => exact KeepsGood.bind (h a) fun _ => KeepsGood.bind ih fun _ => KeepsGood.pure _

theorem KeepsGood.loopN {f : Nat → α → Rd α} (h : ∀ i a, KeepsGood (f i a)) (n i : Nat) (a : α) : KeepsGood (MshIO.loopN f n i a) := by
  induction n generalizing i a with
  | zero => exact KeepsGood.pure _
  | succ n ih => exact KeepsGood.bind (h i a) fun _ => ih _ _

theorem EndsGood.ite {c : Prop} [Decidable c] {p q : Rd α} (h1 : EndsGood p) (h2 : EndsGood q) : EndsGood (if c then p else q) := by
  split <;> assumption

section readers
variable {cfg : Cfg} (hA : cfg.asserts = true)
include hA

/-- An assertion followed by a result. -/
theorem ends_last (a : α) : EndsGood (assertGood cfg >>= fun _ => (pure a : Rd α)) :=
  (EndsGood.assertGood hA).then fun _ => KeepsGood.pure _

theorem ends_physicalGroups (gs : List PhysicalGroup) : EndsGood (loadPhysicalGroups cfg gs) :=
  EndsGood.bind fun _ => EndsGood.bind fun _ => EndsGood.bind fun _ => EndsGood.bind fun _ => ends_last hA _

theorem ends_intListBinary (v : List Int32) : EndsGood (loadIntListBinary cfg v) :=
  EndsGood.bind fun _ => EndsGood.bind fun _ => EndsGood.bind fun _ => EndsGood.bind fun _ => EndsGood.bind fun _ => ends_last hA _

theorem ends_pointBinary (p : PointEntity) : EndsGood (loadPointBinary cfg p) :=
  EndsGood.bind fun _ => EndsGood.bind fun _ => EndsGood.bind fun _ => EndsGood.bind fun _ => (ends_intListBinary hA _).then fun _ => KeepsGood.pure _

theorem ends_boxBinary (p : BoxEntity) : EndsGood (loadBoxBinary cfg p) :=
  EndsGood.bind fun _ => EndsGood.bind fun _ => EndsGood.bind fun _ => EndsGood.bind fun _ => EndsGood.bind fun _ => EndsGood.bind fun _ => EndsGood.bind fun _ =>
    EndsGood.bind fun _ => (ends_intListBinary hA _).then fun _ => KeepsGood.pure _

theorem ends_entitiesBinary (e : Entities) : EndsGood (loadEntitiesBinary41 cfg e) :=
  EndsGood.bind fun _ => EndsGood.bind fun _ => EndsGood.bind fun _ => EndsGood.bind fun _ => EndsGood.bind fun _ => (EndsGood.assertGood hA).then fun _ =>
    (KeepsGood.useVar _).bind fun _ => (KeepsGood.resize _ _ _ _).bind fun _ => (KeepsGood.useVar _).bind fun _ => (KeepsGood.resize _ _ _ _).bind fun _ =>
    (KeepsGood.useVar _).bind fun _ => (KeepsGood.resize _ _ _ _).bind fun _ => (KeepsGood.useVar _).bind fun _ => (KeepsGood.resize _ _ _ _).bind fun _ =>
    (KeepsGood.forEach (fun _ => (ends_pointBinary hA _).keeps) _).bind fun _ => (KeepsGood.forEach (fun _ => (ends_boxBinary hA _).keeps) _).bind fun _ =>
    (KeepsGood.forEach (fun _ => (ends_boxBinary hA _).keeps) _).bind fun _ => (KeepsGood.forEach (fun _ => (ends_boxBinary hA _).keeps) _).bind fun _ =>
    KeepsGood.pure _

theorem ends_entitiesAscii (e : Entities) : EndsGood (loadEntitiesAscii41 cfg e) := by
  unfold loadEntitiesAscii41
  iterate 17 refine EndsGood.bind fun _ => ?_
  exact ends_last hA _

theorem ends_entities (f : MeshFormat) (e : Entities) : EndsGood (loadEntities cfg f e) ∨ loadEntities cfg f e = pure e := by
  unfold loadEntities
  split
  · exact Or.inl (EndsGood.ite (ends_entitiesAscii hA e) (ends_entitiesBinary hA e))
  split
  · exact Or.inl (EndsGood.throw _)
  · exact Or.inr rfl

theorem ends_nodeBlockAscii (b : NodeBlock) : EndsGood (loadNodeBlockAscii41 cfg b) := by
  unfold loadNodeBlockAscii41
  iterate 12 refine EndsGood.bind fun _ => ?_
  exact ends_last hA _

theorem ends_nodeBlockBinary (b : NodeBlock) : EndsGood (loadNodeBlockBinary41 cfg b) := by
  unfold loadNodeBlockBinary41
  iterate 11 refine EndsGood.bind fun _ => ?_
  exact ends_last hA _

theorem ends_elementBlockAscii (b : ElementBlock) : EndsGood (loadElementBlockAscii41 cfg b) := by
  unfold loadElementBlockAscii41
  iterate 7 refine EndsGood.bind fun _ => ?_
  exact ends_last hA _

theorem ends_elementBlockBinary (b : ElementBlock) : EndsGood (loadElementBlockBinary41 cfg b) := by
  unfold loadElementBlockBinary41
  iterate 7 refine EndsGood.bind fun _ => ?_
  exact ends_last hA _

theorem ends_nodesAscii41 (n : Nodes) : EndsGood (loadNodesAscii41 cfg n) := by
  unfold loadNodesAscii41
  iterate 4 refine EndsGood.bind fun _ => ?_
  exact (EndsGood.assertGood hA).then fun _ => (KeepsGood.resize _ _ _ _).bind fun _ => (KeepsGood.forEach (fun _ => (ends_nodeBlockAscii hA _).keeps) _).bind fun _ =>
    KeepsGood.pure _

theorem ends_nodesBinary41 (n : Nodes) : EndsGood (loadNodesBinary41 cfg n) := by
  unfold loadNodesBinary41
  iterate 5 refine EndsGood.bind fun _ => ?_
  exact (EndsGood.assertGood hA).then fun _ => (KeepsGood.resize _ _ _ _).bind fun _ => (KeepsGood.forEach (fun _ => (ends_nodeBlockBinary hA _).keeps) _).bind fun _ =>
    KeepsGood.pure _

theorem ends_elementsAscii41 (n : Elements) : EndsGood (loadElementsAscii41 cfg n) := by
  unfold loadElementsAscii41
  iterate 4 refine EndsGood.bind fun _ => ?_
  exact (EndsGood.assertGood hA).then fun _ => (KeepsGood.resize _ _ _ _).bind fun _ => (KeepsGood.forEach (fun _ => (ends_elementBlockAscii hA _).keeps) _).bind fun _ =>
    KeepsGood.pure _

theorem ends_elementsBinary41 (n : Elements) : EndsGood (loadElementsBinary41 cfg n) := by
  unfold loadElementsBinary41
  iterate 5 refine EndsGood.bind fun _ => ?_
  exact (EndsGood.assertGood hA).then fun _ => (KeepsGood.resize _ _ _ _).bind fun _ => (KeepsGood.forEach (fun _ => (ends_elementBlockBinary hA _).keeps) _).bind fun _ =>
    KeepsGood.pure _

theorem ends_nodesAscii22 (n : Nodes) : EndsGood (loadNodesAscii22 cfg n) := by
  unfold loadNodesAscii22
  iterate 2 refine EndsGood.bind fun _ => ?_
  refine (EndsGood.assertGood hA).then fun _ => (KeepsGood.resize _ _ _ _).bind fun _ => (KeepsGood.resize _ _ _ _).bind fun _ => KeepsGood.bind (KeepsGood.loopN (fun i a => EndsGood.keeps ?_) _ _ _)
    fun _ => KeepsGood.pure _
  iterate 4 refine EndsGood.bind fun _ => ?_
  exact ends_last hA _

theorem ends_nodes {f : MeshFormat} (hf : f.version = b! "2.2" → f.fileType = 0) (n : Nodes) : EndsGood (loadNodes cfg f n) := by
  unfold loadNodes
  refine EndsGood.ite (EndsGood.ite (ends_nodesAscii41 hA _) (ends_nodesBinary41 hA _)) ?_
  split
  · rename_i h
    rw [if_pos (hf h)]
    exact ends_nodesAscii22 hA _
  · exact EndsGood.throw _

theorem ends_elements {f : MeshFormat} (hf : f.version ≠ b! "2.2") (n : Elements) (e : Entities) : EndsGood (loadElements cfg f n e) := by
  unfold loadElements
  refine EndsGood.ite (EndsGood.ite ((ends_elementsAscii41 hA _).then fun _ => KeepsGood.pure _) ((ends_elementsBinary41 hA _).then fun _ => KeepsGood.pure _)) ?_
  rw [if_neg hf]
  exact EndsGood.throw _

theorem ends_data (f : MeshFormat) (b : Bool) : EndsGood (loadData cfg f b) := by
  unfold loadData
  refine EndsGood.bind fun h => ?_
  split
  · refine EndsGood.bind fun _ => EndsGood.ite (EndsGood.bind fun _ => EndsGood.ite ?_ (EndsGood.ite ?_ (EndsGood.throw _))) ?_
    all_goals exact EndsGood.bind fun _ => ends_last hA _
  · exact EndsGood.throw _

theorem ends_dataSection (f : MeshFormat) (b : Bool) (ds : List Data) : EndsGood (loadDataSection cfg f b ds) :=
  EndsGood.bind fun _ => (ends_data hA f b).then fun _ => KeepsGood.pure _

/-- Reading a section that is not among the unchecked ones ends with a good stream or does nothing. -/
theorem section_ends {name : Bytes} {spec : MshSpec} (hn : name ∉ uncheckedSections cfg.nanospline spec.meshFormat) : EndsGood (loadSection cfg (36 :: name) spec) ∨ loadSection cfg (36 :: name) spec = pure spec := by
  simp only [uncheckedSections, List.mem_append, List.mem_cons, List.not_mem_nil, or_false, not_or] at hn
  obtain ⟨⟨⟨hn1, hn2⟩, hn3⟩, hn4⟩ := hn
  unfold loadSection
  simp only [List.cons.injEq, true_and]
  rw [if_neg hn1]
  split
  · rcases ends_entities hA spec.meshFormat spec.entities with h | h
    · exact Or.inl (h.then fun _ => KeepsGood.pure _)
    · right; rw [h]; rfl
  split
  · exact Or.inl ((ends_physicalGroups hA _).then fun _ => KeepsGood.pure _)
  split
  · rename_i hN
    refine Or.inl ((ends_nodes hA (fun h => ?_) _).then fun _ => KeepsGood.pure _)
    by_contra h0
    rw [if_pos h, if_neg h0, hN] at hn4
    exact hn4 (by decide)
  split
  · rename_i hE
    refine Or.inl ((ends_elements hA (fun h => ?_) _ _).then fun _ => KeepsGood.pure _)
    rw [if_pos h, hE] at hn4
    exact hn4 List.mem_cons_self
  split
  · exact Or.inl ((ends_dataSection hA _ _ _).then fun _ => KeepsGood.pure _)
  split
  · exact Or.inl ((ends_dataSection hA _ _ _).then fun _ => KeepsGood.pure _)
  split
  · exact Or.inl ((ends_dataSection hA _ _ _).then fun _ => KeepsGood.pure _)
  right
  cases hx : cfg.nanospline with
  | true =>
    rw [hx] at hn3
    simp only [if_true, List.mem_cons, List.not_mem_nil, or_false, not_or] at hn3
    rw [if_neg hn3.1, if_neg hn3.2]
  | false =>
    unfold loadCurves loadPatches
    simp only [hx, Bool.false_eq_true, if_false]
    split
    · rfl
    split
    · rfl
    · rfl

end readers

/-- The last round over a file cut short: what it returns was there before, or is what the round over the whole file returns. -/
theorem round_cut {cfg : Cfg} (hA : cfg.asserts = true) {spec v : MshSpec} {a : Bytes} {s' : Stream} (he : s'.eof = true)
    (hr : loadRound cfg spec (gs a) = .ok (v, s'))
    (hu : ∀ name st', inString [] (gs a) = .ok (36 :: name, st') →
      EndsGood (loadSection cfg (36 :: name) spec) ∨ loadSection cfg (36 :: name) spec = pure spec) (b : Bytes) :
    v = spec ∨ ∃ s'', loadRound cfg spec (gs (a ++ b)) = .ok (v, s'') := by
  obtain ⟨t, s1, hi⟩ : ∃ t s1, inString [] (gs a) = .ok (t, s1) := by
    unfold inString; split <;> exact ⟨_, _, rfl⟩
  unfold loadRound at hr ⊢
  rw [Rd.bind_ok hi] at hr
  rcases inString_good rfl hi with h1 | ⟨h1, -⟩
  · left
    split at hr
    · rename_i r
      rw [Rd.bind_def] at hr
      cases hs : loadSection cfg (36 :: r) spec s1 with
      | ok q =>
        rw [hs] at hr
        simp only at hr
        rw [Rd.bind_def] at hr
        have hq : v = q.1 := by
          cases hf : forwardTo (endMarker (36 :: r)) q.2 <;> rw [hf] at hr <;> cases hr
          rfl
        rcases hu r s1 hi with hE | hE
        · have h2 := hE s1 q.1 q.2 hs
          have h3 := (((tame_loadSection cfg (36 :: r) spec).all s1).2 q.1 q.2 hs).eof h1
          rw [Stream.good_iff, h3] at h2
          cases h2.1
        · rw [hE] at hs
          cases hs
          exact hq
      | hang => rw [hs] at hr; cases hr
      | throw e => rw [hs] at hr; cases hr
      | abort => rw [hs] at hr; cases hr
      | ub => rw [hs] at hr; cases hr
    · cases hr; rfl
  · rcases (tsim_inString []).sim.all a b false with h' | ⟨w, a', f', e1, e2⟩
    · change AtEof (inString [] (gs a)) at h'
      rw [hi] at h'
      rw [Stream.good_iff] at h1
      simp [AtEof, h1.1] at h'
    · change inString [] (gs a) = _ at e1
      rw [hi] at e1
      cases e1
      change inString [] (gs (a ++ b)) = _ at e2
      rw [Rd.bind_ok e2]
      have hf' : f' = false := by simpa [Stream.good] using h1
      subst hf'
      split at hr
      · rename_i r
        rcases hu r _ hi with hE | hE
        · rw [Rd.bind_def] at hr
          cases hs : loadSection cfg (36 :: r) spec (gs a') with
          | ok q =>
            rw [hs] at hr
            simp only at hr
            rw [Rd.bind_def] at hr
            have hq : v = q.1 := by
              cases hf : forwardTo (endMarker (36 :: r)) q.2 <;> rw [hf] at hr <;> cases hr
              rfl
            have h2 := hE _ q.1 q.2 hs
            rw [Stream.good_iff] at h2
            rcases (tsim_loadSection cfg (36 :: r) spec).sim.all a' b false with h' | ⟨w2, a2, f2, e3, e4⟩
            · change AtEof (loadSection cfg (36 :: r) spec (gs a')) at h'
              rw [hs] at h'
              rw [show q.2.eof = true from h'] at h2
              cases h2.1
            · change loadSection cfg (36 :: r) spec (gs a') = _ at e3
              rw [hs] at e3
              cases e3
              right
              have hf2 : f2 = false := h2.2
              subst hf2
              obtain ⟨s3, h3, -⟩ := fwd_good (endMarker (36 :: r)) _ [] (gs (a2 ++ b)) le_rfl rfl
              refine ⟨s3, ?_⟩
              rw [hq]
              show (loadSection cfg (36 :: r) spec >>= _) (gs (a' ++ b)) = _
              rw [Rd.bind_ok e4, forwardTo_eq, Rd.bind_ok h3]
              rfl
          | hang => rw [hs] at hr; cases hr
          | throw e => rw [hs] at hr; cases hr
          | abort => rw [hs] at hr; cases hr
          | ub => rw [hs] at hr; cases hr
        · left
          rw [hE, Rd.bind_ok (show (pure spec : Rd MshSpec) (gs a') = .ok (spec, gs a') from rfl), Rd.bind_def] at hr
          cases hf : forwardTo (endMarker (36 :: r)) (gs a') <;> rw [hf] at hr <;> cases hr
          rfl
      · left
        cases hr; rfl

/-- A cut file that loads: the section it was cut in is missing, or complete. -/
theorem load_cut {cfg : Cfg} (hA : cfg.asserts = true) {p : Bytes} {t : MshSpec} (h : loadMsh cfg p = .ok t)
    (hu : ∀ name f, EndsIn cfg p name f → name ∉ uncheckedSections cfg.nanospline f) :
    ∃ spec a v, Arrives cfg (Stream.ofBytes p) (spec, gs a) ∧ loadPostProcess cfg v = .ok t ∧ ∀ b,
      Arrives cfg (Stream.ofBytes (p ++ b)) (spec, gs (a ++ b)) ∧
      (v = spec ∨ ∃ st, MainIter cfg (spec, gs (a ++ b)) (v, st)) := by
  unfold loadMsh at h
  rw [loadStream_eq] at h
  cases hf : loadFull cfg {} (Stream.ofBytes p) with
  | ok x =>
    rw [hf] at h
    obtain ⟨h1, h2⟩ := loadFull_ok cfg _ _ _ x le_rfl hf
    rcases Relation.ReflTransGen.cases_tail h1 with rfl | ⟨y, hy, he, hr⟩
    · cases h2
    · obtain ⟨spec, ⟨a, e, f⟩⟩ := y
      have he' : e = false := he
      subst he'
      cases f with
      | true =>
        rw [loadRound_stuck (by rfl)] at hr
        cases hr
        cases h2
      | false =>
        refine ⟨spec, a, x.1, hy, h, fun b => ⟨arrives_ext hy spec a rfl b, ?_⟩⟩
        rcases round_cut hA (s' := x.2) (v := x.1) h2 hr (fun name st' hi => section_ends hA
          (hu name _ ⟨spec, gs a, st', x, hy, rfl, rfl, hi, hr, h2⟩)) b with e | ⟨s'', h3⟩
        · exact Or.inl e
        · exact Or.inr ⟨_, rfl, h3⟩
  | hang => rw [hf] at h; cases h
  | throw e => rw [hf] at h; cases h
  | abort => rw [hf] at h; cases h
  | ub => rw [hf] at h; cases h

end MshIO
