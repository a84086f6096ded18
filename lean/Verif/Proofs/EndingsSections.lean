import Verif.Proofs.EndingsSplines
import Verif.Proofs.EndingsData
import Verif.Proofs.EndingsNodes
import Verif.Proofs.RejectedSections

/-! # How reading any section ends -/

namespace MshIO

variable {α β : Type} {k : Ending}

/-! ## Elements of version 2.2 never stop -/

theorem elements22_not_abort (cfg : Cfg) (e : Elements) (en : Entities) (st : Stream) : loadElementsAscii22 cfg e en st ≠ .abort ∧ loadElementsBinary22 cfg e en st ≠ .abort := by
  have h3 : WithinR [.alloc, .unsupportedFeature, .invalidFormat] false (loadElementsAscii22 cfg e en) := by
    unfold loadElementsAscii22 loadElementAscii22
    within [WithinR.lift (within_make cfg (by decide) (by decide) _ _ _ _ _ _), WithinR.lift (within_create cfg (by decide) _ _)]
  have h4 : ∀ n k st, WithinR [.alloc, .unsupportedFeature, .invalidFormat] false (loadElementGroups22 cfg n k st) := fun n k => by
    induction k with
    | zero => exact fun st => ⟨fun s => trivial⟩
    | succ k ih =>
      intro st
      rw [loadElementGroups22]
      unfold loadElementGroupBinary22 loadElementBinary22
      within [WithinR.lift (within_make cfg (by decide) (by decide) _ _ _ _ _ _), ih]
  have h5 : WithinR [.alloc, .unsupportedFeature, .invalidFormat] false (loadElementsBinary22 cfg e en) := by
    unfold loadElementsBinary22
    refine WithinR.bind (withinR_inSize _) fun _ => WithinR.bind (WithinR.lift (Within.vecReserve (by decide) _ _)) fun _ => WithinR.bind (withinR_eatWhiteSpace _) fun _ =>
      WithinR.bind ⟨fun s => (h4 _ _ _).all s⟩ fun _ => ?_
    within [WithinR.lift (within_create cfg (by decide) _ _)]
  refine ⟨fun h => ?_, fun h => ?_⟩
  · have := h3.all st
    rw [h] at this
    cases this
  · have := h5.all st
    rw [h] at this
    cases this

/-! ## Sections with binary data of version 4.1 -/

theorem ends_binary {m : Rd α} {cfg : Cfg} {T : List Exc} {P : Bytes → Prop} (hf : Flows m) (hw : WithinR T cfg.asserts m) {r : Bytes}
    (h : cfg.asserts = true → ∀ d, DataAfter r d → (m (payload r) = .abort ↔ P d)) :
    k.Of (m (payload r)) ↔ k = .stops ∧ cfg.asserts = true ∧ ∃ d, DataFrom (.on r) d ∧ P d := by
  cases k with
  | sticks => exact ⟨fun h => absurd h (flows_not_sticks hf r), fun h => by cases h.1⟩
  | stops =>
    constructor
    · intro e
      have ha : cfg.asserts = true := by
        have := hw.all (payload r)
        have e' : m (payload r) = .abort := e
        rw [e'] at this
        exact this
      obtain ⟨d, hd⟩ := dataAfter_exists r
      exact ⟨rfl, ha, d, hd, (h ha d hd).mp e⟩
    · rintro ⟨-, ha, d, hd, hp⟩
      exact (h ha d hd).mpr hp

theorem ends_entitiesSection (cfg : Cfg) {s : MshSpec} (hv : s.meshFormat.version = b! "4.1" ∨ s.meshFormat.version = b! "2.2") (r : Bytes) :
    k.Of (loadEntities cfg s.meshFormat s.entities (payload r)) ↔ EntitiesSectionEnds cfg k s (.on r) := by
  unfold loadEntities EntitiesSectionEnds
  rcases hv with hv | hv
  · rw [if_pos hv]
    simp only [hv, true_and]
    by_cases ht : s.meshFormat.fileType = 0
    · rw [if_pos ht, if_pos ht]
      exact ends_entities41 cfg _ _ _ (at_payload r)
    · rw [if_neg ht, if_neg ht]
      exact ends_binary (flows_entitiesBinary cfg _) (throws_entitiesBinary cfg _) fun ha d hd => entitiesBinary_abort_iff ha _ hd
  · have h41 : s.meshFormat.version ≠ b! "4.1" := by rw [hv]; decide
    rw [if_neg h41, if_pos hv]
    exact ⟨fun h => absurd h Ending.not_throw, fun h => absurd h.1 h41⟩

theorem ends_nodesSection (cfg : Cfg) {s : MshSpec} (hv : s.meshFormat.version = b! "4.1" ∨ s.meshFormat.version = b! "2.2") (r : Bytes) :
    k.Of (loadNodes cfg s.meshFormat s.nodes (payload r)) ↔ NodesSectionEnds cfg k s (.on r) := by
  unfold loadNodes NodesSectionEnds
  have hn : ∃ n, (if s.nodes.entityBlocks.length = 0 then { s.nodes with minNodeTag := sizeMax, maxNodeTag := 0, numNodes := 0 } else s.nodes) = n ∧
      n.entityBlocks = s.nodes.entityBlocks ∧ n.numEntityBlocks = s.nodes.numEntityBlocks := by
    refine ⟨_, rfl, ?_, ?_⟩ <;> split <;> rfl
  obtain ⟨n, e, h1, h2⟩ := hn
  rw [e]
  rcases hv with hv | hv
  · rw [if_pos hv, if_pos hv]
    by_cases ht : s.meshFormat.fileType = 0
    · rw [if_pos ht, if_pos ht]
      refine (ends_nodes41 cfg n _ _ (at_payload r)).trans ?_
      unfold Nodes41TextEnds
      rw [h1, h2]
    · rw [if_neg ht, if_neg ht]
      have hw : WithinR [.alloc, .unsupportedFeature] cfg.asserts (loadNodesBinary41 cfg n) := by unfold loadNodesBinary41 loadNodeBlockBinary41; within []
      exact ends_binary (flows_nodesBinary41 cfg _) hw fun ha d hd => nodesBinary_abort_iff ha _ hd
  · have h41 : s.meshFormat.version ≠ b! "4.1" := by rw [hv]; decide
    rw [if_neg h41, if_pos hv, if_neg h41]
    by_cases ht : s.meshFormat.fileType = 0
    · rw [if_pos ht, if_pos ht]
      exact ends_nodesText22 cfg h1 _ _ (at_payload r)
    · rw [if_neg ht, if_neg ht]
      exact ends_nodesBinary22 cfg h1 _ _ (at_payload r)

theorem ends_elementsSection {cfg : Cfg} (hc : 57 ≤ cfg.maxCount) {s : MshSpec} (hv : s.meshFormat.version = b! "4.1" ∨ s.meshFormat.version = b! "2.2") (r : Bytes) :
    k.Of (loadElements cfg s.meshFormat s.elements s.entities (payload r)) ↔ ElementsSectionEnds cfg k s (.on r) := by
  unfold loadElements ElementsSectionEnds
  have hn : ∃ n, (if s.elements.entityBlocks.length = 0 then { s.elements with minElementTag := sizeMax, maxElementTag := 0 } else s.elements) = n ∧
      n.entityBlocks = s.elements.entityBlocks ∧ n.numEntityBlocks = s.elements.numEntityBlocks ∧ n.numElements = s.elements.numElements := by
    refine ⟨_, rfl, ?_, ?_, ?_⟩ <;> split <;> rfl
  obtain ⟨n, e, h1, h2, h3⟩ := hn
  rw [e]
  rcases hv with hv | hv
  · rw [if_pos hv, if_pos hv]
    by_cases ht : s.meshFormat.fileType = 0
    · rw [if_pos ht, if_pos ht]
      refine (ends_bind (fun _ _ => ⟨_, rfl⟩)).trans ((ends_elements41 cfg n _ _ (at_payload r)).trans ?_)
      unfold Elements41TextEnds
      rw [h1, h2]
    · rw [if_neg ht, if_neg ht]
      have hw : WithinR [.alloc, .unsupportedFeature] cfg.asserts (loadElementsBinary41 cfg n) := by unfold loadElementsBinary41 loadElementBlockBinary41; within []
      refine (ends_bind (fun _ _ => ⟨_, rfl⟩)).trans (ends_binary (flows_elementsBinary41 cfg _) hw fun ha d hd => (elementsBinary_abort_iff ha _ hd).trans ?_)
      unfold Elements41Cut
      rw [h1]
  · have h41 : s.meshFormat.version ≠ b! "4.1" := by rw [hv]; decide
    rw [if_neg h41, if_pos hv, if_neg h41]
    by_cases ht : s.meshFormat.fileType = 0
    · rw [if_pos ht, if_pos ht]
      cases k with
      | stops => exact ⟨fun h => absurd h (elements22_not_abort cfg _ _ _).1, fun h => by cases h.1⟩
      | sticks => exact (sticks_elementsText22 hc h1 _ _ (at_payload r)).trans ⟨fun h => ⟨rfl, h⟩, fun h => h.2⟩
    · rw [if_neg ht, if_neg ht]
      cases k with
      | stops => exact ⟨fun h => absurd h (elements22_not_abort cfg _ _ _).2, fun h => by cases h.1⟩
      | sticks => exact (sticks_elementsBinary22 cfg h3 _ _ (at_payload r)).trans ⟨fun h => ⟨rfl, h⟩, fun h => h.2⟩

/-! ## All of them -/

theorem not_readTo (r : Bytes) : ¬ ReadTo k (.on r) := fun h => by cases h.2

theorem section_ends_iff {cfg : Cfg} (hc : 57 ≤ cfg.maxCount) {s : MshSpec} (hv : s.meshFormat.version = b! "4.1" ∨ s.meshFormat.version = b! "2.2") (name r : Bytes) :
    k.Of (loadSection cfg name s (payload r)) ↔ SectionEnds cfg k s name r := by
  have ha := at_payload r
  unfold SectionEnds
  by_cases h1 : name = b! "$MeshFormat"
  · subst h1
    refine Iff.trans ?_ (b := k = .sticks ∧ FormatSticks s.meshFormat (.on r)) ?_
    · show k.Of ((loadMeshFormat s.meshFormat >>= fun x => (pure { s with meshFormat := x } : Rd MshSpec)) (payload r)) ↔ _
      exact (ends_bind (fun _ _ => ⟨_, rfl⟩)).trans (ends_format _ _ _ ha)
    · exact ⟨fun h => Or.inl ⟨rfl, h⟩, fun h => h.elim (fun h => h.2) fun h => by
        rcases h with ⟨h, -⟩ | ⟨h, -⟩ | ⟨h, -⟩ | ⟨h, -⟩ | ⟨h, -⟩ | ⟨h, -⟩ | ⟨h, -⟩ <;> exact absurd h (by decide)⟩
  by_cases h2 : name = b! "$PhysicalNames"
  · subst h2
    refine Iff.trans ?_ (b := NamesEnd cfg k (.on r)) ?_
    · show k.Of ((loadPhysicalGroups cfg s.physicalGroups >>= fun x => (pure { s with physicalGroups := x } : Rd MshSpec)) (payload r)) ↔ _
      exact (ends_bind (fun _ _ => ⟨_, rfl⟩)).trans (ends_names cfg _ _ _ ha)
    · exact ⟨fun h => Or.inr (Or.inl ⟨rfl, h⟩), fun h => by
        rcases h with ⟨h, -⟩ | ⟨-, h⟩ | ⟨h, -⟩ | ⟨h, -⟩ | ⟨h, -⟩ | ⟨h, -⟩ | ⟨h, -⟩ | ⟨h, -⟩
        · exact absurd h (by decide)
        · exact h
        all_goals exact absurd h (by decide)⟩
  by_cases h3 : name = b! "$Entities"
  · subst h3
    refine Iff.trans ?_ (b := EntitiesSectionEnds cfg k s (.on r)) ?_
    · show k.Of ((loadEntities cfg s.meshFormat s.entities >>= fun x => (pure { s with entities := x } : Rd MshSpec)) (payload r)) ↔ _
      exact (ends_bind (fun _ _ => ⟨_, rfl⟩)).trans (ends_entitiesSection cfg hv r)
    · exact ⟨fun h => Or.inr (Or.inr (Or.inl ⟨rfl, h⟩)), fun h => by
        rcases h with ⟨h, -⟩ | ⟨h, -⟩ | ⟨-, h⟩ | ⟨h, -⟩ | ⟨h, -⟩ | ⟨h, -⟩ | ⟨h, -⟩ | ⟨h, -⟩
        · exact absurd h (by decide)
        · exact absurd h (by decide)
        · exact h
        all_goals exact absurd h (by decide)⟩
  by_cases h4 : name = b! "$Nodes"
  · subst h4
    refine Iff.trans ?_ (b := NodesSectionEnds cfg k s (.on r)) ?_
    · show k.Of ((loadNodes cfg s.meshFormat s.nodes >>= fun x => (pure { s with nodes := x } : Rd MshSpec)) (payload r)) ↔ _
      exact (ends_bind (fun _ _ => ⟨_, rfl⟩)).trans (ends_nodesSection cfg hv r)
    · exact ⟨fun h => Or.inr (Or.inr (Or.inr (Or.inl ⟨rfl, h⟩))), fun h => by
        rcases h with ⟨h, -⟩ | ⟨h, -⟩ | ⟨h, -⟩ | ⟨-, h⟩ | ⟨h, -⟩ | ⟨h, -⟩ | ⟨h, -⟩ | ⟨h, -⟩
        · exact absurd h (by decide)
        · exact absurd h (by decide)
        · exact absurd h (by decide)
        · exact h
        all_goals exact absurd h (by decide)⟩
  by_cases h5 : name = b! "$Elements"
  · subst h5
    refine Iff.trans ?_ (b := ElementsSectionEnds cfg k s (.on r)) ?_
    · show k.Of ((loadElements cfg s.meshFormat s.elements s.entities >>= fun x => (pure { s with elements := x.1, entities := x.2 } : Rd MshSpec)) (payload r)) ↔ _
      exact (ends_bind (fun _ _ => ⟨_, rfl⟩)).trans (ends_elementsSection hc hv r)
    · exact ⟨fun h => Or.inr (Or.inr (Or.inr (Or.inr (Or.inl ⟨rfl, h⟩)))), fun h => by
        rcases h with ⟨h, -⟩ | ⟨h, -⟩ | ⟨h, -⟩ | ⟨h, -⟩ | ⟨-, h⟩ | ⟨h, -⟩ | ⟨h, -⟩ | ⟨h, -⟩
        · exact absurd h (by decide)
        · exact absurd h (by decide)
        · exact absurd h (by decide)
        · exact absurd h (by decide)
        · exact h
        all_goals exact absurd h (by decide)⟩
  by_cases h6 : name ∈ dataSections
  · refine Iff.trans ?_ (b := DataSectionEnds cfg k s name (.on r)) ?_
    · simp only [dataSections, List.mem_cons, List.not_mem_nil, or_false] at h6
      rcases h6 with rfl | rfl | rfl
      · show k.Of ((loadDataSection cfg s.meshFormat false s.nodeData >>= fun x => (pure { s with nodeData := x } : Rd MshSpec)) (payload r)) ↔ _
        exact (ends_bind (fun _ _ => ⟨_, rfl⟩)).trans (ends_dataIn (name := b! "$NodeData") (en := false) hv (by decide) rfl _ _ ha)
      · show k.Of ((loadDataSection cfg s.meshFormat false s.elementData >>= fun x => (pure { s with elementData := x } : Rd MshSpec)) (payload r)) ↔ _
        exact (ends_bind (fun _ _ => ⟨_, rfl⟩)).trans (ends_dataIn (name := b! "$ElementData") (en := false) hv (by decide) rfl _ _ ha)
      · show k.Of ((loadDataSection cfg s.meshFormat true s.elementNodeData >>= fun x => (pure { s with elementNodeData := x } : Rd MshSpec)) (payload r)) ↔ _
        exact (ends_bind (fun _ _ => ⟨_, rfl⟩)).trans (ends_dataIn (name := b! "$ElementNodeData") (en := true) hv (by decide) rfl _ _ ha)
    · have h7 : name ≠ b! "$Curves" := fun h => by rw [h] at h6; exact absurd h6 (by decide)
      have h8 : name ≠ b! "$Patches" := fun h => by rw [h] at h6; exact absurd h6 (by decide)
      simp only [h1, h2, h3, h4, h5, h6, h7, h8, false_and, false_or, or_false, true_and]
  by_cases h7 : name = b! "$Curves"
  · subst h7
    refine Iff.trans ?_ (b := if cfg.nanospline = true then
      k = .sticks ∧ CounterRead cfg (.on r) fun n y => SkipsCurves cfg (s.meshFormat.fileType = 0) (blocksFor s.curves n {}) y .stuck else ReadTo k (.on r)) ?_
    · show k.Of ((loadCurves cfg s.meshFormat s.curves >>= fun x => (pure { s with curves := x } : Rd MshSpec)) (payload r)) ↔ _
      exact (ends_bind (fun _ _ => ⟨_, rfl⟩)).trans (ends_curves cfg _ _ _ _ ha)
    · have h8 : b! "$Curves" ≠ b! "$Patches" := by decide
      simp only [h1, h2, h3, h4, h5, h6, h8, false_and, false_or, or_false, true_and]
      split
      · rename_i hn; exact ⟨fun h => ⟨h.1, hn, h.2⟩, fun h => ⟨h.1, h.2.2⟩⟩
      · rename_i hn; exact ⟨fun h => absurd h (not_readTo r), fun h => absurd h.2.1 hn⟩
  by_cases h8 : name = b! "$Patches"
  · subst h8
    refine Iff.trans ?_ (b := if cfg.nanospline = true then
      k = .sticks ∧ CounterRead cfg (.on r) fun n y => SkipsPatches cfg (s.meshFormat.fileType = 0) (blocksFor s.patches n {}) y .stuck else ReadTo k (.on r)) ?_
    · show k.Of ((loadPatches cfg s.meshFormat s.patches >>= fun x => (pure { s with patches := x } : Rd MshSpec)) (payload r)) ↔ _
      exact (ends_bind (fun _ _ => ⟨_, rfl⟩)).trans (ends_patches cfg _ _ _ _ ha)
    · simp only [h1, h2, h3, h4, h5, h6, h7, false_and, false_or, true_and]
      split
      · rename_i hn; exact ⟨fun h => ⟨h.1, hn, h.2⟩, fun h => ⟨h.1, h.2.2⟩⟩
      · rename_i hn; exact ⟨fun h => absurd h (not_readTo r), fun h => absurd h.2.1 hn⟩
  simp only [h1, h2, h3, h4, h5, h6, h7, h8, false_and, or_false, iff_false]
  have h6' := h6
  simp only [dataSections, List.mem_cons, List.not_mem_nil, or_false, not_or] at h6'
  unfold loadSection
  rw [if_neg h1, if_neg h3, if_neg h2, if_neg h4, if_neg h5, if_neg h6'.1, if_neg h6'.2.1, if_neg h6'.2.2]
  by_cases h9 : name = b! "$NanoSplineFormat"
  · rw [if_pos h9]
    intro h
    have h := (ends_bind (fun _ _ => ⟨_, rfl⟩)).mp h
    cases k with
    | sticks =>
      exact flows_not_sticks (flows_inString s.nanosplineVersion) r h
    | stops =>
      obtain ⟨w, y, hy⟩ := (inString_yields s.nanosplineVersion).total (.on r)
      obtain ⟨st, e, -⟩ := (inString_yields s.nanosplineVersion).sound hy ha.cur
      have h : inString s.nanosplineVersion (payload r) = .abort := h
      rw [e] at h
      cases h
  · rw [if_neg h9, if_neg h7, if_neg h8]
    intro h
    have := (Ending.ok (k := k)).mp h
    exact absurd this.2.1 (by simp [payload])

end MshIO
