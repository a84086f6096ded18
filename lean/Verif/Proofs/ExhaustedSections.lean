import Verif.Proofs.ExhaustedElements
import Verif.Proofs.ExhaustedBinary
import Verif.Proofs.ExhaustedSplines
import Verif.Proofs.RejectedSections

/-! # When there is not enough memory for a section: all sections -/

namespace MshIO

variable {α β : Type}

theorem exhausts_after {m : Rd α} {P : Bytes → Prop} {r : Bytes} (h : ∀ d, DataAfter r d → (m (payload r) = .throw .alloc ↔ P d)) :
    m (payload r) = .throw .alloc ↔ ∃ d, DataAfter r d ∧ P d := by
  constructor
  · intro e
    obtain ⟨d, hd⟩ := dataAfter_exists r
    exact ⟨d, hd, (h d hd).mp e⟩
  · rintro ⟨d, hd, hp⟩
    exact (h d hd).mpr hp

theorem exhausts_entitiesSection (cfg : Cfg) {s : MshSpec} (hv : s.meshFormat.version = b! "4.1" ∨ s.meshFormat.version = b! "2.2") (r : Bytes) :
    loadEntities cfg s.meshFormat s.entities (payload r) = .throw .alloc ↔ s.meshFormat.version = b! "4.1" ∧
      if s.meshFormat.fileType = 0 then EntitiesTextExhaust cfg (.on r) else ∃ d, DataAfter r d ∧ EntitiesExhaust cfg d := by
  unfold loadEntities
  rcases hv with hv | hv
  · rw [if_pos hv]
    simp only [hv, true_and]
    by_cases ht : s.meshFormat.fileType = 0
    · rw [if_pos ht, if_pos ht]
      exact exhausts_entities41 cfg _ _ _ (at_payload r)
    · rw [if_neg ht, if_neg ht]
      exact exhausts_after fun d hd => exhausts_entitiesBinary41 cfg _ hd
  · have h41 : s.meshFormat.version ≠ b! "4.1" := by rw [hv]; decide
    rw [if_neg h41, if_pos hv]
    exact ⟨(fun h => by cases h), fun h => absurd h.1 h41⟩

theorem exhausts_nodesSection (cfg : Cfg) {s : MshSpec} (hv : s.meshFormat.version = b! "4.1" ∨ s.meshFormat.version = b! "2.2") (r : Bytes) :
    loadNodes cfg s.meshFormat s.nodes (payload r) = .throw .alloc ↔
      if s.meshFormat.version = b! "4.1" then
        if s.meshFormat.fileType = 0 then Nodes41TextExhaust cfg s.nodes (.on r) else ∃ d, DataAfter r d ∧ Nodes41Exhaust cfg s.nodes d
      else Nodes22Exhaust cfg s (.on r) := by
  unfold loadNodes
  have hn : ∃ n, (if s.nodes.entityBlocks.length = 0 then { s.nodes with minNodeTag := sizeMax, maxNodeTag := 0, numNodes := 0 } else s.nodes) = n ∧
      n.entityBlocks = s.nodes.entityBlocks ∧ n.numEntityBlocks = s.nodes.numEntityBlocks := by
    refine ⟨_, rfl, ?_, ?_⟩ <;> split <;> rfl
  obtain ⟨n, e, h1, h2⟩ := hn
  rw [e]
  rcases hv with hv | hv
  · rw [if_pos hv, if_pos hv]
    by_cases ht : s.meshFormat.fileType = 0
    · rw [if_pos ht, if_pos ht]
      refine (exhausts_nodes41 cfg n _ _ (at_payload r)).trans ?_
      unfold Nodes41TextExhaust
      rw [h1, h2]
    · rw [if_neg ht, if_neg ht]
      refine exhausts_after fun d hd => (exhausts_nodesBinary41 cfg _ hd).trans ?_
      unfold Nodes41Exhaust
      rw [h1, h2]
  · have h41 : s.meshFormat.version ≠ b! "4.1" := by rw [hv]; decide
    rw [if_neg h41, if_pos hv, if_neg h41]
    by_cases ht : s.meshFormat.fileType = 0
    · rw [if_pos ht]
      exact exhausts_nodesText22 cfg h1 _ _ (at_payload r)
    · rw [if_neg ht]
      exact exhausts_nodesBinary22 cfg h1 _ _ (at_payload r)

theorem exhausts_elementsSection {cfg : Cfg} (hc : 57 ≤ cfg.maxCount) {s : MshSpec} (hv : s.meshFormat.version = b! "4.1" ∨ s.meshFormat.version = b! "2.2") (r : Bytes) :
    loadElements cfg s.meshFormat s.elements s.entities (payload r) = .throw .alloc ↔
      if s.meshFormat.version = b! "4.1" then
        if s.meshFormat.fileType = 0 then Elements41TextExhaust cfg s.elements (.on r) else ∃ d, DataAfter r d ∧ Elements41Exhaust cfg s.elements d
      else if s.meshFormat.fileType = 0 then Elements22TextExhaust cfg s (.on r) else Elements22Exhaust cfg s (.on r) := by
  unfold loadElements
  have hn : ∃ n, (if s.elements.entityBlocks.length = 0 then { s.elements with minElementTag := sizeMax, maxElementTag := 0 } else s.elements) = n ∧
      n.entityBlocks = s.elements.entityBlocks ∧ n.numEntityBlocks = s.elements.numEntityBlocks ∧ n.numElements = s.elements.numElements := by
    refine ⟨_, rfl, ?_, ?_, ?_⟩ <;> split <;> rfl
  obtain ⟨n, e, h1, h2, h3⟩ := hn
  rw [e]
  rcases hv with hv | hv
  · rw [if_pos hv, if_pos hv]
    by_cases ht : s.meshFormat.fileType = 0
    · rw [if_pos ht, if_pos ht]
      refine (throw_bind (fun _ _ h => by cases h)).trans ((exhausts_elements41 cfg n _ _ (at_payload r)).trans ?_)
      unfold Elements41TextExhaust
      rw [h1, h2]
    · rw [if_neg ht, if_neg ht]
      refine (throw_bind (fun _ _ h => by cases h)).trans (exhausts_after fun d hd => (exhausts_elementsBinary41 cfg _ hd).trans ?_)
      unfold Elements41Exhaust
      rw [h1, h2]
  · have h41 : s.meshFormat.version ≠ b! "4.1" := by rw [hv]; decide
    rw [if_neg h41, if_pos hv, if_neg h41]
    by_cases ht : s.meshFormat.fileType = 0
    · rw [if_pos ht, if_pos ht]
      exact exhausts_elementsText22 hc h1 _ _ (at_payload r)
    · rw [if_neg ht, if_neg ht]
      exact exhausts_elementsBinary22 hc h1 h3 _ _ (at_payload r)

theorem section_exhausts_iff {cfg : Cfg} (hc : 57 ≤ cfg.maxCount) {s : MshSpec} (hv : s.meshFormat.version = b! "4.1" ∨ s.meshFormat.version = b! "2.2") (name r : Bytes) :
    loadSection cfg name s (payload r) = .throw .alloc ↔ SectionExhausts cfg s name r := by
  have ha := at_payload r
  have hw := (throws_section cfg name s hv.symm).all (payload r)
  unfold SectionExhausts
  by_cases h2 : name = b! "$PhysicalNames"
  · subst h2
    refine Iff.trans ?_ (b := ∃ n y, TakesInt (.on r) (some n) y ∧ (n.toInt < 0 ∨ cfg.maxCount < n.toInt)) ?_
    · show (loadPhysicalGroups cfg s.physicalGroups >>= fun x => (pure { s with physicalGroups := x } : Rd MshSpec)) (payload r) = _ ↔ _
      exact (throw_bind (fun _ _ h => by cases h)).trans (exhausts_names cfg _ _ _ ha)
    · exact ⟨fun h => Or.inl ⟨rfl, h⟩, fun h => h.elim (fun h => h.2) fun h => by
        rcases h with ⟨h, -⟩ | ⟨h, -⟩ | ⟨h, -⟩ | ⟨h, -⟩ | ⟨h, -⟩ | ⟨h, -⟩ <;> exact absurd h (by decide)⟩
  by_cases h3 : name = b! "$Entities"
  · subst h3
    refine Iff.trans ?_ (b := s.meshFormat.version = b! "4.1" ∧
      if s.meshFormat.fileType = 0 then EntitiesTextExhaust cfg (.on r) else ∃ d, DataAfter r d ∧ EntitiesExhaust cfg d) ?_
    · show (loadEntities cfg s.meshFormat s.entities >>= fun x => (pure { s with entities := x } : Rd MshSpec)) (payload r) = _ ↔ _
      exact (throw_bind (fun _ _ h => by cases h)).trans (exhausts_entitiesSection cfg hv r)
    · exact ⟨fun h => Or.inr (Or.inl ⟨rfl, h⟩), fun h => by
        rcases h with ⟨h, -⟩ | ⟨-, h⟩ | ⟨h, -⟩ | ⟨h, -⟩ | ⟨h, -⟩ | ⟨h, -⟩ | ⟨h, -⟩
        · exact absurd h (by decide)
        · exact h
        all_goals exact absurd h (by decide)⟩
  by_cases h4 : name = b! "$Nodes"
  · subst h4
    refine Iff.trans ?_ (b := if s.meshFormat.version = b! "4.1" then
        if s.meshFormat.fileType = 0 then Nodes41TextExhaust cfg s.nodes (.on r) else ∃ d, DataAfter r d ∧ Nodes41Exhaust cfg s.nodes d
      else Nodes22Exhaust cfg s (.on r)) ?_
    · show (loadNodes cfg s.meshFormat s.nodes >>= fun x => (pure { s with nodes := x } : Rd MshSpec)) (payload r) = _ ↔ _
      exact (throw_bind (fun _ _ h => by cases h)).trans (exhausts_nodesSection cfg hv r)
    · exact ⟨fun h => Or.inr (Or.inr (Or.inl ⟨rfl, h⟩)), fun h => by
        rcases h with ⟨h, -⟩ | ⟨h, -⟩ | ⟨-, h⟩ | ⟨h, -⟩ | ⟨h, -⟩ | ⟨h, -⟩ | ⟨h, -⟩
        · exact absurd h (by decide)
        · exact absurd h (by decide)
        · exact h
        all_goals exact absurd h (by decide)⟩
  by_cases h5 : name = b! "$Elements"
  · subst h5
    refine Iff.trans ?_ (b := if s.meshFormat.version = b! "4.1" then
        if s.meshFormat.fileType = 0 then Elements41TextExhaust cfg s.elements (.on r) else ∃ d, DataAfter r d ∧ Elements41Exhaust cfg s.elements d
      else if s.meshFormat.fileType = 0 then Elements22TextExhaust cfg s (.on r) else Elements22Exhaust cfg s (.on r)) ?_
    · show (loadElements cfg s.meshFormat s.elements s.entities >>= fun x => (pure { s with elements := x.1, entities := x.2 } : Rd MshSpec)) (payload r) = _ ↔ _
      exact (throw_bind (fun _ _ h => by cases h)).trans (exhausts_elementsSection hc hv r)
    · exact ⟨fun h => Or.inr (Or.inr (Or.inr (Or.inl ⟨rfl, h⟩))), fun h => by
        rcases h with ⟨h, -⟩ | ⟨h, -⟩ | ⟨h, -⟩ | ⟨-, h⟩ | ⟨h, -⟩ | ⟨h, -⟩ | ⟨h, -⟩
        · exact absurd h (by decide)
        · exact absurd h (by decide)
        · exact absurd h (by decide)
        · exact h
        all_goals exact absurd h (by decide)⟩
  by_cases h6 : name ∈ dataSections
  · refine Iff.trans ?_ (b := DataSectionExhausts cfg s name (.on r)) ?_
    · simp only [dataSections, List.mem_cons, List.not_mem_nil, or_false] at h6
      rcases h6 with rfl | rfl | rfl
      · show (loadDataSection cfg s.meshFormat false s.nodeData >>= fun x => (pure { s with nodeData := x } : Rd MshSpec)) (payload r) = _ ↔ _
        exact (throw_bind (fun _ _ h => by cases h)).trans (exhausts_dataIn (name := b! "$NodeData") (en := false) hv (by decide) rfl _ _ ha)
      · show (loadDataSection cfg s.meshFormat false s.elementData >>= fun x => (pure { s with elementData := x } : Rd MshSpec)) (payload r) = _ ↔ _
        exact (throw_bind (fun _ _ h => by cases h)).trans (exhausts_dataIn (name := b! "$ElementData") (en := false) hv (by decide) rfl _ _ ha)
      · show (loadDataSection cfg s.meshFormat true s.elementNodeData >>= fun x => (pure { s with elementNodeData := x } : Rd MshSpec)) (payload r) = _ ↔ _
        exact (throw_bind (fun _ _ h => by cases h)).trans (exhausts_dataIn (name := b! "$ElementNodeData") (en := true) hv (by decide) rfl _ _ ha)
    · have h7 : name ≠ b! "$Curves" := fun h => by rw [h] at h6; exact absurd h6 (by decide)
      have h8 : name ≠ b! "$Patches" := fun h => by rw [h] at h6; exact absurd h6 (by decide)
      simp only [h2, h3, h4, h5, h6, h7, h8, false_and, false_or, or_false, true_and]
  by_cases h7 : name = b! "$Curves"
  · subst h7
    refine Iff.trans ?_ (b := cfg.nanospline = true ∧ CounterExhausts cfg (.on r) fun n y => CurvesExhaust cfg (s.meshFormat.fileType = 0) (blocksFor s.curves n {}) y) ?_
    · show (loadCurves cfg s.meshFormat s.curves >>= fun x => (pure { s with curves := x } : Rd MshSpec)) (payload r) = _ ↔ _
      exact (throw_bind (fun _ _ h => by cases h)).trans (exhausts_curves cfg _ _ _ _ ha)
    · have h8 : b! "$Curves" ≠ b! "$Patches" := by decide
      simp only [h2, h3, h4, h5, h6, h8, false_and, false_or, or_false, true_and]
  by_cases h8 : name = b! "$Patches"
  · subst h8
    refine Iff.trans ?_ (b := cfg.nanospline = true ∧ CounterExhausts cfg (.on r) fun n y => PatchesExhaust cfg (s.meshFormat.fileType = 0) (blocksFor s.patches n {}) y) ?_
    · show (loadPatches cfg s.meshFormat s.patches >>= fun x => (pure { s with patches := x } : Rd MshSpec)) (payload r) = _ ↔ _
      exact (throw_bind (fun _ _ h => by cases h)).trans (exhausts_patches cfg _ _ _ _ ha)
    · simp only [h2, h3, h4, h5, h6, h7, false_and, false_or, true_and]
  simp only [h2, h3, h4, h5, h6, h7, h8, false_and, or_false, iff_false]
  intro h
  rw [h] at hw
  have h6' : ¬ (name = b! "$NodeData" ∨ name = b! "$ElementData" ∨ name = b! "$ElementNodeData") := by
    intro h
    apply h6
    rcases h with rfl | rfl | rfl <;> decide
  have hw : Exc.alloc ∈ sectionThrows cfg.nanospline s.meshFormat name := hw
  unfold sectionThrows at hw
  rw [if_neg h3, if_neg h5, if_neg h6'] at hw
  split at hw
  · simp at hw
  · simp [h2, h4, h7, h8] at hw

/-! ## Whole files -/

theorem exhausts_name {cfg : Cfg} {s : MshSpec} {name r : Bytes} (h : SectionExhausts cfg s name r) : ∃ n, name = 36 :: n ∧ ∀ c ∈ n, isSpace c = false := by
  rcases h with ⟨rfl, -⟩ | ⟨rfl, -⟩ | ⟨rfl, -⟩ | ⟨rfl, -⟩ | ⟨h, -⟩ | ⟨rfl, -⟩ | ⟨rfl, -⟩
  · exact ⟨_, rfl, by decide⟩
  · exact ⟨_, rfl, by decide⟩
  · exact ⟨_, rfl, by decide⟩
  · exact ⟨_, rfl, by decide⟩
  · exact data_name h
  · exact ⟨_, rfl, by decide⟩
  · exact ⟨_, rfl, by decide⟩

theorem exhausts_iff {cfg : Cfg} (hc57 : 57 ≤ cfg.maxCount) (file : Bytes) : loadMsh cfg file = .throw .alloc ↔
    (∃ s name r, ArrivesAt cfg file s name r ∧ SectionExhausts cfg s name r) ∨
    ∃ s st, Arrives cfg (Stream.ofBytes file) (s, st) ∧ st.eof = true ∧ loadPostProcess cfg s = .throw .alloc := by
  rw [loadMsh_throw_iff]
  refine or_congr ⟨?_, ?_⟩ Iff.rfl
  · rintro ⟨s, name, r, -, har, h⟩
    obtain ⟨w, -, hb⟩ := har.2
    exact ⟨s, name, r, har, (section_exhausts_iff hc57 (arrives_version hb) name r).mp h⟩
  · rintro ⟨s, name, r, har, h⟩
    obtain ⟨w, -, hb⟩ := har.2
    exact ⟨s, name, r, exhausts_name h, har, (section_exhausts_iff hc57 (arrives_version hb) name r).mpr h⟩

end MshIO
