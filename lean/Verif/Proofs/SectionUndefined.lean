import Verif.Proofs.DataUndefined

/-! # When reading a section is undefined, whatever follows its name -/

namespace MshIO

variable {α β : Type}

/-- Where reading starts after the name of a section. -/
theorem at_payload (r : Bytes) : At (.on r) (payload r) := rfl

theorem safe_meshFormat (F : Bytes) (f : MeshFormat) : Safe ⟨F, false⟩ (loadMeshFormat f) fun _ => True := by
  unfold loadMeshFormat
  exact Safe.skip (safe_inString _) fun _ => Safe.ite (fun _ => Safe.throw) fun _ => Safe.skip (safe_inInt _) fun _ => Safe.skip (safe_inInt _) fun _ =>
    Safe.ite (fun _ => Safe.throw) fun _ => Safe.ite (fun _ => Safe.skip (safe_eatWhiteSpace _) fun _ => Safe.skip (safe_readInt _) fun _ =>
      Safe.ite (fun _ => Safe.throw) fun _ => Safe.pure trivial) fun _ => Safe.pure trivial

theorem Safe.defined {m : Rd α} {Q : α → Prop} (h : ∀ F : Bytes, Safe ⟨F, false⟩ m Q) (st : Stream) : m st ≠ .ub :=
  (h st.rem st ⟨List.suffix_refl _, (fun h => by cases h)⟩).1

/-- Reading the nodes. -/
theorem ub_nodes (cfg : Cfg) {s : MshSpec} (hv : s.meshFormat.version = b! "4.1" ∨ s.meshFormat.version = b! "2.2") (r : Bytes) :
    loadNodes cfg s.meshFormat s.nodes (payload r) = .ub ↔ NodesSectionUndefined cfg s (.on r) := by
  unfold NodesSectionUndefined
  by_cases h41 : s.meshFormat.version = b! "4.1"
  · rw [if_pos h41]
    by_cases ht : s.meshFormat.fileType = 0
    · rw [if_pos ht]
      unfold loadNodes
      simp only [h41, ht, if_true]
      rw [ub_nodes41 cfg _ _ _ (at_payload r)]
      unfold Nodes41TextUndefined
      split <;> rfl
    · rw [if_neg ht]
      constructor
      · intro h
        obtain ⟨d, hd⟩ := dataAfter_exists r
        exact ⟨d, hd, (loadNodes41b_ub_iff h41 ht _ hd).mp h⟩
      · rintro ⟨d, hd, h⟩
        exact (loadNodes41b_ub_iff h41 ht _ hd).mpr h
  · have h22 := hv.resolve_left h41
    rw [if_neg h41]
    unfold loadNodes
    simp only [if_neg h41, if_pos h22]
    by_cases ht : s.meshFormat.fileType = 0
    · simp only [ht, if_true]
      exact ⟨fun h => absurd h (Safe.defined (fun F => safe_nodesAscii22 cfg _) _), fun h => absurd rfl h.1⟩
    · simp only [ht, if_false]
      rw [ub_nodesBinary22 cfg (s := s) (by split <;> rfl) _ _ (at_payload r)]
      exact ⟨fun h => ⟨ht, h⟩, fun h => h.2⟩

/-- Reading the elements. -/
theorem ub_elements {cfg : Cfg} (hc57 : 57 ≤ cfg.maxCount) {s : MshSpec} (hv : s.meshFormat.version = b! "4.1" ∨ s.meshFormat.version = b! "2.2") (r : Bytes) :
    loadElements cfg s.meshFormat s.elements s.entities (payload r) = .ub ↔ ElementsSectionUndefined cfg s (.on r) := by
  unfold ElementsSectionUndefined loadElements
  by_cases h41 : s.meshFormat.version = b! "4.1"
  · simp only [h41, if_true]
    by_cases ht : s.meshFormat.fileType = 0
    · simp only [ht, if_true]
      rw [ub_bind (fun _ _ h => by cases h), ub_elements41 cfg _ _ _ (at_payload r)]
      unfold Elements41TextUndefined
      simp only [true_and]
      split <;> rfl
    · simp only [ht, if_false]
      rw [ub_bind (fun _ _ h => by cases h)]
      exact ⟨fun h => absurd h (Safe.defined (fun F => safe_elementsBinary41 cfg _) _), fun h => h.1.elim⟩
  · have h22 := hv.resolve_left h41
    rw [if_neg h41]
    simp only [if_neg h41, if_pos h22]
    by_cases ht : s.meshFormat.fileType = 0
    · simp only [ht, if_true]
      exact ub_elements22 cfg _ _ _ _ (at_payload r)
    · simp only [ht, if_false]
      rw [ub_elementsBinary22 hc57 _ _ _ _ (at_payload r)]
      unfold ElementsUndefined
      split <;> rfl

/-- Reading the entities. -/
theorem ub_entities (cfg : Cfg) {s : MshSpec} (hv : s.meshFormat.version = b! "4.1" ∨ s.meshFormat.version = b! "2.2") (r : Bytes) :
    loadEntities cfg s.meshFormat s.entities (payload r) = .ub ↔ EntitiesSectionUndefined cfg s (.on r) := by
  unfold EntitiesSectionUndefined loadEntities
  by_cases h41 : s.meshFormat.version = b! "4.1"
  · simp only [h41, if_true, true_and]
    by_cases ht : s.meshFormat.fileType = 0
    · simp only [ht, if_true]
      exact ub_entities41 cfg _ _ _ (at_payload r)
    · simp only [ht, if_false]
      cases ha : cfg.asserts with
      | true => exact ⟨fun h => absurd h (Safe.defined (fun F => safe_entitiesBinary41 ha _) _), fun h => by cases h.1⟩
      | false =>
        constructor
        · intro h
          obtain ⟨d, hd⟩ := dataAfter_exists r
          exact ⟨rfl, d, hd, (entitiesBinary_ub_iff ha _ hd).mp h⟩
        · rintro ⟨-, d, hd, h⟩
          exact (entitiesBinary_ub_iff ha _ hd).mpr h
  · have h22 := hv.resolve_left h41
    rw [if_neg h41, if_pos h22]
    exact ⟨(fun h => by cases h), fun h => absurd h.1 h41⟩

/-- Reading a data section. -/
theorem ub_data {cfg : Cfg} {s : MshSpec} (hv : s.meshFormat.version = b! "4.1" ∨ s.meshFormat.version = b! "2.2") {name : Bytes} (hn : name ∈ dataSections) (r : Bytes) :
    loadSection cfg name s (payload r) = .ub ↔ DataSectionUndefined cfg s name (.on r) := by
  simp only [dataSections, List.mem_cons, List.not_mem_nil, or_false] at hn
  unfold DataSectionUndefined
  rcases hn with rfl | rfl | rfl
  · show (loadDataSection cfg s.meshFormat false s.nodeData >>= fun x => (pure { s with nodeData := x } : Rd MshSpec)) _ = _ ↔ _
    rw [ub_bind (fun _ _ h => by cases h), loadDataSection_ub_iff, ub_loadData hv (N := b! "$NodeData" = b! "$ElementNodeData") (by decide) _ _ (at_payload r)]
    rfl
  · show (loadDataSection cfg s.meshFormat false s.elementData >>= fun x => (pure { s with elementData := x } : Rd MshSpec)) _ = _ ↔ _
    rw [ub_bind (fun _ _ h => by cases h), loadDataSection_ub_iff, ub_loadData hv (N := b! "$ElementData" = b! "$ElementNodeData") (by decide) _ _ (at_payload r)]
    rfl
  · show (loadDataSection cfg s.meshFormat true s.elementNodeData >>= fun x => (pure { s with elementNodeData := x } : Rd MshSpec)) _ = _ ↔ _
    rw [ub_bind (fun _ _ h => by cases h), loadDataSection_ub_iff, ub_loadData hv (N := b! "$ElementNodeData" = b! "$ElementNodeData") (by decide) _ _ (at_payload r)]
    rfl

/-- A section is undefined only if it has one of the eight names. -/
theorem section_other {cfg : Cfg} {s : MshSpec} {name : Bytes} {r : Bytes} (h1 : name ∉ countedSections cfg.nanospline) (h2 : name ∉ dataSections)
    (h3 : name ≠ b! "$Entities") (h4 : name ≠ b! "$Nodes") (h5 : name ≠ b! "$Elements") : loadSection cfg name s (payload r) ≠ .ub := by
  have a1 : name ≠ b! "$PhysicalNames" := fun h => h1 (by rw [h]; exact List.mem_cons_self)
  have a2 : name ≠ b! "$NodeData" := fun h => h2 (by rw [h]; decide)
  have a3 : name ≠ b! "$ElementData" := fun h => h2 (by rw [h]; decide)
  have a4 : name ≠ b! "$ElementNodeData" := fun h => h2 (by rw [h]; decide)
  rw [ne_eq]
  unfold loadSection
  by_cases hf : name = b! "$MeshFormat"
  · rw [if_pos hf, ub_bind (fun _ _ h => by cases h)]
    exact Safe.defined (fun F => safe_meshFormat F _) _
  rw [if_neg hf, if_neg h3, if_neg a1, if_neg h4, if_neg h5, if_neg a2, if_neg a3, if_neg a4]
  by_cases hs : name = b! "$NanoSplineFormat"
  · rw [if_pos hs, ub_bind (fun _ _ h => by cases h)]
    exact inString_ne_ub _ _
  rw [if_neg hs]
  by_cases hc : name = b! "$Curves"
  · rw [if_pos hc, ub_bind (fun _ _ h => by cases h)]
    unfold loadCurves
    have : cfg.nanospline ≠ true := fun h => h1 (by rw [hc]; unfold countedSections; rw [if_pos h]; decide)
    rw [if_neg this]
    intro h; cases h
  rw [if_neg hc]
  by_cases hp : name = b! "$Patches"
  · rw [if_pos hp, ub_bind (fun _ _ h => by cases h)]
    unfold loadPatches
    have : cfg.nanospline ≠ true := fun h => h1 (by rw [hp]; unfold countedSections; rw [if_pos h]; decide)
    rw [if_neg this]
    intro h; cases h
  rw [if_neg hp]
  intro h; cases h

theorem ub_counted {cfg : Cfg} {name : Bytes} (hn : name ∈ countedSections cfg.nanospline) (s : MshSpec) {r : Bytes} (hw : WsNext r) :
    loadSection cfg name s (payload r) = .ub ↔ Blank r := by
  refine ⟨fun h => ?_, counted_ub hn s⟩
  unfold countedSections at hn
  rcases List.mem_cons.mp hn with rfl | hn
  · change (loadPhysicalGroups cfg s.physicalGroups >>= fun x => (pure { s with physicalGroups := x } : Rd MshSpec)) _ = _ at h
    rw [ub_bind (fun _ _ h => by cases h)] at h
    exact ((after_physicalGroups (F := ⟨_, false⟩) cfg s.physicalGroups) r (List.suffix_refl (b! "$PhysicalNames" ++ r)) hw).1 h
  · split at hn
    · rename_i hc
      simp only [List.mem_cons, List.not_mem_nil, or_false] at hn
      rcases hn with rfl | rfl
      · change (loadCurves cfg s.meshFormat s.curves >>= fun x => (pure { s with curves := x } : Rd MshSpec)) _ = _ at h
        rw [ub_bind (fun _ _ h => by cases h)] at h
        exact (((after_curves (F := ⟨_, false⟩) cfg (fun _ => rfl) s.curves) r (List.suffix_refl (b! "$Curves" ++ r)) hw).1 h).2
      · change (loadPatches cfg s.meshFormat s.patches >>= fun x => (pure { s with patches := x } : Rd MshSpec)) _ = _ at h
        rw [ub_bind (fun _ _ h => by cases h)] at h
        exact (((after_patches (F := ⟨_, false⟩) cfg (fun _ => rfl) s.patches) r (List.suffix_refl (b! "$Patches" ++ r)) hw).1 h).2
    · cases hn

theorem counted_other {ext : Bool} {name : Bytes} (h : name ∈ countedSections ext) :
    name ∉ dataSections ∧ name ≠ b! "$Entities" ∧ name ≠ b! "$Nodes" ∧ name ≠ b! "$Elements" := by
  have : name ∈ [b! "$PhysicalNames", b! "$Curves", b! "$Patches"] := by
    cases ext <;> simp [countedSections] at h ⊢ <;> tauto
  simp only [List.mem_cons, List.not_mem_nil, or_false] at this
  rcases this with rfl | rfl | rfl <;> decide

theorem data_other {name : Bytes} (h : name ∈ dataSections) : name ≠ b! "$Entities" ∧ name ≠ b! "$Nodes" ∧ name ≠ b! "$Elements" := by
  simp only [dataSections, List.mem_cons, List.not_mem_nil, or_false] at h
  rcases h with rfl | rfl | rfl <;> decide

/-- Reading a section. -/
theorem section_ub_iff {cfg : Cfg} (hc57 : 57 ≤ cfg.maxCount) {s : MshSpec} (hv : s.meshFormat.version = b! "4.1" ∨ s.meshFormat.version = b! "2.2") (name : Bytes)
    {r : Bytes} (hw : WsNext r) : loadSection cfg name s (payload r) = .ub ↔ SectionUndefined cfg s name r := by
  unfold SectionUndefined
  by_cases h1 : name ∈ countedSections cfg.nanospline
  · obtain ⟨h2, h3, h4, h5⟩ := counted_other h1
    rw [ub_counted h1 s hw]
    simp only [h1, h2, h3, h4, h5, true_and, false_and, or_false]
  by_cases h2 : name ∈ dataSections
  · obtain ⟨h3, h4, h5⟩ := data_other h2
    rw [ub_data hv h2]
    simp only [h1, h2, h3, h4, h5, true_and, false_and, or_false, false_or]
  by_cases h3 : name = b! "$Entities"
  · subst h3
    have : loadSection cfg (b! "$Entities") s = (loadEntities cfg s.meshFormat s.entities >>= fun x => (pure { s with entities := x } : Rd MshSpec)) := rfl
    rw [this, ub_bind (fun _ _ h => by cases h), ub_entities cfg hv]
    simp only [h1, h2, true_and, false_and, false_or]
    exact ⟨Or.inl, fun h => h.resolve_right (by rintro (⟨h, -⟩ | ⟨h, -⟩) <;> exact absurd h (by decide))⟩
  by_cases h4 : name = b! "$Nodes"
  · subst h4
    have : loadSection cfg (b! "$Nodes") s = (loadNodes cfg s.meshFormat s.nodes >>= fun x => (pure { s with nodes := x } : Rd MshSpec)) := rfl
    rw [this, ub_bind (fun _ _ h => by cases h), ub_nodes cfg hv]
    simp only [h1, h2, h3, true_and, false_and, false_or]
    exact ⟨Or.inl, fun h => h.resolve_right (by rintro ⟨h, -⟩; exact absurd h (by decide))⟩
  by_cases h5 : name = b! "$Elements"
  · subst h5
    have : loadSection cfg (b! "$Elements") s = (loadElements cfg s.meshFormat s.elements s.entities >>= fun x =>
      (pure { s with elements := x.1, entities := x.2 } : Rd MshSpec)) := rfl
    rw [this, ub_bind (fun _ _ h => by cases h), ub_elements hc57 hv]
    simp only [h1, h2, h3, h4, true_and, false_and, false_or]
  · simp only [h1, h2, h3, h4, h5, false_and, or_false, iff_false]
    exact section_other h1 h2 h3 h4 h5

/-! ## Whole files -/

theorem section_version (cfg : Cfg) (buf : Bytes) {s : MshSpec} (h : s.meshFormat.version = b! "4.1" ∨ s.meshFormat.version = b! "2.2") :
    Post (loadSection cfg buf s) fun t => t.meshFormat.version = b! "4.1" ∨ t.meshFormat.version = b! "2.2" := by
  unfold loadSection
  refine Post.ite (fun _ => Post.bind (loadMeshFormat_post _) fun f hf => Post.pure hf) fun _ => Post.ite (fun _ => Post.skip fun _ => Post.pure h) fun _ =>
    Post.ite (fun _ => Post.skip fun _ => Post.pure h) fun _ => Post.ite (fun _ => Post.skip fun _ => Post.pure h) fun _ =>
    Post.ite (fun _ => Post.skip fun _ => Post.pure h) fun _ => Post.ite (fun _ => Post.skip fun _ => Post.pure h) fun _ =>
    Post.ite (fun _ => Post.skip fun _ => Post.pure h) fun _ => Post.ite (fun _ => Post.skip fun _ => Post.pure h) fun _ =>
    Post.ite (fun _ => Post.skip fun _ => Post.pure h) fun _ => Post.ite (fun _ => Post.skip fun _ => Post.pure h) fun _ =>
    Post.ite (fun _ => Post.skip fun _ => Post.pure h) fun _ => Post.pure h

theorem arrives_version {cfg : Cfg} {file : Bytes} {x : MshSpec × Stream} (h : Arrives cfg (Stream.ofBytes file) x) :
    x.1.meshFormat.version = b! "4.1" ∨ x.1.meshFormat.version = b! "2.2" :=
  (reach_keeps (F := file) (I := fun s => s.meshFormat.version = b! "4.1" ∨ s.meshFormat.version = b! "2.2") (fun buf _ s hs => section_version cfg buf hs) h
    ⟨Or.inl rfl, List.suffix_refl _⟩).1

theorem undefined_name {cfg : Cfg} {s : MshSpec} {name r : Bytes} (h : SectionUndefined cfg s name r) : ∃ n, name = 36 :: n ∧ ∀ c ∈ n, isSpace c = false := by
  rcases h with ⟨h, -⟩ | ⟨h, -⟩ | ⟨rfl, -⟩ | ⟨rfl, -⟩ | ⟨rfl, -⟩
  · exact counted_name h
  · exact data_name h
  all_goals exact ⟨_, rfl, by decide⟩

theorem undefined_iff {cfg : Cfg} (hc57 : 57 ≤ cfg.maxCount) (file : Bytes) : loadMsh cfg file = .ub ↔
    (∃ s name r, ArrivesAt cfg file s name r ∧ SectionUndefined cfg s name r) ∨
    ∃ s st, Arrives cfg (Stream.ofBytes file) (s, st) ∧ st.eof = true ∧ loadPostProcess cfg s = .ub := by
  constructor
  · intro h
    rcases (loadMsh_ub_iff cfg _).mp h with ⟨s, st, ha, he, hu⟩ | h
    · obtain ⟨w, buf, r, hw, rfl, hn, hs⟩ := round_ub hu
      exact Or.inl ⟨s, buf, r, ⟨hn, w, hw, ha⟩, (section_ub_iff hc57 (arrives_version ha) buf hn).mp hs⟩
    · exact Or.inr h
  · rintro (⟨s, name, r, ha, hu⟩ | h)
    · obtain ⟨n, rfl, hn⟩ := undefined_name hu
      have ha' := ha
      obtain ⟨hr, w, hw, har⟩ := ha'
      exact ub_of_section hn ha ((section_ub_iff hc57 (arrives_version har) _ hr).mpr hu)
    · exact (loadMsh_ub_iff cfg _).mpr (Or.inr h)

/-- What is kept if `$MeshFormat` comes first. -/
theorem arrives_raw {cfg : Cfg} {file : Bytes} (hf : FormatFirst cfg file) {x : MshSpec × Stream} (h : Arrives cfg (Stream.ofBytes file) x) :
    x.1.meshFormat.version = b! "2.2" → x.1.nodes.Raw ∧ x.1.elements.Raw := by
  unfold Arrives at h
  induction h with
  | refl => intro h; exact absurd h (show ¬ (({} : MshSpec).meshFormat.version = b! "2.2") by decide)
  | @tail x y hx hy ih =>
    obtain ⟨s, st⟩ := x
    obtain ⟨t, st'⟩ := y
    have hr := hy.2
    simp only at hr ih ⊢
    unfold loadRound at hr
    obtain ⟨buf, s1, h1, hr1⟩ := Rd.bind_eq_ok hr
    clear hr
    split at hr1
    · rename_i rest
      obtain ⟨w, hw, rfl, e1, hn⟩ := inString_at h1 (by simp)
      obtain ⟨sp, s2, h2, hr2⟩ := Rd.bind_eq_ok hr1
      obtain ⟨_, s3, h3, hr3⟩ := Rd.bind_eq_ok hr2
      cases hr3
      by_cases hm : 36 :: rest = b! "$MeshFormat"
      · rw [hm] at h2 hx
        obtain ⟨hn0, he0⟩ := hf s s1.rem ⟨hn, w, hw, hx⟩
        have e : t.nodes = s.nodes ∧ t.elements = s.elements := by
          change (loadMeshFormat s.meshFormat >>= fun x => (pure { s with meshFormat := x } : Rd MshSpec)) _ = _ at h2
          obtain ⟨f, s4, -, h2⟩ := Rd.bind_eq_ok h2
          cases h2
          exact ⟨rfl, rfl⟩
        intro _
        rw [e.1, e.2]
        exact ⟨⟨fun b hb => absurd (hn0 ▸ hb) List.not_mem_nil, fun b hb => absurd (hn0 ▸ hb) List.not_mem_nil⟩, fun b hb => absurd (he0 ▸ hb) List.not_mem_nil⟩
      · intro hv
        have hfmt : t.meshFormat = s.meshFormat := by
          refine (?_ : Post (loadSection cfg (36 :: rest) s) fun t => t.meshFormat = s.meshFormat) _ _ _ h2
          unfold loadSection
          rw [if_neg hm]
          exact Post.ite (fun _ => Post.skip fun _ => Post.pure rfl) fun _ =>
            Post.ite (fun _ => Post.skip fun _ => Post.pure rfl) fun _ => Post.ite (fun _ => Post.skip fun _ => Post.pure rfl) fun _ =>
            Post.ite (fun _ => Post.skip fun _ => Post.pure rfl) fun _ => Post.ite (fun _ => Post.skip fun _ => Post.pure rfl) fun _ =>
            Post.ite (fun _ => Post.skip fun _ => Post.pure rfl) fun _ => Post.ite (fun _ => Post.skip fun _ => Post.pure rfl) fun _ =>
            Post.ite (fun _ => Post.skip fun _ => Post.pure rfl) fun _ => Post.ite (fun _ => Post.skip fun _ => Post.pure rfl) fun _ =>
            Post.ite (fun _ => Post.skip fun _ => Post.pure rfl) fun _ => Post.pure rfl
        have hv' : s.meshFormat.version = b! "2.2" := by rw [← hfmt]; exact hv
        obtain ⟨i1, i2⟩ := ih hv'
        have := loadSection_raw cfg (fmt := s.meshFormat) hv' hm ⟨rfl, i1, i2⟩ _ _ _ h2
        exact ⟨this.nodes, this.elements⟩
    · cases hr1
      exact ih

theorem post_undefined_iff {cfg : Cfg} {file : Bytes} (hf : FormatFirst cfg file) {s : MshSpec} {st : Stream} (h : Arrives cfg (Stream.ofBytes file) (s, st)) :
    loadPostProcess cfg s = .ub ↔ TagOutside cfg s := by
  unfold TagOutside
  by_cases hv : s.meshFormat.version = b! "2.2"
  · obtain ⟨h1, h2⟩ := arrives_raw hf h hv
    rw [loadPostProcess_ub_iff cfg hv h1 h2]
    exact ⟨fun h => ⟨hv, h⟩, fun h => h.2⟩
  · unfold loadPostProcess
    rw [if_neg hv]
    exact ⟨(fun h => by cases h), fun h => absurd h.1 hv⟩

end MshIO
