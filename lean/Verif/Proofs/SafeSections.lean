import Verif.Proofs.NodeHazards

/-! # Undefined behaviour of whole files -/

namespace MshIO

variable {α β : Type} {F : Ends}

/-! ## The main loop -/

/-- A round of the main loop keeps what the section readers keep. -/
theorem round_keeps {cfg : Cfg} {I : MshSpec → Prop} {H : MshSpec → Bytes → Bytes → Prop} (hI : ∀ buf s, I s → SafeAfter (H s buf) F buf (loadSection cfg buf s) I)
    {s s' : MshSpec} {st st' : Stream} (h : I s) (hst : F.At st.rem) (hr : loadRound cfg s st = .ok (s', st')) : I s' ∧ F.At st'.rem := by
  unfold loadRound at hr
  obtain ⟨buf, s1, h1, hr⟩ := Rd.bind_eq_ok hr
  have hat := inString_at' hst h1
  split at hr
  · rename_i rest
    obtain ⟨w, -, e, e1, hn⟩ := inString_at h1 (by simp)
    obtain ⟨sp, s2, h2, hr⟩ := Rd.bind_eq_ok hr
    obtain ⟨_, s3, h3, hr⟩ := Rd.bind_eq_ok hr
    cases hr
    have hsuf : 36 :: rest ++ s1.rem <:+ F.bytes := by
      refine List.IsSuffix.trans ⟨w, ?_⟩ hst.1
      rw [e]
      simp
    rw [e1] at h2
    obtain ⟨h4, h5⟩ := (hI _ s h _ hsuf hn).2 _ _ h2
    exact ⟨h5, ((safe_forwardTo _ _ h4).2 _ _ h3).1⟩
  · cases hr
    exact ⟨h, hat⟩

theorem reach_at {cfg : Cfg} {I : MshSpec → Prop} {H : MshSpec → Bytes → Bytes → Prop} (hI : ∀ buf s, I s → SafeAfter (H s buf) F buf (loadSection cfg buf s) I)
    {x y : MshSpec × Stream} (h : Relation.ReflTransGen (MainIter cfg) x y) (hx : I x.1 ∧ F.At x.2.rem) : I y.1 ∧ F.At y.2.rem := by
  induction h with
  | refl => exact hx
  | tail _ hz ih => exact round_keeps hI ih.1 ih.2 hz.2

/-- Loading is undefined because of a section or after reading. -/
theorem file_ub {cfg : Cfg} {I : MshSpec → Prop} {H : MshSpec → Bytes → Bytes → Prop} (hI : ∀ buf s, I s → SafeAfter (H s buf) F buf (loadSection cfg buf s) I)
    {a : Bytes} {spec : MshSpec} (hb : Boundary cfg a spec) (h : I spec) (hu : loadMsh cfg (a ++ F.bytes) = .ub) :
    (∃ s buf r, I s ∧ ArrivesAt cfg (a ++ F.bytes) s buf r ∧ H s buf r) ∨
    ∃ s st, I s ∧ Arrives cfg (Stream.ofBytes (a ++ F.bytes)) (s, st) ∧ st.eof = true ∧ loadPostProcess cfg s = .ub := by
  rcases (loadMsh_ub_iff cfg _).mp hu with ⟨s, st, ha, he, hu⟩ | ⟨s, st, ha, he, hu⟩
  · have h1 : loadFull cfg {} (gs (a ++ F.bytes)) = .ub := by
      have := loadFull_reach ha
      simp only at this
      refine this.trans ?_
      rw [loadFull_round he, Rd.bind_def, hu]
    rw [loadFull_ext hb] at h1
    obtain ⟨⟨s, st⟩, hreach, he, hu⟩ := loadFull_ub cfg _ _ _ le_rfl h1
    obtain ⟨hi, hat⟩ := reach_at hI hreach ⟨h, Ends.At.refl F⟩
    obtain ⟨w, buf, r, hw, hst, hn, hu⟩ := round_ub hu
    simp only at hst hi hat
    subst hst
    have hsuf : buf ++ r <:+ F.bytes := List.IsSuffix.trans ⟨w, by simp⟩ hat.1
    exact Or.inl ⟨s, buf, r, hi, arrivesAt_of_reach hb hw hn hreach, (hI buf s hi r hsuf hn).1 hu⟩
  · have h1 : loadFull cfg {} (gs (a ++ F.bytes)) = .ok (s, st) := by
      have := loadFull_reach ha
      simp only at this
      refine this.trans ?_
      rw [loadFull_eof he]
    rw [loadFull_ext hb] at h1
    obtain ⟨hreach, -⟩ := loadFull_ok cfg _ _ _ _ le_rfl h1
    exact Or.inr ⟨s, st, (reach_at hI hreach ⟨h, Ends.At.refl F⟩).1, ha, he, hu⟩

theorem payload_nextWord {name r : Bytes} (hn : ∀ c ∈ name, isSpace c = false) (hr : WsNext r) : inString [] (gs (36 :: name ++ r)) = .ok (36 :: name, payload r) := by
  cases r with
  | cons c r =>
    have := inString_tok [] _ (tag_word hn) [] (c :: r) Ws.nil ⟨c, r, rfl, hr c rfl⟩
    rwa [List.nil_append] at this
  | nil =>
    have h36 : isSpace 36 = false := by decide
    have h1 : (36 :: name).takeWhile (fun c => !isSpace c) = 36 :: name := by
      rw [List.takeWhile_eq_self_iff]
      intro c hc
      rcases List.mem_cons.mp hc with rfl | hc
      · simp [h36]
      · simp [hn c hc]
    have h2 : (36 :: name).dropWhile (fun c => !isSpace c) = [] := by
      rw [List.dropWhile_eq_nil_iff]
      intro c hc
      rcases List.mem_cons.mp hc with rfl | hc
      · simp [h36]
      · simp [hn c hc]
    rw [List.append_nil]
    unfold inString sentry
    simp only [Stream.good, Bool.not_false, Bool.and_self, if_true, List.dropWhile_cons, h36, Bool.false_eq_true, if_false]
    simp only [h1]
    simp only [List.dropWhile_cons, h36, Bool.not_false, if_true] at h2
    simp only [h2]
    rfl

/-- A section that is undefined makes loading undefined. -/
theorem ub_of_section {cfg : Cfg} {file : Bytes} {s : MshSpec} {name r : Bytes} (hn : ∀ c ∈ name, isSpace c = false) (ha : ArrivesAt cfg file s (36 :: name) r)
    (hu : loadSection cfg (36 :: name) s (payload r) = .ub) : loadMsh cfg file = .ub := by
  obtain ⟨hr, w, hw, ha⟩ := ha
  refine (loadMsh_ub_iff cfg _).mpr (Or.inl ⟨s, _, ha, rfl, ?_⟩)
  rw [List.append_assoc, loadRound_ws _ _ hw]
  unfold loadRound
  rw [Rd.bind_ok (payload_nextWord hn hr)]
  show (loadSection cfg (36 :: name) s >>= _) _ = _
  rw [Rd.bind_def, hu]

theorem counted_ub {cfg : Cfg} {name : Bytes} (hn : name ∈ countedSections cfg.nanospline) (s : MshSpec) {r : Bytes} (hr : Blank r) :
    loadSection cfg name s (payload r) = .ub := by
  unfold countedSections at hn
  rcases List.mem_cons.mp hn with rfl | hn
  · show (loadPhysicalGroups cfg s.physicalGroups >>= fun x => (pure { s with physicalGroups := x } : Rd MshSpec)) _ = _
    rw [Rd.bind_def, show payload r = ⟨r, r.isEmpty, false⟩ from rfl, physicalGroups_blank cfg _ hr]
  · split at hn
    · rename_i hc
      simp only [List.mem_cons, List.not_mem_nil, or_false] at hn
      rcases hn with rfl | rfl
      · show (loadCurves cfg s.meshFormat s.curves >>= fun x => (pure { s with curves := x } : Rd MshSpec)) _ = _
        rw [Rd.bind_def, show payload r = ⟨r, r.isEmpty, false⟩ from rfl, curves_blank hc _ _ hr]
      · show (loadPatches cfg s.meshFormat s.patches >>= fun x => (pure { s with patches := x } : Rd MshSpec)) _ = _
        rw [Rd.bind_def, show payload r = ⟨r, r.isEmpty, false⟩ from rfl, patches_blank hc _ _ hr]
    · cases hn

theorem counted_name {ext : Bool} {name : Bytes} (hn : name ∈ countedSections ext) : ∃ n, name = 36 :: n ∧ ∀ c ∈ n, isSpace c = false := by
  have : name ∈ [b! "$PhysicalNames", b! "$Curves", b! "$Patches"] := by
    cases ext <;> simp [countedSections] at hn ⊢ <;> tauto
  simp only [List.mem_cons, List.not_mem_nil, or_false] at this
  rcases this with rfl | rfl | rfl <;> exact ⟨_, rfl, by decide⟩

theorem data_name {name : Bytes} (hn : name ∈ dataSections) : ∃ n, name = 36 :: n ∧ ∀ c ∈ n, isSpace c = false := by
  simp only [dataSections, List.mem_cons, List.not_mem_nil, or_false] at hn
  rcases hn with rfl | rfl | rfl <;> exact ⟨_, rfl, by decide⟩

theorem CounterMissing.ub {cfg : Cfg} {file : Bytes} (h : CounterMissing cfg file) : loadMsh cfg file = .ub := by
  obtain ⟨s, r, n, hn, ha, hr⟩ := h
  have hu := counted_ub hn s hr
  obtain ⟨m, rfl, hm⟩ := counted_name hn
  exact ub_of_section hm ha hu

theorem DataCutOff.ub {cfg : Cfg} {fmt : MeshFormat} (hv : fmt.version = b! "4.1" ∨ fmt.version = b! "2.2") {file : Bytes} (h : DataCutOff cfg fmt file) :
    loadMsh cfg file = .ub := by
  obtain ⟨ht, s, r, ints, c, d, n, hn, ha, rfl, hs, hc, hu⟩ := h
  have hu := (loadSection_data_ub_iff hv ht hn hs hc).mpr hu
  obtain ⟨m, rfl, hm⟩ := data_name hn
  exact ub_of_section hm ha hu

theorem EntitiesCutOff.ub {cfg : Cfg} {fmt : MeshFormat} (hv : fmt.version = b! "4.1") (ht : fmt.fileType ≠ 0) {file : Bytes} (h : EntitiesCutOff cfg fmt file) :
    loadMsh cfg file = .ub := by
  obtain ⟨ha, s, r, d, har, rfl, hd, hu⟩ := h
  refine ub_of_section (name := b! "Entities") (by decide) har ?_
  show (loadEntities cfg s.meshFormat s.entities >>= fun x => (pure { s with entities := x } : Rd MshSpec)) _ = _
  rw [ub_bind (fun _ _ h => by cases h)]
  unfold loadEntities
  rw [if_pos hv, if_neg ht]
  exact (entitiesBinary_ub_iff ha _ hd).mpr hu

theorem loadNodes41b_ub_iff {cfg : Cfg} {f : MeshFormat} (hv : f.version = b! "4.1") (ht : f.fileType ≠ 0) (n : Nodes) {r d : Bytes} (hd : DataAfter r d) :
    loadNodes cfg f n (payload r) = .ub ↔ Nodes41Undefined cfg n d := by
  unfold loadNodes
  simp only [hv, ht, if_true, if_false]
  rw [nodesBinary_ub_iff _ hd]
  unfold Nodes41Undefined
  split <;> rfl

theorem NodesOverflow.ub {cfg : Cfg} {fmt : MeshFormat} (hv : fmt.version = b! "4.1") (ht : fmt.fileType ≠ 0) {file : Bytes} (h : NodesOverflow cfg fmt file) :
    loadMsh cfg file = .ub := by
  obtain ⟨s, r, d, har, rfl, hd, hu⟩ := h
  refine ub_of_section (name := b! "Nodes") (by decide) har ?_
  show (loadNodes cfg s.meshFormat s.nodes >>= fun x => (pure { s with nodes := x } : Rd MshSpec)) _ = _
  rw [ub_bind (fun _ _ h => by cases h)]
  exact (loadNodes41b_ub_iff hv ht _ hd).mpr hu

/-! ## The sections -/

theorem SafeAfter.of_any [F.Any] {H : Bytes → Prop} {buf : Bytes} {m : Rd α} (ht : Tame m)
    (h : ∀ r, buf ++ r <:+ F.bytes → WsNext r → m (payload r) = .ub → H r) : SafeAfter H F buf m fun _ => True := by
  intro r hr hw
  refine ⟨h r hr hw, fun a s' e => ⟨Ends.At.all ?_, trivial⟩⟩
  exact ((ht.all _).2 _ _ e).suffix.trans ((List.suffix_append _ _).trans hr)

/-- A counted section without its counter. -/
def NoCounter (cfg : Cfg) (buf r : Bytes) : Prop := buf ∈ countedSections cfg.nanospline ∧ Blank r

/-- A binary data section that is undefined. -/
def BadData (cfg : Cfg) (s : MshSpec) (buf r : Bytes) : Prop :=
  buf ∈ dataSections ∧ 0 < s.meshFormat.fileType ∧ ∃ ints c d, StartsData cfg r ints c d ∧ Skipped c ∧ DataUndefined cfg s buf ints d

/-- A binary `$Entities` section that is undefined. -/
def BadEntities (cfg : Cfg) (buf r : Bytes) : Prop := buf = b! "$Entities" ∧ cfg.asserts = false ∧ ∃ d, DataAfter r d ∧ EntitiesUndefined cfg d

theorem CounterMissing.of {cfg : Cfg} {file : Bytes} {s : MshSpec} {buf r : Bytes} (ha : ArrivesAt cfg file s buf r) (h : NoCounter cfg buf r) : CounterMissing cfg file :=
  ⟨s, r, buf, h.1, ha, h.2⟩

theorem DataCutOff.of {cfg : Cfg} {fmt : MeshFormat} {file : Bytes} {s : MshSpec} (hs : s.meshFormat = fmt) {buf r : Bytes} (ha : ArrivesAt cfg file s buf r) (h : BadData cfg s buf r) :
    DataCutOff cfg fmt file := by
  obtain ⟨hn, ht, ints, c, d, h1, h2, h3⟩ := h
  exact ⟨hs ▸ ht, s, r, ints, c, d, buf, hn, ha, hs, h1, h2, h3⟩

theorem EntitiesCutOff.of {cfg : Cfg} {fmt : MeshFormat} {file : Bytes} {s : MshSpec} (hs : s.meshFormat = fmt) {buf r : Bytes} (ha : ArrivesAt cfg file s buf r)
    (h : BadEntities cfg buf r) : EntitiesCutOff cfg fmt file := by
  obtain ⟨rfl, h1, d, h2, h3⟩ := h
  exact ⟨h1, s, r, d, ha, hs, h2, h3⟩

/-- A binary `$Nodes` section of version 4.1 that is undefined. -/
def BadNodes41 (cfg : Cfg) (s : MshSpec) (buf r : Bytes) : Prop := buf = b! "$Nodes" ∧ ∃ d, DataAfter r d ∧ Nodes41Undefined cfg s.nodes d

theorem NodesOverflow.of {cfg : Cfg} {fmt : MeshFormat} {file : Bytes} {s : MshSpec} (hs : s.meshFormat = fmt) {buf r : Bytes} (ha : ArrivesAt cfg file s buf r)
    (h : BadNodes41 cfg s buf r) : NodesOverflow cfg fmt file := by
  obtain ⟨rfl, d, h2, h3⟩ := h
  exact ⟨s, r, d, ha, hs, h2, h3⟩

/-- Text files of version 4.1. -/
theorem section_text41 {cfg : Cfg} {F : Bytes} (hF : Harmless cfg F) (buf : Bytes) {s : MshSpec} (h : s.Calm) :
    SafeAfter (NoCounter cfg buf) ⟨F, true⟩ buf (loadSection cfg buf s) MshSpec.Calm := by
  unfold loadSection
  refine SafeAfter.ite (fun e => by subst e; exact SafeAfter.absent hF.format) fun _ => ?_
  refine SafeAfter.ite (fun e => by
    subst e; exact (after_text_entities h.version h.ascii hF.entities _).weaken (fun _ h => h.elim) |>.bind fun _ _ => Safe.pure ⟨h.1, h.2, h.3, h.4⟩) fun _ => ?_
  refine SafeAfter.ite (fun e => by
    subst e; exact ((after_physicalGroups cfg _).weaken fun r hr => ⟨by simp [countedSections], hr⟩).bind fun _ _ => Safe.pure ⟨h.1, h.2, h.3, h.4⟩) fun _ => ?_
  refine SafeAfter.ite (fun _ => Safe.after (Safe.bind (P := Nodes.Calm) ?_ fun n hn => Safe.pure ⟨h.1, h.2, hn, h.4⟩)) fun _ => ?_
  · unfold loadNodes
    simp only [h.version, h.ascii, if_true]
    exact safe_nodesAscii41 cfg ⟨rfl, hF.digits⟩ (loadNodes_calm h.nodes)
  refine SafeAfter.ite (fun _ => Safe.after (Safe.bind (P := fun x => x.1.Calm) ?_ fun n hn => Safe.pure ⟨h.1, h.2, h.3, hn⟩)) fun _ => ?_
  · unfold loadElements
    simp only [h.version, h.ascii, if_true]
    exact Safe.bind (safe_elementsAscii41 cfg ⟨rfl, hF.digits⟩ (loadElements_calm h.elements)) fun x hx => Safe.pure hx
  refine SafeAfter.ite (fun e => by
    subst e; exact ((after_text_data h.ascii (by simp) (hF.data _ (by simp [dataSections])) _).weaken fun _ h => h.elim).bind fun _ _ => Safe.pure ⟨h.1, h.2, h.3, h.4⟩) fun _ => ?_
  refine SafeAfter.ite (fun e => by
    subst e; exact ((after_text_data h.ascii (by simp) (hF.data _ (by simp [dataSections])) _).weaken fun _ h => h.elim).bind fun _ _ => Safe.pure ⟨h.1, h.2, h.3, h.4⟩) fun _ => ?_
  refine SafeAfter.ite (fun e => by
    subst e; exact ((after_text_data h.ascii (fun _ => rfl) (hF.data _ (by simp [dataSections])) _).weaken fun _ h => h.elim).bind fun _ _ => Safe.pure ⟨h.1, h.2, h.3, h.4⟩) fun _ => ?_
  refine SafeAfter.ite (fun _ => Safe.after (Safe.skip (safe_inString _) fun _ => Safe.pure ⟨h.1, h.2, h.3, h.4⟩)) fun _ => ?_
  refine SafeAfter.ite (fun e => by
    subst e; exact ((after_curves cfg (fun e => absurd h.ascii e) _).weaken fun r hr => ⟨by simp [countedSections, hr.1], hr.2⟩).bind
      fun _ _ => Safe.pure ⟨h.1, h.2, h.3, h.4⟩) fun _ => ?_
  refine SafeAfter.ite (fun e => by
    subst e; exact ((after_patches cfg (fun e => absurd h.ascii e) _).weaken fun r hr => ⟨by simp [countedSections, hr.1], hr.2⟩).bind
      fun _ _ => Safe.pure ⟨h.1, h.2, h.3, h.4⟩) fun _ => ?_
  refine Safe.after ?_
  exact Safe.pure h

/-- A data section of a binary file. -/
theorem after_binary_data [F.Any] {cfg : Cfg} {s : MshSpec} (hv : s.meshFormat.version = b! "4.1" ∨ s.meshFormat.version = b! "2.2") (ht : 0 < s.meshFormat.fileType)
    {name : Bytes} (hn : name ∈ dataSections) (hd : ∀ r, name ++ r <:+ F.bytes → BinaryData cfg r) :
    SafeAfter (BadData cfg s name) F name (loadSection cfg name s) fun _ => True := by
  refine SafeAfter.of_any (tame_loadSection ..) fun r hr _ hu => ?_
  obtain ⟨ints, c, d, hs, hc⟩ := hd r hr
  exact ⟨hn, ht, ints, c, d, hs, hc, (loadSection_data_ub_iff hv ht hn hs hc).mp hu⟩

theorem SafeAfter.and {H : Bytes → Prop} {buf : Bytes} {m : Rd α} {P Q : α → Prop} (h : SafeAfter H F buf m P) (hq : Post m Q) : SafeAfter H F buf m Q :=
  fun r hr hw => ⟨(h r hr hw).1, fun a s' e => ⟨((h r hr hw).2 a s' e).1, hq _ _ _ e⟩⟩

/-- What a data section leaves alone. -/
theorem data_keeps {cfg : Cfg} {name : Bytes} (hn : name ∈ dataSections) (s : MshSpec) :
    Post (loadSection cfg name s) fun s' => s'.meshFormat = s.meshFormat ∧ s'.nodes = s.nodes := by
  simp only [dataSections, List.mem_cons, List.not_mem_nil, or_false] at hn
  intro st a st' e
  rcases hn with rfl | rfl | rfl
  · change (loadDataSection cfg s.meshFormat false s.nodeData >>= fun x => (pure { s with nodeData := x } : Rd MshSpec)) st = _ at e
    obtain ⟨x, s1, -, e⟩ := Rd.bind_eq_ok e
    cases e; exact ⟨rfl, rfl⟩
  · change (loadDataSection cfg s.meshFormat false s.elementData >>= fun x => (pure { s with elementData := x } : Rd MshSpec)) st = _ at e
    obtain ⟨x, s1, -, e⟩ := Rd.bind_eq_ok e
    cases e; exact ⟨rfl, rfl⟩
  · change (loadDataSection cfg s.meshFormat true s.elementNodeData >>= fun x => (pure { s with elementNodeData := x } : Rd MshSpec)) st = _ at e
    obtain ⟨x, s1, -, e⟩ := Rd.bind_eq_ok e
    cases e; exact ⟨rfl, rfl⟩

/-- Binary files of version 4.1. -/
theorem section_binary41 {cfg : Cfg} {t : Int32} (ht : t ≠ 0) {F : Bytes} (hF : HarmlessBinary cfg t F) (buf : Bytes) {s : MshSpec}
    (h : s.meshFormat = ⟨b! "4.1", t, 8⟩) :
    SafeAfter (fun r => NoCounter cfg buf r ∨ BadData cfg s buf r ∨ BadEntities cfg buf r ∨ BadNodes41 cfg s buf r) ⟨F, false⟩ buf (loadSection cfg buf s)
      fun s => s.meshFormat = ⟨b! "4.1", t, 8⟩ := by
  by_cases hd : buf ∈ dataSections
  · intro r hr hw
    obtain ⟨ht', -⟩ := hF.data buf hd r hr
    refine ((((after_binary_data (F := ⟨F, false⟩) (s := s) (Or.inl (by rw [h])) (by rw [h]; exact ht') hd fun r hr => (hF.data buf hd r hr).2).weaken
      fun r h => Or.inr (Or.inl h)).and (data_keeps hd s)) : SafeAfter _ _ _ _ fun s' => s'.meshFormat = s.meshFormat ∧ s'.nodes = s.nodes) r hr hw |>.imp id
      fun hk a s' e => ⟨(hk a s' e).1, (hk a s' e).2.1.trans h⟩
  have hne : ∀ n ∈ dataSections, buf ≠ n := fun n hn e => hd (e ▸ hn)
  have hv : s.meshFormat.version = b! "4.1" := by rw [h]
  have hb : s.meshFormat.fileType ≠ 0 := by rw [h]; exact ht
  unfold loadSection
  refine SafeAfter.ite (fun e => by subst e; exact SafeAfter.absent hF.format) fun _ => ?_
  refine SafeAfter.ite (fun e => ?_) fun _ => ?_
  · subst e
    refine SafeAfter.bind (P := fun _ => True) ?_ fun _ _ => Safe.pure h
    cases ha : cfg.asserts with
    | false =>
      refine SafeAfter.of_any (tame_loadEntities ..) fun r hr _ hu => Or.inr (Or.inr (Or.inl ⟨rfl, ha, ?_⟩))
      obtain ⟨d, hd⟩ := dataAfter_exists r
      unfold loadEntities at hu
      rw [if_pos hv, if_neg hb] at hu
      exact ⟨d, hd, (entitiesBinary_ub_iff ha _ hd).mp hu⟩
    | true =>
      refine Safe.after ?_
      unfold loadEntities
      rw [if_pos hv, if_neg hb]
      exact safe_entitiesBinary41 ha _
  refine SafeAfter.ite (fun e => by
    subst e; exact ((after_physicalGroups cfg _).weaken fun r hr => Or.inl ⟨by simp [countedSections], hr⟩).bind fun _ _ => Safe.pure h) fun _ => ?_
  refine SafeAfter.ite (fun e => ?_) fun _ => ?_
  · subst e
    refine SafeAfter.bind (P := fun _ => True) (SafeAfter.of_any (tame_loadNodes ..) fun r hr _ hu => ?_) fun _ _ => Safe.pure h
    obtain ⟨d, hd⟩ := dataAfter_exists r
    exact Or.inr (Or.inr (Or.inr ⟨rfl, d, hd, (loadNodes41b_ub_iff hv hb _ hd).mp hu⟩))
  refine SafeAfter.ite (fun _ => Safe.after (Safe.bind (P := fun _ => True) ?_ fun n hn => Safe.pure h)) fun _ => ?_
  · unfold loadElements
    simp only [hv, hb, if_true, if_false]
    exact Safe.bind (safe_elementsBinary41 cfg _) fun x hx => Safe.pure trivial
  refine SafeAfter.ite (fun e => absurd e (hne _ (by simp [dataSections]))) fun _ => ?_
  refine SafeAfter.ite (fun e => absurd e (hne _ (by simp [dataSections]))) fun _ => ?_
  refine SafeAfter.ite (fun e => absurd e (hne _ (by simp [dataSections]))) fun _ => ?_
  refine SafeAfter.ite (fun _ => Safe.after (Safe.skip (safe_inString _) fun _ => Safe.pure h)) fun _ => ?_
  refine SafeAfter.ite (fun e => by
    subst e; exact ((after_curves cfg (fun _ => rfl) _).weaken fun r hr => Or.inl ⟨by simp [countedSections, hr.1], hr.2⟩).bind fun _ _ => Safe.pure h) fun _ => ?_
  refine SafeAfter.ite (fun e => by
    subst e; exact ((after_patches cfg (fun _ => rfl) _).weaken fun r hr => Or.inl ⟨by simp [countedSections, hr.1], hr.2⟩).bind fun _ _ => Safe.pure h) fun _ => ?_
  refine Safe.after ?_
  exact Safe.pure h

/-- Text files of version 2.2. -/
theorem section_text22 {cfg : Cfg} {F : Bytes} (hF : Harmless22 cfg F) (buf : Bytes) {s : MshSpec} (h : s.meshFormat = ⟨b! "2.2", 0, 8⟩) :
    SafeAfter (NoCounter cfg buf) ⟨F, false⟩ buf (loadSection cfg buf s) fun s => s.meshFormat = ⟨b! "2.2", 0, 8⟩ := by
  have ht : s.meshFormat.fileType = 0 := by rw [h]
  unfold loadSection
  refine SafeAfter.ite (fun e => by subst e; exact SafeAfter.absent hF.format) fun _ => ?_
  refine SafeAfter.ite (fun _ => Safe.after (Safe.bind (P := fun _ => True) ?_ fun _ _ => Safe.pure h)) fun _ => ?_
  · unfold loadEntities
    rw [h]
    exact Safe.throw
  refine SafeAfter.ite (fun e => by
    subst e; exact ((after_physicalGroups cfg _).weaken fun r hr => ⟨by simp [countedSections], hr⟩).bind fun _ _ => Safe.pure h) fun _ => ?_
  refine SafeAfter.ite (fun _ => Safe.after (Safe.bind (P := fun _ => True) ?_ fun n hn => Safe.pure h)) fun _ => ?_
  · unfold loadNodes
    rw [h]
    exact safe_nodesAscii22 cfg _
  refine SafeAfter.ite (fun e => ?_) fun _ => ?_
  · subst e
    refine SafeAfter.bind (P := fun _ => True) ?_ fun r _ => ?_
    · unfold loadElements
      rw [h]
      exact (after_elements22 cfg hF.elements _ _).weaken fun _ h => h.elim
    · obtain ⟨a, b⟩ := r
      exact Safe.pure h
  refine SafeAfter.ite (fun e => by
    subst e; exact ((after_text_data ht (by simp) (hF.data _ (by simp [dataSections])) _).weaken fun _ h => h.elim).bind fun _ _ => Safe.pure h) fun _ => ?_
  refine SafeAfter.ite (fun e => by
    subst e; exact ((after_text_data ht (by simp) (hF.data _ (by simp [dataSections])) _).weaken fun _ h => h.elim).bind fun _ _ => Safe.pure h) fun _ => ?_
  refine SafeAfter.ite (fun e => by
    subst e; exact ((after_text_data ht (fun _ => rfl) (hF.data _ (by simp [dataSections])) _).weaken fun _ h => h.elim).bind fun _ _ => Safe.pure h) fun _ => ?_
  refine SafeAfter.ite (fun _ => Safe.after (Safe.skip (safe_inString _) fun _ => Safe.pure h)) fun _ => ?_
  refine SafeAfter.ite (fun e => by
    subst e; exact ((after_curves cfg (fun _ => rfl) _).weaken fun r hr => ⟨by simp [countedSections, hr.1], hr.2⟩).bind fun _ _ => Safe.pure h) fun _ => ?_
  refine SafeAfter.ite (fun e => by
    subst e; exact ((after_patches cfg (fun _ => rfl) _).weaken fun r hr => ⟨by simp [countedSections, hr.1], hr.2⟩).bind fun _ _ => Safe.pure h) fun _ => ?_
  refine Safe.after ?_
  exact Safe.pure h

/-- A binary `$Nodes` section of version 2.2 that is undefined. -/
def BadNodes22 (cfg : Cfg) (s : MshSpec) (buf r : Bytes) : Prop := buf = b! "$Nodes" ∧ ∃ N d, Counted r N d ∧ NodesUndefined cfg s N d

/-- A binary `$Elements` section of version 2.2 that is undefined. -/
def BadElements22 (cfg : Cfg) (s : MshSpec) (buf r : Bytes) : Prop := buf = b! "$Elements" ∧ ∃ N d, Counted r N d ∧ ElementsUndefined cfg s N d

theorem Counted.payload {r : Bytes} {N : UInt64} {d : Bytes} (h : Counted r N d) : payload r = gs r := by
  obtain ⟨w, c, rfl, -⟩ := h
  exact payload_ne (by simp)

/-- Binary files of version 2.2. -/
theorem section_binary22 {cfg : Cfg} (hm : 57 ≤ cfg.maxCount) {t : Int32} (ht : t ≠ 0) {F : Bytes} (hF : Harmless22b cfg t F) (buf : Bytes) {s : MshSpec}
    (h : s.meshFormat = ⟨b! "2.2", t, 8⟩) :
    SafeAfter (fun r => NoCounter cfg buf r ∨ BadData cfg s buf r ∨ BadNodes22 cfg s buf r ∨ BadElements22 cfg s buf r) ⟨F, false⟩ buf (loadSection cfg buf s)
      fun s => s.meshFormat = ⟨b! "2.2", t, 8⟩ := by
  by_cases hd : buf ∈ dataSections
  · intro r hr hw
    obtain ⟨ht', -⟩ := hF.data buf hd r hr
    refine ((((after_binary_data (F := ⟨F, false⟩) (s := s) (Or.inr (by rw [h])) (by rw [h]; exact ht') hd fun r hr => (hF.data buf hd r hr).2).weaken
      fun r h => Or.inr (Or.inl h)).and (data_keeps hd s)) : SafeAfter _ _ _ _ fun s' => s'.meshFormat = s.meshFormat ∧ s'.nodes = s.nodes) r hr hw |>.imp id
      fun hk a s' e => ⟨(hk a s' e).1, (hk a s' e).2.1.trans h⟩
  have hne : ∀ n ∈ dataSections, buf ≠ n := fun n hn e => hd (e ▸ hn)
  have hv : s.meshFormat.version = b! "2.2" := by rw [h]
  have hb : s.meshFormat.fileType ≠ 0 := by rw [h]; exact ht
  unfold loadSection
  refine SafeAfter.ite (fun e => by subst e; exact SafeAfter.absent hF.format) fun _ => ?_
  refine SafeAfter.ite (fun _ => Safe.after (Safe.bind (P := fun _ => True) ?_ fun _ _ => Safe.pure h)) fun _ => ?_
  · unfold loadEntities
    rw [if_neg (by rw [hv]; decide), if_pos hv]
    exact Safe.throw
  refine SafeAfter.ite (fun e => by
    subst e; exact ((after_physicalGroups cfg _).weaken fun r hr => Or.inl ⟨by simp [countedSections], hr⟩).bind fun _ _ => Safe.pure h) fun _ => ?_
  refine SafeAfter.ite (fun e => ?_) fun _ => ?_
  · subst e
    refine SafeAfter.bind (P := fun _ => True) (SafeAfter.of_any (tame_loadNodes ..) fun r hr _ hu => ?_) fun _ _ => Safe.pure h
    obtain ⟨N, d, hc⟩ := hF.nodes r hr
    rw [hc.payload] at hu
    exact Or.inr (Or.inr (Or.inl ⟨rfl, N, d, hc, (loadNodes22b_ub_iff hv hb hc).mp hu⟩))
  refine SafeAfter.ite (fun e => ?_) fun _ => ?_
  · subst e
    refine SafeAfter.bind (P := fun _ => True) (SafeAfter.of_any (tame_loadElements ..) fun r hr _ hu => ?_) fun _ _ => Safe.pure h
    obtain ⟨N, d, hc⟩ := hF.elements r hr
    rw [hc.payload] at hu
    exact Or.inr (Or.inr (Or.inr ⟨rfl, N, d, hc, (loadElements22b_ub_iff hm hv hb hc).mp hu⟩))
  refine SafeAfter.ite (fun e => absurd e (hne _ (by simp [dataSections]))) fun _ => ?_
  refine SafeAfter.ite (fun e => absurd e (hne _ (by simp [dataSections]))) fun _ => ?_
  refine SafeAfter.ite (fun e => absurd e (hne _ (by simp [dataSections]))) fun _ => ?_
  refine SafeAfter.ite (fun _ => Safe.after (Safe.skip (safe_inString _) fun _ => Safe.pure h)) fun _ => ?_
  refine SafeAfter.ite (fun e => by
    subst e; exact ((after_curves cfg (fun _ => rfl) _).weaken fun r hr => Or.inl ⟨by simp [countedSections, hr.1], hr.2⟩).bind fun _ _ => Safe.pure h) fun _ => ?_
  refine SafeAfter.ite (fun e => by
    subst e; exact ((after_patches cfg (fun _ => rfl) _).weaken fun r hr => Or.inl ⟨by simp [countedSections, hr.1], hr.2⟩).bind fun _ _ => Safe.pure h) fun _ => ?_
  refine Safe.after ?_
  exact Safe.pure h

end MshIO
