import Verif.Proofs.Pieces

/-!
# Reading whole binary files of version 4.1
-/

namespace MshIO

theorem loadMeshFormat_pieces (old : MeshFormat) {v : Bytes} (hv : v = b! "2.2" ∨ v = b! "4.1") (d : Int32) (hd : v = b! "4.1" → d = 8) :
    ReadsP (loadMeshFormat old) [.item (.word v), .item (.whole 1), .item (.int d), .marker] ⟨v, 1, d⟩ := by
  unfold loadMeshFormat
  refine ReadsP.bind (t1 := [.item (.word v)]) (inString_item _ (word_version hv)).readsI.readsP ?_
  rw [if_neg (by rintro ⟨h1, h2⟩; rcases hv with h | h <;> contradiction)]
  refine ReadsP.bind (t1 := [.item (.whole 1)]) (inInt_item _ 1).readsI.readsP ?_
  refine ReadsP.bind (t1 := [.item (.int d)]) (inInt_item _ d).readsI.readsP ?_
  rw [if_neg (by rintro ⟨h1, h2⟩; rw [hd h1] at h2; exact h2 (by decide)), if_pos (by simp)]
  intro g g' r rest hw hr hne
  cases hw with
  | @marker _ _ w _ _ h1 h2 h3 h4 =>
    cases h4
    have e1 : le 4 1 = encI32 1 := by decide
    have e2 : encI32 1 = [1, 0, 0, 0] := by decide
    have he : eatWhiteSpace (2 ^ 64 - 1) (gs (w ++ (encI32 1 ++ rest))) = .ok ((), gs (encI32 1 ++ rest)) := by
      unfold eatWhiteSpace
      rw [if_pos (by rfl), eatLoop_past w _ h2 (by omega) (Or.inr ?_), payload_ne (by simp [hne])]
      intro c hc
      rw [e2] at hc
      obtain rfl : c = 1 := by simpa using hc.symm
      unfold Skipped; decide
    rw [List.append_nil, e1, List.append_assoc, Rd.bind_ok he, Rd.bind_ok (readInt_reads 0 1 rest)]
    rfl

theorem DataEntry.convert_small {isEN : Bool} {e : DataEntry} (ht : e.tag.toNat < 2 ^ 31) (hz : isEN = false → e.numNodesPerElement = 0) :
    e.convert isEN wrap32 id = e := by
  obtain ⟨t, n, d⟩ := e
  simp only [DataEntry.convert, wrap32_small ht, List.map_id]
  cases isEN with
  | false => rw [show n = 0 from hz rfl]; rfl
  | true => rfl

theorem loadData_pieces (cfg : Cfg) (f : MeshFormat) (ht : 0 < f.fileType) (hv : f.version = b! "4.1" ∨ f.version = b! "2.2")
    (isEN : Bool) (d : Data) (hok : d.Ok isEN) (hz : isEN = false → ∀ e ∈ d.entries, e.numNodesPerElement = 0) (hfit : d.Fits cfg)
    (hs : ∀ e ∈ d.entries, e.tag.toNat < 2 ^ 31) : ReadsP (loadData cfg f isEN) (d.pieces isEN) d := by
  obtain ⟨t0, fields, num, more, hi, hnum, hf, he⟩ := hok.entries
  obtain ⟨c1, c2, c3, c4, c5⟩ := hfit.get
  have hn : (sizeOfInt num).toNat = d.entries.length := by
    rw [sizeOfInt_toNat (by omega)]; omega
  unfold loadData Data.pieces
  refine ReadsP.bind (loadDataHeader_items cfg d.header c1 c2 c3).readsP ?_
  simp only [hi]
  refine ReadsP.silent (silent_resize_nil _ _ _ (by omega)) ?_
  rw [hn, if_pos ht]
  have fin : ∀ p : DataEntry → Rd DataEntry, (∀ e ∈ d.entries, ReadsB (p {}) (entryEnc isEN e) (e.convert isEN wrap32 id)) →
      ReadsB (forEach p (List.replicate d.entries.length {}) >>= fun entries => assertGood cfg >>= fun _ => (pure { header := d.header, entries := entries } : Rd Data))
        (d.entries.flatMap (dataEntryBytes isEN)) d := by
    intro p hp
    have e1 : d.entries.flatMap (dataEntryBytes isEN) = d.entries.flatMap (entryEnc isEN) := flatMap_congr' fun e _ => (entryEnc_eq isEN e).symm
    rw [e1]
    exact ReadsB.last (ReadsB.forEach d.entries (g := id) fun e hm => (hp e hm).cast rfl (DataEntry.convert_small (hs e hm) fun h => hz h e hm))
      (ReadsB.silent (silent_assertGood cfg) ((ReadsB.pure _).cast rfl (by simp)))
  rcases hv with hv | hv
  · rw [if_pos hv]
    exact (fin _ fun e hm => loadDataEntryBinary41_reads cfg fields hf isEN e (he e hm) (c5 e hm)).readsP
  · rw [if_neg (by rw [hv]; decide), if_pos hv]
    exact (fin _ fun e hm => loadDataEntryBinary22_reads cfg fields hf isEN e (he e hm) (c5 e hm)).readsP

theorem loadCurve_pieces (cfg : Cfg) (c : Curve) (h : c.Ok) (hc : c.data.length ≤ cfg.maxCount) : ReadsP (loadCurveBinary cfg {}) c.pieces c := by
  have hlt := cfg.maxCount_lt
  have hl := h.entries (by omega)
  unfold loadCurveBinary
  refine ReadsP.bind (loadCurveHeader_items c _).readsP ?_
  have e : c.data.flatMap leDouble = c.data.flatMap encDouble := flatMap_congr' fun t _ => leDouble_eq t
  rw [e]
  refine ReadsB.readsP ?_
  refine ReadsB.silent (silent_resize_nil cfg _ Double.zero (by show c.numEntries.toNat ≤ _; omega)) ?_
  exact ReadsB.map (readDoubles_reads _ c.data (by show (List.replicate c.numEntries.toNat _).length = _; simp [hl])) rfl

theorem loadPatch_pieces (cfg : Cfg) (c : Patch) (h : c.Ok) (hc : c.data.length ≤ cfg.maxCount) : ReadsP (loadPatchBinary cfg {}) c.pieces c := by
  have hlt := cfg.maxCount_lt
  have hl := h.entries (by omega)
  unfold loadPatchBinary
  refine ReadsP.bind (loadPatchHeader_items c _).readsP ?_
  have e : c.data.flatMap leDouble = c.data.flatMap encDouble := flatMap_congr' fun t _ => leDouble_eq t
  rw [e]
  refine ReadsP.silent (silent_resize_nil cfg _ Double.zero (by show c.numEntries.toNat ≤ _; omega)) ?_
  refine ReadsB.readsP ?_
  exact ReadsB.map (readDoubles_reads _ c.data (by show (List.replicate c.numEntries.toNat _).length = _; simp [hl])) rfl

/-! ## Parts -/

/-- What a part adds in a binary file. -/
def Part.addB (p : Part) (s : MshSpec) : MshSpec :=
  match p with
  | .format => { s with meshFormat := ⟨b! "4.1", 1, 8⟩ }
  | p => p.add s

theorem readsP_dataSection {cfg : Cfg} (F : DataField) {s : MshSpec} (ht : 0 < s.meshFormat.fileType)
    (hv : s.meshFormat.version = b! "4.1" ∨ s.meshFormat.version = b! "2.2") {d : Data}
    (hl : (F.get s).length < cfg.maxCount) (hok : d.Ok F.isEN) (hz : F.isEN = false → ∀ e ∈ d.entries, e.numNodesPerElement = 0)
    (hf : d.Fits cfg) (hs : ∀ e ∈ d.entries, e.tag.toNat < 2 ^ 31) :
    ReadsP (loadSection cfg (36 :: F.name) s) (d.pieces F.isEN) (F.set s (F.get s ++ [d])) := by
  rw [F.load]
  unfold loadDataSection
  refine ReadsP.map (a := F.get s ++ [d]) ?_ rfl
  refine ReadsP.silent (silent_pushBack cfg _ _ hl) ?_
  exact ReadsP.map (loadData_pieces cfg _ ht hv _ d hok hz hf hs) (by simp)

theorem round_binary {cfg : Cfg} {p : Part} (hp : p.Fits cfg) (hs : p.SmallTags) {s : MshSpec}
    (hv : ¬ p.Common → p ≠ .format → s.meshFormat.version = b! "4.1") (hv' : ¬ p.AlwaysText → p ≠ .format → s.meshFormat.version = b! "4.1" ∨ s.meshFormat.version = b! "2.2")
    (ht : ¬ p.AlwaysText → p ≠ .format → s.meshFormat.fileType = 1) (hfree : p.Free s) (hroom : Room cfg (p.addB s)) : RoundP cfg s p.pieces (p.addB s) := by
  have hlt := cfg.maxCount_lt
  cases p with
  | format =>
    refine RoundP.section (name := b! "MeshFormat") (by decide) ?_
    rw [loadSection_meshFormat]
    exact ReadsP.map (loadMeshFormat_pieces _ (Or.inr rfl) 8 fun _ => rfl) rfl
  | names groups =>
    refine RoundP.section (name := b! "PhysicalNames") (by decide) ?_
    have hfree : s.physicalGroups = [] := hfree
    rw [loadSection_physicalNames, hfree]
    exact ReadsP.map (loadPhysicalGroups_items cfg groups hp.fits.groups (hp.fits.len (List.mem_cons_self ..))).readsP rfl
  | entities e =>
    refine RoundP.data (name := b! "Entities") (by decide) fun w hw => ?_
    have hfree : s.entities = {} := hfree
    rw [loadSection_entities, hfree, ← entitiesEnc_eq e fun n hn => Nat.lt_of_le_of_lt (hp.fits.entities n hn) hlt]
    unfold loadEntities
    rw [if_pos (hv id (by simp)), if_neg (by rw [ht id (by simp)]; decide)]
    exact Rds.map (loadEntitiesBinary41_reads cfg e hp.fits.entities hw) rfl
  | nodes n =>
    refine RoundP.data (name := b! "Nodes") (by decide) fun w hw => ?_
    have hfree : s.nodes = {} := hfree
    have hg : n.Good cfg := hp.ok.goodNodes hp.fits
    rw [loadSection_nodes, ← nodesEnc_eq hg.blocks hg.ok]
    unfold loadNodes
    rw [hfree]
    simp only [List.length_nil, if_true, if_pos (hv id (by simp)), if_neg (show ¬ s.meshFormat.fileType = 0 by rw [ht id (by simp)]; decide)]
    exact Rds.map (loadNodesBinary41_reads cfg n _ hg rfl hw) rfl
  | elements n =>
    refine RoundP.data (name := b! "Elements") (by decide) fun w hw => ?_
    have hfree : s.elements = {} := hfree
    have hg : n.Good cfg := hp.ok.goodElements hp.fits
    rw [loadSection_elements, ← elementsEnc_eq hg.blocks]
    unfold loadElements
    rw [hfree]
    simp only [List.length_nil, if_true, if_pos (hv id (by simp)), if_neg (show ¬ s.meshFormat.fileType = 0 by rw [ht id (by simp)]; decide)]
    exact Rds.map (Rds.map (loadElementsBinary41_reads cfg n _ hg rfl hw) rfl) rfl
  | nodeData d =>
    refine RoundP.section (name := b! "NodeData") (by decide) ?_
    exact readsP_dataSection nodeDataField (by rw [ht id (by simp)]; decide) (hv' id (by simp)) (by have := hroom.node; simp [Part.addB, Part.add] at this; exact this)
      (hp.ok.nodeData d (by simp [Part.add])) (fun _ e he => hp.plain d (by simp [Part.add]) e he) (hp.fits.data (by simp [Part.add])) (hs d (by simp [Part.add]))
  | elementData d =>
    refine RoundP.section (name := b! "ElementData") (by decide) ?_
    exact readsP_dataSection elementDataField (by rw [ht id (by simp)]; decide) (hv' id (by simp)) (by have := hroom.element; simp [Part.addB, Part.add] at this; exact this)
      (hp.ok.elementData d (by simp [Part.add])) (fun _ e he => hp.plain d (by simp [Part.add]) e he) (hp.fits.data (by simp [Part.add])) (hs d (by simp [Part.add]))
  | elementNodeData d =>
    refine RoundP.section (name := b! "ElementNodeData") (by decide) ?_
    exact readsP_dataSection elementNodeDataField (by rw [ht id (by simp)]; decide) (hv' id (by simp)) (by have := hroom.elementNode; simp [Part.addB, Part.add] at this; exact this)
      (hp.ok.elementNodeData d (by simp [Part.add])) (fun h => absurd h (by decide)) (hp.fits.data (by simp [Part.add])) (hs d (by simp [Part.add]))
  | splines v =>
    refine RoundP.section (name := b! "NanoSplineFormat") (by decide) ?_
    unfold loadSection
    rw [if_neg (by decide), if_neg (by decide), if_neg (by decide), if_neg (by decide), if_neg (by decide),
      if_neg (by decide), if_neg (by decide), if_neg (by decide), if_pos rfl]
    exact ReadsP.map ((inString_item _ hp.version).readsI.readsP) rfl
  | curves cs =>
    refine RoundP.section (name := b! "Curves") (by decide) ?_
    have hc : cs.length ≤ cfg.maxCount := hp.fits.len (by simp [Part.add])
    have l1 : (sizeU cs).toNat = cs.length := sizeU_toNat (by omega)
    have hfree : s.curves = [] := hfree
    rw [loadSection_curves]
    unfold loadCurves
    rw [hfree, if_pos (hp.extension trivial)]
    simp only [if_neg (show ¬ s.meshFormat.fileType = 0 by rw [ht id (by simp)]; decide)]
    refine ReadsP.map ?_ rfl
    refine ReadsP.bind (t1 := [.item (.count cs)]) (extractSize_count _ (by omega)).readsI.readsP (ReadsP.silent (silent_useVar _)
      (ReadsP.silent (silent_resize_nil _ _ _ (by omega)) ?_))
    rw [l1]
    exact ReadsP.forEach _ fun c hm => loadCurve_pieces cfg c (hp.ok.curve c hm) ((hp.ok.tail hp.fits fun _ => hp.version).csOk c hm).2
  | patches cs =>
    refine RoundP.section (name := b! "Patches") (by decide) ?_
    have hc : cs.length ≤ cfg.maxCount := hp.fits.len (by simp [Part.add])
    have l1 : (sizeU cs).toNat = cs.length := sizeU_toNat (by omega)
    have hfree : s.patches = [] := hfree
    rw [loadSection_patches]
    unfold loadPatches
    rw [hfree, if_pos (hp.extension trivial)]
    simp only [if_neg (show ¬ s.meshFormat.fileType = 0 by rw [ht id (by simp)]; decide)]
    refine ReadsP.map ?_ rfl
    refine ReadsP.bind (t1 := [.item (.count cs)]) (extractSize_count _ (by omega)).readsI.readsP (ReadsP.silent (silent_useVar _)
      (ReadsP.silent (silent_resize_nil _ _ _ (by omega)) ?_))
    rw [l1]
    exact ReadsP.forEach _ fun c hm => loadPatch_pieces cfg c (hp.ok.patch c hm) ((hp.ok.tail hp.fits fun _ => hp.version).psOk c hm).2
  | other n ws =>
    obtain ⟨h1, h2, h3⟩ := hp.other n ws rfl
    have := (RoundI.other (s := s) h1 h2 h3).roundP (by simp)
    simpa [Part.pieces, Part.binaryBody, Part.body, Part.name, Part.addB, Part.add, endTag] using this
  | stray x =>
    obtain ⟨h1, h2⟩ := hp.stray x rfl
    exact (RoundI.stray h1 h2).roundP (by simp)

/-! ## Files -/

/-- Rounds over lists of pieces, one after the other. -/
inductive RoundsP (cfg : Cfg) : MshSpec → List (List Piece) → MshSpec → Prop
  | nil {s} : RoundsP cfg s [] s
  | cons {s s' s'' : MshSpec} {ps : List Piece} {i : Item} {pss : List (List Piece)} :
      RoundP cfg s (ps ++ [.item i]) s' → RoundsP cfg s' pss s'' → RoundsP cfg s ((ps ++ [.item i]) :: pss) s''

theorem Written.last {ps : List Piece} {i : Item} {g g' : Bool} {r : Bytes} (h : Written g (ps ++ [.item i]) g' r) : g' = true := by
  obtain ⟨_, _, _, _, _, h⟩ := h.split
  cases h with
  | item _ _ _ h => cases h; rfl

theorem RoundsP.load {cfg : Cfg} {s s' : MshSpec} {pss : List (List Piece)} (h : RoundsP cfg s pss s') : ∀ {g g' : Bool} {r w : Bytes},
    Written g pss.flatten g' r → Ws w → finish cfg (loadFull cfg s (gs (r ++ w))) = loadPostProcess cfg s' := by
  induction h with
  | nil =>
    intro g g' r w hr hw
    cases hr
    rw [List.nil_append, loadFull_ws hw]
    rfl
  | @cons s s1 s2 ps i pss h1 _ ih =>
    intro g g' r w hr hw
    rw [List.flatten_cons] at hr
    obtain ⟨g1, r1, r2, rfl, e1, e2⟩ := hr.split
    obtain rfl := e1.last
    have hend : EndHead (r2 ++ w) := e2.endHead fun _ => by
      cases w with
      | nil => exact Or.inl rfl
      | cons c w => exact Or.inr ⟨c, w, rfl, hw c (by simp)⟩
    rw [List.append_assoc, loadFull_round_ok rfl (h1 g r1 (r2 ++ w) e1 hend), loadFull_rest]
    exact ih e2 hw

theorem Part.pieces_ne (p : Part) : ∃ ps i, p.pieces = ps ++ [.item i] := by
  cases p <;> first
    | exact ⟨[], _, rfl⟩
    | exact ⟨_ :: _, _, (List.cons_append ..).symm⟩

theorem Part.Free.stepB {s : MshSpec} {p q : Part} (hq : q.Free s) (h : p.name = q.name → p.Repeats) : q.Free (p.addB s) := by
  have := hq.step h
  cases p <;> exact this

theorem Room.monoB {cfg : Cfg} (parts : List Part) : ∀ s : MshSpec, Room cfg (parts.foldl (fun s p => p.addB s) s) → Room cfg s := by
  induction parts with
  | nil => intro s h; exact h
  | cons p parts ih =>
    intro s h
    obtain ⟨h1, h2, h3⟩ := ih _ h
    refine ⟨le_trans ?_ h1, le_trans ?_ h2, le_trans ?_ h3⟩ <;> cases p <;> simp [Part.addB, Part.add]

theorem rounds_binary {cfg : Cfg} (parts : List Part) : ∀ {s : MshSpec},
    s.meshFormat.version = b! "4.1" → (s.meshFormat.fileType = 1 ∨ ∃ lead rest, parts = lead ++ .format :: rest ∧ ∀ p ∈ lead, p.AlwaysText) →
    (∀ p ∈ parts, p.Fits cfg) → (∀ p ∈ parts, p.SmallTags) → (∀ p ∈ parts, p.Free s) →
    parts.Pairwise (fun p q => p.name = q.name → p.Repeats) → Room cfg (parts.foldl (fun s p => p.addB s) s) →
    RoundsP cfg s (parts.map Part.pieces) (parts.foldl (fun s p => p.addB s) s) ∧
      (parts.foldl (fun s p => p.addB s) s).meshFormat.version = b! "4.1" := by
  induction parts with
  | nil => intro s hv _ _ _ _ _ _; exact ⟨.nil, hv⟩
  | cons p parts ih =>
    intro s hv hh hfit hsmall hfree honce hroom
    obtain ⟨is, i, hpi⟩ := p.pieces_ne
    have hv1 : (p.addB s).meshFormat.version = b! "4.1" := by cases p <;> first | exact hv | rfl
    have ht : ¬ p.AlwaysText → p ≠ .format → s.meshFormat.fileType = 1 := by
      intro h1 h2
      rcases hh with hh | ⟨lead, rest, e, hl⟩
      · exact hh
      · cases lead with
        | nil => injection e with e _; exact absurd e h2
        | cons q lead => injection e with e _; subst e; exact absurd (hl p (by simp)) h1
    have hh1 : (p.addB s).meshFormat.fileType = 1 ∨ ∃ lead rest, parts = lead ++ .format :: rest ∧ ∀ p ∈ lead, p.AlwaysText := by
      rcases hh with hh | ⟨lead, rest, e, hl⟩
      · left; cases p <;> first | exact hh | rfl
      · cases lead with
        | nil => injection e with e _; subst e; exact Or.inl rfl
        | cons q lead => injection e with e e2; exact Or.inr ⟨lead, rest, e2, fun x hx => hl x (by simp [hx])⟩
    have hr := round_binary (hfit p (by simp)) (hsmall p (by simp)) (fun _ _ => hv) (fun _ _ => Or.inl hv) ht (hfree p (by simp)) (Room.monoB parts _ hroom)
    rw [List.pairwise_cons] at honce
    obtain ⟨h1, h2⟩ := ih hv1 hh1 (fun x hx => hfit x (by simp [hx])) (fun x hx => hsmall x (by simp [hx]))
      (fun x hx => (hfree x (by simp [hx])).stepB (honce.1 x hx)) honce.2 hroom
    refine ⟨?_, h2⟩
    rw [List.map_cons, hpi]
    rw [hpi] at hr
    exact .cons hr h1

/-- Only the header differs. -/
theorem addB_fold (parts : List Part) : ∀ s s' : MshSpec, { s with meshFormat := s'.meshFormat } = s' →
    { parts.foldl (fun s p => p.add s) s with meshFormat := (parts.foldl (fun s p => p.addB s) s').meshFormat } = parts.foldl (fun s p => p.addB s) s' := by
  induction parts with
  | nil => intro s s' h; exact h
  | cons p parts ih =>
    intro s s' h
    rw [List.foldl_cons, List.foldl_cons]
    apply ih
    rw [← h]
    cases p <;> rfl

theorem addB_format (parts : List Part) : ∀ s : MshSpec, s.meshFormat = ⟨b! "4.1", 1, 8⟩ ∨ .format ∈ parts →
    (parts.foldl (fun s p => p.addB s) s).meshFormat = ⟨b! "4.1", 1, 8⟩ := by
  induction parts with
  | nil =>
    intro s h
    rcases h with h | h
    · exact h
    · cases h
  | cons p parts ih =>
    intro s h
    refine ih _ ?_
    rcases h with h | h
    · left; cases p <;> first | exact h | rfl
    · rcases List.mem_cons.mp h with rfl | h
      · exact Or.inl rfl
      · exact Or.inr h

end MshIO
