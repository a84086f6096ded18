import Verif.Proofs.FormatLines
import Verif.Proofs.Convert22
import Verif.Proofs.Outcome

/-!
# Writing a reloaded spec

Every writer is insensitive to the changes that a reload makes: doubles whose text does not change, tags whose low 32 bits do not change.
-/

namespace MshIO

/-! ## Congruence of the loops -/

theorem Wr.bind_congr {α β : Type} {w : Wr α} {f f' : α → Wr β} (h : ∀ a, f a = f' a) : (w >>= f) = (w >>= f') := by
  rw [funext h]

theorem wr_seq {a a' : Wr Unit} {f f' : Unit → Wr Unit} (h : a = a') (h' : ∀ u, f u = f' u) : (a >>= f) = (a' >>= f') := by
  rw [h, funext h']

theorem wr_ite {c : Prop} [Decidable c] {a a' b b' : Wr Unit} (h : c → a = a') (h' : ¬c → b = b') :
    (if c then a else b) = if c then a' else b' := by
  split
  · exact h (by assumption)
  · exact h' (by assumption)

theorem whenW_congr {c : Bool} {w w' : Wr Unit} (h : c = true → w = w') : whenW c w = whenW c w' := by
  cases c with
  | false => rfl
  | true => rw [h rfl]

theorem get_map {α β γ : Type} {l : List α} {g : α → β} {F : β → Wr γ} {G : α → Wr γ} (h : ∀ d ∈ l, F (g d) = G d) (i : UInt64) :
    (Wr.lift (vecGet (l.map g) i) >>= F) = (Wr.lift (vecGet l i) >>= G) := by
  unfold vecGet
  rw [List.getElem?_map]
  cases hi : l[i.toNat]? with
  | none => rfl
  | some d => exact h d (List.mem_of_getElem? hi)

theorem forW_map {α β : Type} {l : List α} {g : α → β} {F : β → Wr Unit} {G : α → Wr Unit} (h : ∀ d ∈ l, F (g d) = G d) :
    forW F (l.map g) = forW G l := by
  induction l with
  | nil => rfl
  | cons a l ih =>
    show (F (g a) >>= fun _ => forW F (l.map g)) = (G a >>= fun _ => forW G l)
    rw [h a List.mem_cons_self, ih fun d hd => h d (List.mem_cons_of_mem _ hd)]

theorem loopW_congr {f f' : Nat → Wr Unit} (h : ∀ i, f i = f' i) (n i : Nat) : loopW f n i = loopW f' n i := by rw [funext h]

theorem loopBlocks_map {α β : Type} {l : List α} {g : α → β} {F : β → Wr Unit} {G : α → Wr Unit} (h : ∀ d ∈ l, F (g d) = G d) (n : UInt64) :
    loopBlocks (l.map g) n F = loopBlocks l n G := loopW_congr (fun i => get_map h _) _ _

theorem writeN_map {α β : Type} {l : List α} {g : α → β} {F : β → Bytes} {G : α → Bytes} (h : ∀ d ∈ l, F (g d) = G d) (n : UInt64) :
    writeN F (l.map g) n = writeN G l n := by
  unfold writeN
  rw [List.length_map, ← List.map_take, List.flatMap_map]
  congr 2
  exact List.flatMap_congr fun d hd => h d (List.mem_of_mem_take hd)

theorem sizeU_map {α β : Type} (l : List α) (g : α → β) : sizeU (l.map g) = sizeU l := by unfold sizeU; rw [List.length_map]

/-! ## What must not change -/

/-- `g` does not change the text of the doubles in `l`. -/
def SameText (P : Fmt) (g : Double → Double) (l : List Double) : Prop := ∀ x ∈ l, fmtDouble P (g x) = fmtDouble P x

variable {cfg : Cfg} {f g : Double → Double} {t : UInt64 → UInt64}

theorem point_resave {p : PointEntity} (h : SameText cfg.fmt g [p.x, p.y, p.z]) : savePointAscii cfg (p.convert g) = savePointAscii cfg p := by
  unfold savePointAscii PointEntity.convert
  simp only [h p.x (by simp), h p.y (by simp), h p.z (by simp)]

theorem box_resave {p : BoxEntity} (h : SameText cfg.fmt g [p.minX, p.minY, p.minZ, p.maxX, p.maxY, p.maxZ]) :
    saveBoxAscii cfg (p.convert g) = saveBoxAscii cfg p := by
  unfold saveBoxAscii BoxEntity.convert
  simp only [h p.minX (by simp), h p.minY (by simp), h p.minZ (by simp), h p.maxX (by simp), h p.maxY (by simp), h p.maxZ (by simp)]

theorem entities_resave {e : Entities} (h : SameText cfg.fmt g e.doubles) : saveEntitiesAscii41 cfg (e.convert g) = saveEntitiesAscii41 cfg e := by
  have hb : ∀ p ∈ e.curves ++ e.surfaces ++ e.volumes, saveBoxAscii cfg (p.convert g) = saveBoxAscii cfg p := fun p hp =>
    box_resave fun x hx => h x (List.mem_append.mpr (Or.inr (List.mem_flatMap.mpr ⟨p, hp, hx⟩)))
  unfold saveEntitiesAscii41 Entities.convert
  simp only [sizeU_map]
  rw [forW_map fun p hp => point_resave fun x hx => h x (List.mem_append.mpr (Or.inl (List.mem_flatMap.mpr ⟨p, hp, hx⟩))),
    forW_map fun p hp => hb p (by simp [hp]), forW_map (l := e.surfaces) fun p hp => hb p (by simp [hp]),
    forW_map (l := e.volumes) fun p hp => hb p (by simp [hp])]

theorem entities_empty_convert (e : Entities) (g : Double → Double) : (e.convert g).empty = e.empty := by
  unfold Entities.empty Entities.convert
  simp

theorem nodeBlock_resave {b : NodeBlock} (h : SameText cfg.fmt g b.data) : saveNodeBlockAscii41 cfg (b.convert g) = saveNodeBlockAscii41 cfg b := by
  unfold saveNodeBlockAscii41 NodeBlock.convert
  refine Wr.bind_congr fun _ => Wr.bind_congr fun _ => Wr.bind_congr fun e => loopW_congr (fun j => loopW_congr (fun k => get_map (fun d hd => ?_) _) _ _) _ _
  rw [h d hd]

theorem nodes_resave {n : Nodes} (h : SameText cfg.fmt g (n.entityBlocks.flatMap (·.data))) :
    saveNodesAscii41 cfg (n.convert g) = saveNodesAscii41 cfg n := by
  unfold saveNodesAscii41 Nodes.convert
  exact Wr.bind_congr fun _ => loopBlocks_map (fun b hb => nodeBlock_resave fun x hx => h x (List.mem_flatMap.mpr ⟨b, hb, hx⟩)) _

/-! ## Data sections -/

theorem dataHeader_resave {h : DataHeader} (hf : SameText cfg.fmt f h.realTags) :
    saveDataHeader cfg { h with realTags := h.realTags.map f } = saveDataHeader cfg h := by
  unfold saveDataHeader
  simp only [sizeU_map]
  rw [forW_map (l := h.realTags) fun x hx => by rw [hf x hx]]

theorem spacedLine_map {P : Fmt} {l : List Double} (h : SameText P g l) : spacedLine P (l.map g) = spacedLine P l := by
  induction l with
  | nil => rfl
  | cons a l ih =>
    have ih := ih fun x hx => h x (List.mem_cons_of_mem _ hx)
    have ha := h a List.mem_cons_self
    cases l with
    | nil => simp only [List.map_cons, List.map_nil, spacedLine, ha]
    | cons b l => simp only [List.map_cons, spacedLine, ha] at ih ⊢; rw [ih]

theorem dataEntry_text (isEN : Bool) {e : DataEntry} (h : SameText cfg.fmt g e.data) :
    saveDataEntryAscii cfg isEN { tag := e.tag, numNodesPerElement := if isEN then e.numNodesPerElement else 0, data := e.data.map g } =
      saveDataEntryAscii cfg isEN e := by
  unfold saveDataEntryAscii
  simp only [spacedLine_map h]
  cases isEN <;> rfl

theorem dataEntry_binary (isEN : Bool) {e : DataEntry} (h : intOfSize (t e.tag) = intOfSize e.tag) :
    saveDataEntryBinary isEN { tag := t e.tag, numNodesPerElement := if isEN then e.numNodesPerElement else 0, data := e.data.map id } =
      saveDataEntryBinary isEN e := by
  unfold saveDataEntryBinary
  simp only [h, List.map_id]
  cases isEN <;> rfl

theorem data_text (m : MeshFormat) (hm : m.fileType = 0) (isEN : Bool) {d : Data} (hf : SameText cfg.fmt f d.header.realTags)
    (hg : ∀ e ∈ d.entries, SameText cfg.fmt g e.data) : saveData cfg m isEN (d.convert isEN id f g) = saveData cfg m isEN d := by
  have hm : ¬(0 : Int32) < m.fileType := by rw [hm]; decide
  unfold saveData Data.convert
  rw [if_neg hm, if_neg hm]
  exact wr_seq (dataHeader_resave hf) fun _ => forW_map fun e he => dataEntry_text isEN (hg e he)

theorem data_binary (m : MeshFormat) (hm : m.fileType = 1) (isEN : Bool) {d : Data} (hf : SameText cfg.fmt f d.header.realTags)
    (ht : ∀ e ∈ d.entries, intOfSize (t e.tag) = intOfSize e.tag) : saveData cfg m isEN (d.convert isEN t f id) = saveData cfg m isEN d := by
  have hm : (0 : Int32) < m.fileType := by rw [hm]; decide
  unfold saveData Data.convert
  rw [if_pos hm, if_pos hm]
  refine wr_seq (dataHeader_resave hf) fun _ => wr_ite (fun _ => ?_) fun _ => wr_ite (fun _ => ?_) fun _ => rfl
  · exact forW_map fun e he => dataEntry_binary isEN (ht e he)
  · exact forW_map fun e he => dataEntry_binary isEN (ht e he)

/-! ## Curves and patches -/

theorem saveKnots_resave {data : List Double} (h : SameText cfg.fmt g data) (ks : List UInt64) : ∀ start,
    saveControl.saveKnots cfg (data.map g) start ks = saveControl.saveKnots cfg data start ks := by
  induction ks with
  | nil => intro _; rfl
  | cons k ks ih =>
    intro start
    unfold saveControl.saveKnots
    refine wr_seq (loopW_congr (fun i => get_map (fun d hd => ?_) _) _ _) fun _ => ih _
    rw [h d hd]

theorem saveControl_resave {data : List Double} (h : SameText cfg.fmt g data) (n w : UInt64) (ks : List UInt64) :
    saveControl cfg (data.map g) n w ks = saveControl cfg data n w ks := by
  unfold saveControl
  refine wr_seq (loopW_congr (fun i => loopW_congr (fun j => get_map (fun d hd => ?_) _) _ _) _ _) fun _ => saveKnots_resave h ks _
  rw [h d hd]

theorem curve_resave {c : Curve} (h : SameText cfg.fmt g c.data) : saveCurveAscii cfg (c.convert g) = saveCurveAscii cfg c := by
  unfold saveCurveAscii Curve.convert
  rw [sizeU_map]
  exact wr_seq rfl fun _ => wr_seq rfl fun _ => saveControl_resave h _ _ _

theorem patch_resave {c : Patch} (h : SameText cfg.fmt g c.data) : savePatchAscii cfg (c.convert g) = savePatchAscii cfg c := by
  unfold savePatchAscii Patch.convert
  rw [sizeU_map]
  exact wr_seq rfl fun _ => wr_seq rfl fun _ => saveControl_resave h _ _ _

/-! ## The sections behind the mesh -/

theorem sections_resave (m : MeshFormat) (name : Bytes) (isEN : Bool) {ds : List Data}
    (h : ∀ d ∈ ds, saveData cfg m isEN (d.convert isEN t f g) = saveData cfg m isEN d) :
    whenW ((ds.map (Data.convert isEN t f g)).length > 0) (saveDataSections cfg m name isEN (ds.map (Data.convert isEN t f g))) =
      whenW (ds.length > 0) (saveDataSections cfg m name isEN ds) := by
  rw [List.length_map]
  unfold saveDataSections
  rw [forW_map fun d hd => by rw [h d hd]]

theorem tail_text {s s' : MshSpec} (hm : s.meshFormat.fileType = 0) (hs' : s'.meshFormat = s.meshFormat)
    (h : SameText cfg.fmt g (s.realTags ++ (s.nodeData ++ s.elementData ++ s.elementNodeData).flatMap
        (fun d => d.entries.flatMap (·.data)) ++ s.curves.flatMap (·.data) ++ s.patches.flatMap (·.data))) :
    saveTail cfg (s.withTail cfg.nanospline id g g s') = saveTail cfg s := by
  have hd : ∀ isEN, ∀ d ∈ s.nodeData ++ s.elementData ++ s.elementNodeData,
      saveData cfg s.meshFormat isEN (d.convert isEN id g g) = saveData cfg s.meshFormat isEN d := by
    intro isEN d hd
    refine data_text _ hm isEN (fun x hx => h x ?_) fun e he x hx => h x ?_
    · simp only [List.mem_append, or_assoc]
      exact Or.inl (List.mem_flatMap.mpr ⟨d, hd, hx⟩)
    · simp only [List.mem_append, or_assoc]
      refine Or.inr (Or.inl (List.mem_flatMap.mpr ⟨d, by simpa only [List.mem_append, or_assoc] using hd, List.mem_flatMap.mpr ⟨e, he, hx⟩⟩))
  unfold saveTail MshSpec.withTail
  simp only [hs']
  rw [sections_resave _ _ _ fun d hd' => hd false d (by simp [hd']), sections_resave _ _ _ (ds := s.elementData) fun d hd' => hd false d (by simp [hd']),
    sections_resave _ _ _ (ds := s.elementNodeData) fun d hd' => hd true d (by simp [hd'])]
  refine Wr.bind_congr fun _ => Wr.bind_congr fun _ => Wr.bind_congr fun _ => whenW_congr fun hn => ?_
  rw [if_pos hn, if_pos hn, if_pos hn, List.length_map, List.length_map]
  unfold saveCurves savePatches
  simp only [if_pos hm, sizeU_map]
  rw [forW_map fun c hc => curve_resave fun x hx => h x ?_, forW_map fun c hc => patch_resave fun x hx => h x ?_]
  · simp only [List.mem_append, or_assoc]
    exact Or.inr (Or.inr (Or.inr (List.mem_flatMap.mpr ⟨c, hc, hx⟩)))
  · simp only [List.mem_append, or_assoc]
    exact Or.inr (Or.inr (Or.inl (List.mem_flatMap.mpr ⟨c, hc, hx⟩)))

theorem tail_binary {s s' : MshSpec} (hm : s.meshFormat.fileType = 1) (hs' : s'.meshFormat = s.meshFormat)
    (h : SameText cfg.fmt f s.realTags) (ht : ∀ x, intOfSize (t x) = intOfSize x) :
    saveTail cfg (s.withTail cfg.nanospline t f id s') = saveTail cfg s := by
  have hd : ∀ isEN, ∀ d ∈ s.nodeData ++ s.elementData ++ s.elementNodeData,
      saveData cfg s.meshFormat isEN (d.convert isEN t f id) = saveData cfg s.meshFormat isEN d := fun isEN d hd =>
    data_binary _ hm isEN (fun x hx => h x (List.mem_flatMap.mpr ⟨d, hd, hx⟩)) fun e _ => ht e.tag
  unfold saveTail MshSpec.withTail
  simp only [hs']
  rw [sections_resave _ _ _ fun d hd' => hd false d (by simp [hd']), sections_resave _ _ _ (ds := s.elementData) fun d hd' => hd false d (by simp [hd']),
    sections_resave _ _ _ (ds := s.elementNodeData) fun d hd' => hd true d (by simp [hd'])]
  refine Wr.bind_congr fun _ => Wr.bind_congr fun _ => Wr.bind_congr fun _ => whenW_congr fun hn => ?_
  rw [if_pos hn, if_pos hn, if_pos hn, funext Curve.convert_id, funext Patch.convert_id, List.map_id', List.map_id']

/-! ## Whole files -/

theorem nodes_when {cfg : Cfg} {m : MeshFormat} {n : Nodes} {g : Double → Double} (h : saveNodes cfg m (n.convert g) = saveNodes cfg m n) :
    whenW ((if n.numNodes = 0 then ({} : Nodes) else n.convert g).numNodes > 0)
      (saveNodes cfg m (if n.numNodes = 0 then {} else n.convert g)) = whenW (n.numNodes > 0) (saveNodes cfg m n) := by
  split
  · rename_i h0
    rw [h0]; rfl
  · rw [h]; rfl

theorem elements_when {m : MeshFormat} {n : Elements} :
    whenW ((if n.numElements = 0 then ({} : Elements) else n).numElements > 0)
      (saveElements m (if n.numElements = 0 then {} else n)) = whenW (n.numElements > 0) (saveElements m n) := by
  split
  · rename_i h0
    rw [h0]; rfl
  · rfl

theorem resave_text41 {s : MshSpec} (hfmt : s.meshFormat = ⟨b! "4.1", 0, 8⟩) (h : SameText cfg.fmt g s.doubles) :
    saveMsh cfg (s.convert cfg.nanospline id g g) = saveMsh cfg s := by
  have hx : ∀ x, _ → x ∈ s.doubles := fun x => (mem_doubles (s := s) (x := x)).mpr
  rw [MshSpec.convert_eq, saveMsh_eq, saveMsh_eq]
  have hent : saveEntities cfg s.meshFormat (s.entities.convert g) = saveEntities cfg s.meshFormat s.entities := by
    unfold saveEntities
    rw [hfmt]
    simp only [if_true]
    rw [entities_resave fun x hx' => h x (hx x (Or.inl hx'))]
  have hnod : saveNodes cfg s.meshFormat (s.nodes.convert g) = saveNodes cfg s.meshFormat s.nodes := by
    unfold saveNodes
    rw [hfmt]
    simp only [if_true]
    rw [nodes_resave fun x hx' => h x (hx x (Or.inr (Or.inl hx')))]
  refine wr_seq rfl fun _ => wr_seq rfl fun _ => wr_seq ?_ fun _ => wr_seq (nodes_when hnod) fun _ => wr_seq elements_when fun _ =>
    tail_text (s := s) (by rw [hfmt]) rfl fun x hx' => h x (hx x ?_)
  · show whenW (!(s.entities.convert g).empty) (saveEntities cfg s.meshFormat (s.entities.convert g)) = _
    rw [entities_empty_convert, hent]
  · simp only [List.mem_append, or_assoc] at hx' ⊢
    exact Or.inr (Or.inr hx')

theorem intOfSize_wrap32 (x : UInt64) : intOfSize (wrap32 x) = intOfSize x := by
  rw [← wrap32_eq]
  unfold sizeOfInt intOfSize
  apply Int32.toBitVec_inj.mp
  apply BitVec.eq_of_getLsbD_eq
  intro i hi
  simp [BitVec.getLsbD_signExtend, hi]
  omega

theorem resave_binary41 {s : MshSpec} (hfmt : s.meshFormat = ⟨b! "4.1", 1, 8⟩) (h : SameText cfg.fmt f s.realTags) :
    saveMsh cfg (s.convert cfg.nanospline wrap32 f id) = saveMsh cfg s := by
  rw [MshSpec.convert_eq, saveMsh_eq, saveMsh_eq]
  refine wr_seq rfl fun _ => wr_seq rfl fun _ => wr_seq ?_ fun _ => wr_seq (nodes_when ?_) fun _ => wr_seq elements_when fun _ =>
    tail_binary (s := s) (by rw [hfmt]) rfl h intOfSize_wrap32
  · show whenW (!(s.entities.convert id).empty) (saveEntities cfg s.meshFormat (s.entities.convert id)) = _
    rw [Entities.convert_id]
  · show saveNodes cfg s.meshFormat _ = saveNodes cfg s.meshFormat _
    rw [Nodes.convert_id]

/-! ## Version 2.2 text -/

/-- The text of the `$Nodes` section depends only on the list of nodes. -/
theorem nodes22_text {s : MshSpec} (hv : s.meshFormat.version = b! "2.2") (ht : s.meshFormat.fileType = 0)
    (hs : s.Ok) (hf : s.Fits cfg) (hc : s.Counted) :
    whenW (s.nodes.numNodes > 0) (saveNodes cfg s.meshFormat s.nodes) =
      whenW (s.nodes.list.length > 0) ((b! "$Nodes\n" ++ (natText s.nodes.list.length ++ b! "\n" ++
        lineText (s.nodes.list.map (node22Words cfg.fmt)) ++ b! "$EndNodes\n"), .ok ())) := by
  have hgn := hs.goodNodes hf
  have h0 : decide (s.nodes.numNodes > 0) = decide (s.nodes.list.length > 0) := by
    rw [← hc.nodes_list hs]
    exact decide_eq_decide.mpr (by rw [gt_iff_lt, UInt64.lt_iff_toNat_lt]; rfl)
  rw [h0]
  congr 1
  unfold saveNodes saveNodesAscii22
  rw [if_neg (by rw [hv]; decide), if_pos hv, if_pos ht, loopBlocks_eq _ _ _ hgn.blocks.symm]
  refine (Writes.bind (Writes.emit _) (Writes.bind (@Writes.bind _ _ _ (lineText (s.nodes.list.map (node22Words cfg.fmt))) (Writes.emit _) ?_)
    (Writes.emit _))).cast ?_
  · unfold Nodes.list
    rw [List.map_flatMap, lineText_flatMap]
    exact Writes.forW _ fun b hb => saveNodeBlock22_lines cfg (hgn.ok b hb) (hgn.fitsB b hb).2
  · rw [decU64_eq, hc.nodes_list hs]
    simp [endl]

/-- The text of the `$Elements` section depends only on the list of elements. -/
theorem elements22_text {s : MshSpec} (hv : s.meshFormat.version = b! "2.2") (ht : s.meshFormat.fileType = 0)
    (hs : s.Ok) (hf : s.Fits cfg) (hc : s.Counted) :
    whenW (s.elements.numElements > 0) (saveElements s.meshFormat s.elements) =
      whenW (s.elements.list.length > 0) ((b! "$Elements\n" ++ (natText s.elements.list.length ++ b! "\n" ++
        lineText (s.elements.list.map element22Words) ++ b! "$EndElements\n"), .ok ())) := by
  have hgn := hs.goodElements hf
  have h0 : decide (s.elements.numElements > 0) = decide (s.elements.list.length > 0) := by
    rw [← hc.elements_list]
    exact decide_eq_decide.mpr (by rw [gt_iff_lt, UInt64.lt_iff_toNat_lt]; rfl)
  rw [h0]
  congr 1
  unfold saveElements saveElementsAscii22
  rw [if_neg (by rw [hv]; decide), if_pos hv, if_pos ht, loopBlocks_eq _ _ _ hgn.blocks.symm]
  refine (Writes.bind (Writes.emit _) (Writes.bind (@Writes.bind _ _ _ (lineText (s.elements.list.map element22Words)) (Writes.emit _) ?_)
    (Writes.emit _))).cast ?_
  · unfold Elements.list
    rw [List.map_flatMap, lineText_flatMap]
    exact Writes.forW _ fun b hb => saveElementBlock22_lines cfg (hgn.ok b hb) (hgn.fitsB b hb)
  · rw [decU64_eq, hc.elements_list]
    simp [endl]

theorem resave_text22 {s : MshSpec} {d : Int32} (hfmt : s.meshFormat = ⟨b! "2.2", 0, d⟩) (hs : s.Ok) (hf : s.Fits cfg) (hc : s.Counted)
    (hfit : Fits22 cfg (s.nodes22 id g) (s.elems22 id)) (h : SameText cfg.fmt g s.doubles22) :
    saveMsh cfg (s.convert22 cfg.nanospline id id g g) = saveMsh cfg s := by
  have hv : s.meshFormat.version = b! "2.2" := by rw [hfmt]
  have ht : s.meshFormat.fileType = 0 := by rw [hfmt]
  have hs' := convert22_ok (ext := cfg.nanospline) (t := id) (f := g) hs hc hfit
  have hf' := convert22_fits (ext := cfg.nanospline) (t := id) (f := g) hs hc hf hfit
  have hc' := (convert22_regrouped (ext := cfg.nanospline) (t := id) (w := id) (f := g) (g := g) hs hc).counted hfit
  have hn := nodes22_text (cfg := cfg) (s := s.convert22 cfg.nanospline id id g g) hv ht hs' hf' hc'
  have he := elements22_text (cfg := cfg) (s := s.convert22 cfg.nanospline id id g g) hv ht hs' hf' hc'
  rw [convert22_nodes_list hs hc] at hn
  rw [convert22_elements_list hs hc] at he
  have e0 : ∀ c e, whenW c (saveEntities cfg s.meshFormat e) = pure () := by
    intro c e
    unfold saveEntities whenW
    rw [if_pos hv, ite_self]
  have e1 : (s.nodes22 id g).map (node22Words cfg.fmt) = s.nodes.list.map (node22Words cfg.fmt) := by
    unfold MshSpec.nodes22
    rw [List.map_map]
    refine List.map_congr_left fun n hn => ?_
    have hx : ∀ x ∈ [n.x, n.y, n.z], fmtDouble cfg.fmt (g x) = fmtDouble cfg.fmt x := fun x hx =>
      h x (mem_doubles22.mpr (Or.inl (List.mem_flatMap.mpr ⟨n, hn, hx⟩)))
    simp only [Function.comp_apply, node22Words, id, List.map_cons, List.map_nil, hx n.x (by simp), hx n.y (by simp), hx n.z (by simp)]
  have e2 : (s.elems22 id).map element22Words = s.elements.list.map element22Words := by
    unfold MshSpec.elems22
    rw [List.map_map]
    refine List.map_congr_left fun e he => ?_
    simp [element22Words]
  rw [e1, show (s.nodes22 id g).length = s.nodes.list.length from List.length_map _, ← nodes22_text (cfg := cfg) hv ht hs hf hc] at hn
  rw [e2, show (s.elems22 id).length = s.elements.list.length from List.length_map _, ← elements22_text (cfg := cfg) hv ht hs hf hc] at he
  rw [saveMsh_eq, saveMsh_eq]
  refine wr_seq rfl fun _ => wr_seq rfl fun _ => wr_seq ((e0 _ _).trans (e0 _ _).symm) fun _ => wr_seq hn fun _ => wr_seq he fun _ => ?_
  refine tail_text (s := s) (s' := s.front22 id g) ht rfl fun x hx => h x (mem_doubles22.mpr (Or.inr ?_))
  simpa only [List.mem_append, or_assoc] using hx

/-! ## Version 2.2 binary -/

section
variable {α β κ : Type} [DecidableEq κ]

/-- Runs of a list given as a concatenation of pieces with constant keys. -/
theorem runs_pieces {bs : List β} {L : β → List α} {key : α → κ} {k : β → κ} (hne : ∀ b ∈ bs, L b ≠ [])
    (hk : ∀ b ∈ bs, ∀ a ∈ L b, key a = k b) : runs key (bs.flatMap L) = (runs k bs).map fun r => r.flatMap L := by
  have hm : ∀ r ∈ runs k bs, ∀ b ∈ r, b ∈ bs := fun r hr b hb => by
    rw [← runs_flatten k bs]
    exact List.mem_flatten.mpr ⟨r, hr, hb⟩
  refine runs_unique ?_ ?_ ?_ ?_
  · have : ∀ l : List (List β), (l.map fun r => r.flatMap L).flatten = l.flatten.flatMap L := by
      intro l
      induction l with
      | nil => rfl
      | cons a l ih => simp [ih]
    rw [this, runs_flatten]
  · intro r hr
    obtain ⟨r, hr', rfl⟩ := List.mem_map.mp hr
    clear hr
    have hr := hr'
    obtain ⟨b, l, rfl⟩ := List.exists_cons_of_ne_nil (runs_ne_nil hr)
    have := hne b (hm _ hr b (by simp))
    simp [this]
  · intro r hr a ha a' ha'
    obtain ⟨r, hr', rfl⟩ := List.mem_map.mp hr
    clear hr
    have hr := hr'
    obtain ⟨b, hb, ha⟩ := List.mem_flatMap.mp ha
    obtain ⟨b', hb', ha'⟩ := List.mem_flatMap.mp ha'
    rw [hk b (hm _ hr b hb) a ha, hk b' (hm _ hr b' hb') a' ha']
    exact runs_key hr hb hb'
  · rw [List.isChain_map]
    have h := runs_adjacent k bs
    have hmem : ∀ r ∈ runs k bs, r ∈ runs k bs := fun _ h => h
    rw [List.isChain_iff_getElem] at h ⊢
    intro i hi a ha a' ha'
    obtain ⟨b, hb, ha⟩ := List.mem_flatMap.mp ha
    obtain ⟨b', hb', ha'⟩ := List.mem_flatMap.mp ha'
    rw [hk b (hm _ (List.getElem_mem _) b hb) a ha, hk b' (hm _ (List.getElem_mem _) b' hb') a' ha']
    exact h i hi b hb b' hb'

/-- Neighbours all differ exactly if every run is a single entry. -/
theorem runs_single {bs : List β} {k : β → κ} (h : (bs.map k).IsChain (· ≠ ·)) : runs k bs = bs.map fun b => [b] := by
  refine runs_unique ?_ ?_ ?_ ?_
  · clear h
    induction bs with
    | nil => rfl
    | cons a l ih => simp [ih]
  · intro r hr
    obtain ⟨b, _, rfl⟩ := List.mem_map.mp hr
    simp
  · intro r hr a ha a' ha'
    obtain ⟨b, _, rfl⟩ := List.mem_map.mp hr
    rw [List.mem_singleton] at ha ha'
    rw [ha, ha']
  · rw [List.isChain_map] at h ⊢
    refine h.imp fun a b hab x hx y hy => ?_
    rw [List.mem_singleton] at hx hy
    rw [hx, hy]; exact hab

theorem runs_fewer {bs : List β} {k : β → κ} (h : bs.length ≤ (runs k bs).length) : (bs.map k).IsChain (· ≠ ·) := by
  have hpos : ∀ r ∈ runs k bs, 1 ≤ r.length := fun r hr => List.length_pos_of_ne_nil (runs_ne_nil hr)
  have hsum : ((runs k bs).map List.length).sum = bs.length := by rw [← List.length_flatten, runs_flatten]
  have hone : ∀ l : List (List β), (∀ r ∈ l, 1 ≤ r.length) → (l.map List.length).sum ≤ l.length → l = l.flatten.map fun b => [b] := by
    intro l
    induction l with
    | nil => intro _ _; rfl
    | cons r l ih =>
      intro hp hs
      have h1 := hp r (by simp)
      have hge : l.length ≤ (l.map List.length).sum := by
        have : ∀ l : List (List β), (∀ r ∈ l, 1 ≤ r.length) → l.length ≤ (l.map List.length).sum := by
          intro l
          induction l with
          | nil => simp
          | cons r l ih =>
            intro hp
            have := ih fun r hr => hp r (by simp [hr])
            have := hp r (by simp)
            simp only [List.length_cons, List.map_cons, List.sum_cons]
            omega
        exact this l fun r hr => hp r (by simp [hr])
      simp only [List.length_cons, List.map_cons, List.sum_cons] at hs
      have h2 := ih (fun r hr => hp r (by simp [hr])) (by omega)
      obtain ⟨b, rfl⟩ := List.length_eq_one_iff.mp (show r.length = 1 by omega)
      rw [List.flatten_cons, List.singleton_append, List.map_cons, ← h2]
  have he := hone _ hpos (by omega)
  rw [runs_flatten] at he
  have h := runs_adjacent k bs
  rw [he, List.isChain_map] at h
  rw [List.isChain_map]
  exact h.imp fun a b hab => hab a (by simp) b (by simp)

end

theorem wr_cancel {a b b' : Wr Unit} {x : Bytes} (ha : Writes a x) (h : (a >>= fun _ => b) = (a >>= fun _ => b')) : b = b' := by
  unfold Writes at ha
  subst ha
  obtain ⟨y, o⟩ := b
  obtain ⟨y', o'⟩ := b'
  have h : (x ++ y, o) = (x ++ y', o') := h
  simp only [Prod.mk.injEq, List.append_cancel_left_eq] at h
  rw [h.1, h.2]

theorem wr_cancel_right {e e' t : Wr Unit} {x x' : Bytes} (he : Writes e x) (he' : Writes e' x')
    (h : (e >>= fun _ => t) = (e' >>= fun _ => t)) : x = x' := by
  unfold Writes at he he'
  subst he he'
  obtain ⟨y, o⟩ := t
  have h : (x ++ y, o) = (x' ++ y, o) := h
  simp only [Prod.mk.injEq, List.append_cancel_right_eq] at h
  exact h.1

variable {w : UInt64 → UInt64}

/-- The bytes of the `$Nodes` section depend only on the list of nodes. -/
theorem nodes22_bytes {s : MshSpec} (hv : s.meshFormat.version = b! "2.2") (ht : s.meshFormat.fileType = 1)
    (hs : s.Ok) (hf : s.Fits cfg) (hc : s.Counted) :
    whenW (s.nodes.numNodes > 0) (saveNodes cfg s.meshFormat s.nodes) =
      whenW (s.nodes.list.length > 0) ((b! "$Nodes\n" ++ (natText s.nodes.list.length ++ b! "\n" ++
        s.nodes.list.flatMap nodeBytes ++ b! "$EndNodes\n"), .ok ())) := by
  have hgn := hs.goodNodes hf
  have h0 : decide (s.nodes.numNodes > 0) = decide (s.nodes.list.length > 0) := by
    rw [← hc.nodes_list hs]
    exact decide_eq_decide.mpr (by rw [gt_iff_lt, UInt64.lt_iff_toNat_lt]; rfl)
  rw [h0]
  congr 1
  unfold saveNodes
  rw [if_neg (by rw [hv]; decide), if_pos hv, if_neg (by rw [ht]; decide)]
  refine (Writes.bind (Writes.emit _) (Writes.bind (saveNodesBinary22_writes cfg s.nodes hgn (hc.nodes_list hs)) (Writes.emit _))).cast ?_
  rw [decU64_eq, ← hc.nodes_list hs, ofNat_toNat']
  simp [endl]

/-- The bytes of the `$Elements` section are those of the groups. -/
theorem elements22_bytes {s : MshSpec} (hv : s.meshFormat.version = b! "2.2") (ht : s.meshFormat.fileType = 1)
    (hs : s.Ok) (hf : s.Fits cfg) (hc : s.Counted) (h31 : ∀ b ∈ s.elements.entityBlocks, b.numElementsInBlock.toNat < 2 ^ 31) :
    whenW (s.elements.numElements > 0) (saveElements s.meshFormat s.elements) =
      whenW (s.elements.list.length > 0) ((b! "$Elements\n" ++ (natText s.elements.list.length ++ b! "\n" ++
        (s.elements.entityBlocks.map ElementBlock.group).flatMap FileGroup.bytes ++ b! "$EndElements\n"), .ok ())) := by
  have hgn := hs.goodElements hf
  have h0 : decide (s.elements.numElements > 0) = decide (s.elements.list.length > 0) := by
    rw [← hc.elements_list]
    exact decide_eq_decide.mpr (by rw [gt_iff_lt, UInt64.lt_iff_toNat_lt]; rfl)
  rw [h0]
  congr 1
  unfold saveElements
  rw [if_neg (by rw [hv]; decide), if_pos hv, if_neg (by rw [ht]; decide)]
  refine (Writes.bind (Writes.emit _) (Writes.bind (saveElementsBinary22_writes cfg s.elements hgn hc.elements_list h31) (Writes.emit _))).cast ?_
  rw [groups_elems, List.length_map, show (s.elements.entityBlocks.flatMap ElementBlock.list).length = s.elements.list.length from rfl,
    decU64_eq, ← hc.elements_list, ofNat_toNat']
  simp [endl]

/-- The groups stored for regrouped elements. -/
theorem groups_of {es : List MeshElem} (hlt : es.length < 2 ^ 64) (hn : ∀ e ∈ es, mshNodes e.type = some e.nodes.length) :
    (elementsOf es).entityBlocks.map ElementBlock.group =
      (runs MeshElem.key es).flatMap (runBlock MeshElem.key fun k r => (⟨k.2.2, 1, r.map MeshElem.file⟩ : FileGroup)) := by
  show (List.flatMap _ _).map _ = _
  rw [List.map_flatMap]
  refine List.flatMap_congr fun r hr => ?_
  obtain ⟨a, l, rfl⟩ := List.exists_cons_of_ne_nil (runs_ne_nil hr)
  have hlist := elementBlockOf_list (k := a.key) (lt_of_le_of_lt (run_length_le hr) hlt) (fun e he => runs_key hr he (by simp))
    (fun e he => hn e (mem_runs hr he)) (runs_ne_nil hr)
  show [ElementBlock.group _] = [_]
  unfold ElementBlock.group
  rw [hlist]
  rfl

/-- What version 2.2 files group elements by: the entity and the type. -/
def blockKey (b : ElementBlock) : Int32 × Int32 × Int32 := (Int32.ofNat ((mshDim b.elementType).getD 0), b.entityTag, b.elementType)

theorem blockKey_chain (bs : List ElementBlock) :
    (bs.map blockKey).IsChain (· ≠ ·) ↔ (bs.map fun b => (b.entityTag, b.elementType)).IsChain (· ≠ ·) := by
  rw [List.isChain_map, List.isChain_map]
  have h : ∀ a b : ElementBlock, blockKey a ≠ blockKey b ↔ (a.entityTag, a.elementType) ≠ (b.entityTag, b.elementType) := by
    intro a b
    refine not_congr ⟨fun h => ?_, fun h => ?_⟩
    · simp only [blockKey, Prod.mk.injEq] at h
      rw [h.2.1, h.2.2]
    · simp only [Prod.mk.injEq] at h
      rw [blockKey, blockKey, h.1, h.2]
  exact ⟨fun hh => hh.imp fun a b => (h a b).mp, fun hh => hh.imp fun a b => (h a b).mpr⟩

theorem file_reload (hw : ∀ x, intOfSize (w x) = intOfSize x) (e : MeshElem) : (e.reload w).file = e.file := by
  unfold MeshElem.reload MeshElem.file
  simp only [hw, List.map_map]
  congr 1
  exact List.map_congr_left fun x _ => hw x

theorem mem_block_key {b : ElementBlock} {e : MeshElem} (he : e ∈ b.list) : (e.reload w).key = blockKey b := by
  obtain ⟨i, _, rfl⟩ := List.mem_map.mp he
  rfl

/-- The group made of a run of blocks. -/
def runGroup (r : List ElementBlock) : FileGroup := ⟨(r.head?.map (·.elementType)).getD 0, 1, (r.flatMap ElementBlock.list).map MeshElem.file⟩

/-- The groups of the regrouped elements in terms of the runs of blocks. -/
theorem groups22 {s : MshSpec} (hs : s.Ok) (hc : s.Counted) (hlt : (s.elems22 w).length < 2 ^ 64)
    (hblk : ∀ b ∈ s.elements.entityBlocks, 0 < b.numElementsInBlock.toNat) (hw : ∀ x, intOfSize (w x) = intOfSize x) :
    (elementsOf (s.elems22 w)).entityBlocks.map ElementBlock.group =
      (runs blockKey s.elements.entityBlocks).map runGroup := by
  have hreg := convert22_regrouped (ext := false) (t := id) (w := w) (f := id) (g := id) hs hc
  have hel : s.elems22 w = s.elements.entityBlocks.flatMap fun b => b.list.map (MeshElem.reload w) := by
    unfold MshSpec.elems22 Elements.list
    rw [List.map_flatMap]; rfl
  have hne : ∀ b ∈ s.elements.entityBlocks, b.list ≠ [] := fun b hb => by
    have h1 := b.list_length
    have h2 := hblk b hb
    intro h
    rw [h, List.length_nil] at h1
    omega
  have hm : ∀ r ∈ runs blockKey s.elements.entityBlocks, ∀ b ∈ r, b ∈ s.elements.entityBlocks := fun r hr b hb => mem_runs hr hb
  rw [groups_of hlt (fun e he => (hreg.typed e he).1), hel,
    runs_pieces (k := blockKey) (fun b hb => by simpa using hne b hb) (fun b hb a ha => by
      obtain ⟨e, he, rfl⟩ := List.mem_map.mp ha
      exact mem_block_key he), List.flatMap_map, List.map_eq_flatMap]
  refine List.flatMap_congr fun r hr => ?_
  obtain ⟨b, l, rfl⟩ := List.exists_cons_of_ne_nil (runs_ne_nil hr)
  obtain ⟨e, es, he⟩ := List.exists_cons_of_ne_nil (hne b (hm _ hr b (by simp)))
  have hk : (e.reload w).key = blockKey b := mem_block_key (by rw [he]; simp)
  have hfile : ((b :: l).flatMap fun b => b.list.map (MeshElem.reload w)).map MeshElem.file = ((b :: l).flatMap ElementBlock.list).map MeshElem.file := by
    rw [List.map_flatMap, List.map_flatMap]
    refine List.flatMap_congr fun b _ => ?_
    rw [List.map_map]
    exact List.map_congr_left fun e _ => file_reload hw e
  have hcons : ((b :: l).flatMap fun b => b.list.map (MeshElem.reload w)) =
      e.reload w :: (es.map (MeshElem.reload w) ++ l.flatMap fun b => b.list.map (MeshElem.reload w)) := by
    rw [List.flatMap_cons, he]; rfl
  rw [hcons] at hfile ⊢
  show [(⟨_, 1, List.map MeshElem.file _⟩ : FileGroup)] = [⟨b.elementType, 1, _⟩]
  rw [hfile, hk]
  rfl

theorem groups_runs (rs : List (List ElementBlock)) :
    (rs.map runGroup).flatMap FileGroup.elems = (rs.flatten.flatMap ElementBlock.list).map MeshElem.file := by
  induction rs with
  | nil => rfl
  | cons r rs ih =>
    rw [List.map_cons, List.flatMap_cons, ih, List.flatten_cons, List.flatMap_append, List.map_append]
    rfl

/-- The length of the bytes of some groups: twelve for each group and those of the elements. -/
theorem groups_bytes (gs : List FileGroup) :
    (gs.flatMap FileGroup.bytes).length = 12 * gs.length + ((gs.flatMap FileGroup.elems).flatMap elemBytes).length := by
  induction gs with
  | nil => rfl
  | cons g gs ih =>
    rw [List.flatMap_cons, List.flatMap_cons, List.flatMap_append, List.length_append, List.length_append, ih, List.length_cons]
    unfold FileGroup.bytes
    simp only [List.length_append, encI32_length]
    omega

theorem saveMeshFormat_goes (m : MeshFormat) : Goes (saveMeshFormat m) := by
  unfold saveMeshFormat whenW
  split <;> exact Goes.bind (Goes.emit _) (Goes.bind (Goes.emit _) (Goes.bind rfl (Goes.emit _)))

theorem savePhysicalGroups_goes (v : List PhysicalGroup) : Goes (savePhysicalGroups v) :=
  Goes.bind (Goes.emit _) (Goes.bind (Goes.emit _) (Goes.bind (Goes.forW _ fun _ _ => Goes.emit _) (Goes.emit _)))

theorem resave_binary22 {s : MshSpec} {d : Int32} (hfmt : s.meshFormat = ⟨b! "2.2", 1, d⟩) (hs : s.Ok) (hf : s.Fits cfg) (hc : s.Counted)
    (hblk : ∀ b ∈ s.elements.entityBlocks, 0 < b.numElementsInBlock.toNat) (hcount : s.elements.numElements.toNat < 2 ^ 31)
    (hw : ∀ x, intOfSize (w x) = intOfSize x)
    (hfit : Fits22 cfg (s.nodes22 w id) (s.elems22 w)) (h : SameText cfg.fmt f s.realTags) :
    saveMsh cfg (s.convert22 cfg.nanospline w w f id) = saveMsh cfg s ↔
      (s.elements.entityBlocks.map fun b => (b.entityTag, b.elementType)).IsChain (· ≠ ·) := by
  have hv : s.meshFormat.version = b! "2.2" := by rw [hfmt]
  have ht : s.meshFormat.fileType = 1 := by rw [hfmt]
  have hs' := convert22_ok (ext := cfg.nanospline) (t := w) (f := f) hs hc hfit
  have hf' := convert22_fits (ext := cfg.nanospline) (t := w) (f := f) hs hc hf hfit
  have hreg := convert22_regrouped (ext := cfg.nanospline) (t := w) (w := w) (f := f) (g := id) hs hc
  have hc' := hreg.counted hfit
  have hlen : (s.elems22 w).length = s.elements.list.length := List.length_map _
  have hlt := hfit.es_lt
  have h31 : ∀ b ∈ s.elements.entityBlocks, b.numElementsInBlock.toNat < 2 ^ 31 := by
    intro b hb
    refine lt_of_le_of_lt ?_ hcount
    rw [hc.elements]
    exact le_sum_of_mem (List.mem_map.mpr ⟨b, hb, rfl⟩)
  have h31' : ∀ b ∈ (s.convert22 cfg.nanospline w w f id).elements.entityBlocks, b.numElementsInBlock.toNat < 2 ^ 31 := by
    intro b hb
    obtain ⟨_, _, e3, _⟩ := elementsOf_block (by omega) (fun e he => (hreg.typed e he).1) (hreg.element hb)
    refine lt_of_le_of_lt e3 ?_
    rw [hlen, ← hc.elements_list]; exact hcount
  have hn := nodes22_bytes (cfg := cfg) (s := s.convert22 cfg.nanospline w w f id) hv ht hs' hf' hc'
  have he := elements22_bytes (cfg := cfg) (s := s.convert22 cfg.nanospline w w f id) hv ht hs' hf' hc' h31'
  rw [convert22_nodes_list hs hc] at hn
  rw [convert22_elements_list hs hc, hlen] at he
  have e0 : ∀ c e, whenW c (saveEntities cfg s.meshFormat e) = pure () := by
    intro c e
    unfold saveEntities whenW
    rw [if_pos hv, ite_self]
  have e1 : (s.nodes22 w id).flatMap nodeBytes = s.nodes.list.flatMap nodeBytes := by
    unfold MshSpec.nodes22
    rw [List.flatMap_map]
    refine List.flatMap_congr fun n _ => ?_
    simp only [nodeBytes, hw, id]
  rw [e1, show (s.nodes22 w id).length = s.nodes.list.length from List.length_map _, ← nodes22_bytes (cfg := cfg) hv ht hs hf hc] at hn
  have he0 := elements22_bytes (cfg := cfg) hv ht hs hf hc h31
  have htail : saveTail cfg (s.convert22 cfg.nanospline w w f id) = saveTail cfg s := tail_binary (s := s) (s' := s.front22 w id) ht rfl h hw
  have hnil : s.elements.list.length = 0 → s.elements.entityBlocks = [] := by
    intro h0
    rw [s.elements.list_length] at h0
    by_contra hne
    obtain ⟨b, l, hb⟩ := List.exists_cons_of_ne_nil hne
    have := hblk b (by rw [hb]; simp)
    rw [hb, List.map_cons, List.sum_cons] at h0
    omega
  have hgr : s.elements.numElements ≠ 0 → (s.convert22 cfg.nanospline w w f id).elements.entityBlocks.map ElementBlock.group = _ := fun h0 =>
    (congrArg (fun e : Elements => e.entityBlocks.map ElementBlock.group)
      (show (s.convert22 cfg.nanospline w w f id).elements = elementsOf (s.elems22 w) from if_neg h0)).trans
      (groups22 (w := w) hs hc (by omega) hblk hw)
  rw [← blockKey_chain, saveMsh_eq, saveMsh_eq, htail]
  constructor
  · intro heq
    by_cases h0 : s.elements.numElements = 0
    · rw [hnil (by rw [← hc.elements_list, h0]; rfl)]
      exact List.IsChain.nil
    · refine runs_fewer ?_
      have heq := wr_cancel (saveMeshFormat_goes _).writes heq
      have heq := wr_cancel (Goes.writes (by
        unfold whenW
        split
        · exact savePhysicalGroups_goes _
        · exact Writes.pure.goes)) heq
      have e0' : whenW (!(s.convert22 cfg.nanospline w w f id).entities.empty) (saveEntities cfg (s.convert22 cfg.nanospline w w f id).meshFormat
          (s.convert22 cfg.nanospline w w f id).entities) = pure () := e0 _ _
      rw [e0', e0] at heq
      have heq := wr_cancel Writes.pure heq
      rw [hn] at heq
      have hnw : Goes (whenW (s.nodes.numNodes > 0) (saveNodes cfg s.meshFormat s.nodes)) := by
        rw [nodes22_bytes (cfg := cfg) hv ht hs hf hc]
        generalize decide (s.nodes.list.length > 0) = c
        cases c <;> rfl
      have heq := wr_cancel hnw.writes heq
      rw [he, he0] at heq
      have hpos : s.elements.list.length > 0 := by
        rw [← hc.elements_list]
        exact Nat.pos_of_ne_zero fun h => h0 (UInt64.toNat_inj.mp h)
      rw [decide_eq_true hpos] at heq
      have heq := congrArg List.length (wr_cancel_right (e := (_, .ok ())) (e' := (_, .ok ())) rfl rfl heq)
      simp only [List.length_append] at heq
      rw [hgr h0, groups_bytes, groups_bytes, List.length_map, List.length_map, groups_elems, groups_runs, runs_flatten] at heq
      omega
  · intro hch
    refine wr_seq rfl fun _ => wr_seq rfl fun _ => wr_seq ((e0 _ _).trans (e0 _ _).symm) fun _ => wr_seq hn fun _ => wr_seq ?_ fun _ => rfl
    rw [he, he0]
    by_cases h0 : s.elements.numElements = 0
    · rw [show s.elements.list.length = 0 by rw [← hc.elements_list, h0]; rfl]
      rfl
    · rw [hgr h0, runs_single hch, List.map_map]
      have : (runGroup ∘ fun b => [b]) = ElementBlock.group := by
        funext b
        show (⟨_, 1, List.map _ ([b].flatMap _)⟩ : FileGroup) = _
        rw [List.flatMap_cons, List.flatMap_nil, List.append_nil]
        rfl
      rw [this]

end MshIO
