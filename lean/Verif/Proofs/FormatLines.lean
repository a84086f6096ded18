import Verif.Proofs.FormatBytes

/-!
# The lines of saved text files are those of the layout specification
-/

namespace MshIO

/-! ## Lines and words -/

theorem sectionLines_flatten (name : Bytes) (body : List (List Bytes)) :
    (sectionLines name body).flatten = sectionWords name body.flatten := by
  simp [sectionLines, sectionWords]

theorem onlyIf_flatten {α : Type} (c : Prop) [Decidable c] (x : List (List α)) : (onlyIf c x).flatten = onlyIf c x.flatten := by
  unfold onlyIf; split <;> rfl

theorem rows_flatten {α : Type} (k : Nat) (v : List α) : ∀ n, (rows k n v).flatten = v.take (n * k) := by
  intro n
  induction n with
  | zero => simp [rows]
  | succ n ih =>
    unfold rows at ih ⊢
    rw [List.range_succ, List.map_append, List.flatten_append, ih, Nat.add_mul, Nat.one_mul, List.take_add]
    simp

theorem rows_all {α : Type} {k n : Nat} {v : List α} (h : v.length = n * k) : (rows k n v).flatten = v := by
  rw [rows_flatten, ← h, List.take_length]

theorem map_flatten_map {α β : Type} (f : α → β) (v : List (List α)) : (v.map fun r => r.map f).flatten = v.flatten.map f := by
  rw [List.map_flatten]

theorem singletons_flatten {α β : Type} (f : α → β) (v : List α) : (v.map fun x => [f x]).flatten = v.map f := by
  induction v <;> simp_all

theorem entitiesLines_flatten (P : Fmt) (e : Entities) : (entitiesLines P e).flatten = entitiesWords P e := by
  simp [entitiesLines, entitiesWords, List.flatMap_def]

theorem nodeBlockLines_flatten (P : Fmt) {b : NodeBlock} (h : b.Ok) : (nodeBlockLines P b).flatten = nodeBlockWords P b := by
  unfold nodeBlockLines nodeBlockWords
  rw [List.flatten_cons, List.flatten_append, singletons_flatten, map_flatten_map, rows_all (by rw [h.data, h.tags])]
  simp

theorem flatMap_flatten {α : Type} (v : List α) (f : α → List (List Bytes)) (g : α → List Bytes) (h : ∀ a ∈ v, (f a).flatten = g a) :
    (v.flatMap f).flatten = v.flatMap g := by
  induction v with
  | nil => rfl
  | cons a v ih => simp [h a, ih fun b hb => h b (by simp [hb])]

theorem nodes41Lines_flatten (P : Fmt) {n : Nodes} (h : ∀ b ∈ n.entityBlocks, b.Ok) : (nodes41Lines P n).flatten = nodes41Words P n := by
  unfold nodes41Lines nodes41Words
  rw [List.flatten_cons, flatMap_flatten _ _ _ fun b hb => nodeBlockLines_flatten P (h b hb)]

/-- Tag and nodes of the elements of a block are the rows of its data. -/
theorem list_rows {b : ElementBlock} {n : Nat} (hn : mshNodes b.elementType = some n) (hl : b.data.length = b.numElementsInBlock.toNat * (n + 1)) :
    (b.list.map fun e => e.tag :: e.nodes) = rows (n + 1) b.numElementsInBlock.toNat b.data := by
  rw [b.list_eq hn]
  unfold rows
  rw [List.map_map, List.range_eq_range']
  refine List.map_congr_left fun i hi => ?_
  have hi : i < b.numElementsInBlock.toNat := by simpa using hi
  have hb := elem_bound hl hi
  have h0 : i * (n + 1) < b.data.length := by omega
  have : (b.data.drop (i * (n + 1))).take (n + 1) = b.data[i * (n + 1)] :: (b.data.drop (i * (n + 1) + 1)).take n := by
    rw [List.drop_eq_getElem_cons h0, List.take_succ_cons]
  simp [h0, this]

theorem elementBlockLines_eq {b : ElementBlock} {n : Nat} (hn : mshNodes b.elementType = some n)
    (hl : b.data.length = b.numElementsInBlock.toNat * (n + 1)) :
    (b.list.map fun e => natText e.tag.toNat :: e.nodes.map fun t => natText t.toNat) =
      (rows (n + 1) b.numElementsInBlock.toNat b.data).map fun r => r.map fun t => natText t.toNat := by
  rw [← list_rows hn hl, List.map_map]
  rfl

theorem elementBlockLines_flatten {b : ElementBlock} (h : b.Ok) : (elementBlockLines b).flatten = elementBlockWords b := by
  obtain ⟨n, hn, hl⟩ := h.data
  unfold elementBlockLines elementBlockWords
  rw [List.flatten_cons, elementBlockLines_eq hn hl, map_flatten_map, rows_all hl]

theorem elements41Lines_flatten {n : Elements} (h : ∀ b ∈ n.entityBlocks, b.Ok) : (elements41Lines n).flatten = elements41Words n := by
  unfold elements41Lines elements41Words
  rw [List.flatten_cons, flatMap_flatten _ _ _ fun b hb => elementBlockLines_flatten (h b hb)]

theorem dataLines_flatten (P : Fmt) (name : Bytes) (isEN : Bool) (d : Data) : (dataLines P name isEN d).flatten = dataWords P name isEN d := by
  unfold dataLines dataWords
  rw [sectionLines_flatten, List.flatten_append, List.flatMap_def, show (List.map (fun w => [w]) (dataHeadWords P d.header)) = (dataHeadWords P d.header).map fun w => [id w] from rfl,
    singletons_flatten id, List.map_id]

theorem controlLines_flatten (P : Fmt) (n w : UInt64) (data : List Double) : (controlLines P n w data).flatten = data.map (fmtDouble P) := by
  unfold controlLines
  simp only
  rw [List.flatten_append, map_flatten_map, rows_flatten, singletons_flatten, ← List.map_append, List.take_append_drop]

theorem tailLines_flatten (ext : Bool) (P : Fmt) (s : MshSpec) : (tailLines ext P s).flatten = tailWords ext P s := by
  unfold tailLines tailWords
  simp only [List.flatten_append, onlyIf_flatten, sectionLines_flatten, List.flatten_cons, List.flatten_nil, List.append_nil]
  rw [flatMap_flatten _ _ _ fun d _ => dataLines_flatten P _ _ d, flatMap_flatten _ _ _ fun d _ => dataLines_flatten P _ _ d,
    flatMap_flatten _ _ _ fun d _ => dataLines_flatten P _ _ d,
    flatMap_flatten s.curves _ (fun c => curveHeadWords c ++ c.data.map (fmtDouble P)) fun c _ => by rw [List.flatten_cons, controlLines_flatten],
    flatMap_flatten s.patches _ (fun c => patchHeadWords c ++ c.data.map (fmtDouble P)) fun c _ => by rw [List.flatten_cons, controlLines_flatten]]
  rfl

theorem namesLines_flatten (s : MshSpec) : (namesLines s).flatten = namesWords s := by
  unfold namesLines namesWords
  rw [onlyIf_flatten, sectionLines_flatten, List.flatten_cons, List.flatMap_def]
  rfl

theorem lines41_flatten (ext : Bool) (P : Fmt) {s : MshSpec} (hs : s.Ok) : (lines41 ext P s).flatten = words41 ext P s := by
  unfold lines41 words41
  simp only [List.flatten_append, onlyIf_flatten, sectionLines_flatten, entitiesLines_flatten, namesLines_flatten, tailLines_flatten,
    nodes41Lines_flatten P hs.node, elements41Lines_flatten hs.element]
  rfl

theorem lines22_flatten (ext : Bool) (P : Fmt) (s : MshSpec) : (lines22 ext P s).flatten = words22 ext P s := by
  unfold lines22 words22
  simp only [List.flatten_append, onlyIf_flatten, sectionLines_flatten, namesLines_flatten, tailLines_flatten, List.flatten_cons,
    List.flatMap_def]
  rfl

/-! ## Writing lines -/

/-- The text of lines. -/
def lineText (ls : List (List Bytes)) : Bytes := ls.flatMap textLine

theorem lineText_append (a b : List (List Bytes)) : lineText (a ++ b) = lineText a ++ lineText b := by simp [lineText]

theorem lineText_cons (a : List Bytes) (b : List (List Bytes)) : lineText (a :: b) = textLine a ++ lineText b := rfl

theorem lineText_map {α : Type} (v : List α) (f : α → List Bytes) : lineText (v.map f) = v.flatMap fun a => textLine (f a) := by
  simp [lineText, List.flatMap_map]

theorem lineText_flatMap {α : Type} (v : List α) (f : α → List (List Bytes)) : lineText (v.flatMap f) = v.flatMap fun a => lineText (f a) := by
  simp [lineText, List.flatMap_assoc]

theorem lineText_section (name : Bytes) (body : List (List Bytes)) : lineText (sectionLines name body) = bracketed name (lineText body) := by
  simp [sectionLines, lineText, bracketed, textLine]

theorem lineText_onlyIf (c : Prop) [Decidable c] (x : List (List Bytes)) : lineText (onlyIf c x) = onlyIf c (lineText x) := by
  unfold onlyIf; split <;> rfl

theorem textLine_cons (w : Bytes) {ws : List Bytes} (h : ws ≠ []) : textLine (w :: ws) = w ++ [32] ++ textLine ws := by
  cases ws with
  | nil => exact absurd rfl h
  | cons a ws => rfl

theorem row_text (tok : Nat → Bytes) (m n : Nat) : ∀ i, i + (n + 1) = m →
    (List.range' i (n + 1)).flatMap (fun k => tok k ++ if k + 1 = m then [10] else [32]) = textLine ((List.range' i (n + 1)).map tok) := by
  induction n with
  | zero =>
    intro i h
    have : i + 1 = m := h
    simp [textLine, this]
  | succ n ih =>
    intro i h
    rw [List.range'_succ, List.flatMap_cons, List.map_cons, textLine_cons _ (by simp), ih (i + 1) (by omega), if_neg (by omega)]

theorem writes_row {g : Nat → Wr Unit} (tok : Nat → Bytes) {m : Nat} (hm : 0 < m)
    (h : ∀ k, k < m → Writes (g k) (tok k ++ if k + 1 = m then [10] else [32])) :
    Writes (loopW g m 0) (textLine ((List.range' 0 m).map tok)) := by
  obtain ⟨n, rfl⟩ : ∃ n, m = n + 1 := ⟨m - 1, by omega⟩
  rw [← row_text tok (n + 1) n 0 (by omega)]
  exact Writes.loopW _ 0 fun j _ hj => h j (by omega)

theorem row_get {α : Type} (d : α) {v : List α} {a k : Nat} (h : a + k ≤ v.length) :
    (v.drop a).take k = (List.range' 0 k).map fun i => v.getD (a + i) d := by
  apply List.ext_getElem
  · simp; omega
  · intro i h1 h2
    have hi : i < k := by simpa using h2
    have hl : a + i < v.length := by omega
    simp [hl]

/-- A loop over the rows of a vector that writes every row on a line. -/
theorem writes_rows {α : Type} (d : α) (f : α → Bytes) {v : List α} {n k : Nat} (hk : 0 < k) (hl : n * k ≤ v.length) {g : Nat → Nat → Wr Unit}
    (h : ∀ j i, j < n → (hi : i < k) → (hb : j * k + i < v.length) → Writes (g j i) (f v[j * k + i] ++ if i + 1 = k then [10] else [32])) :
    Writes (loopW (fun j => loopW (g j) k 0) n 0) (lineText ((rows k n v).map fun r => r.map f)) := by
  unfold rows
  rw [List.map_map, lineText_map, List.range_eq_range']
  refine Writes.loopW _ 0 fun j _ hj => ?_
  have hj : j < n := by omega
  have hb : j * k + k ≤ v.length := by
    calc j * k + k = (j + 1) * k := by rw [Nat.add_mul, Nat.one_mul]
      _ ≤ n * k := Nat.mul_le_mul_right _ hj
      _ ≤ _ := hl
  show Writes _ (textLine (((v.drop (j * k)).take k).map f))
  rw [row_get d hb, List.map_map]
  refine writes_row _ hk fun i hi => ?_
  have hg : v.getD (j * k + i) d = v[j * k + i] := by simp [show j * k + i < v.length by omega]
  show Writes _ (f (v.getD (j * k + i) d) ++ _)
  rw [hg]
  exact h j i hj hi (by omega)

theorem writes_singles {α : Type} (d : α) (f : α → Bytes) {v : List α} {n a : Nat} (hl : a + n ≤ v.length) {g : Nat → Wr Unit}
    (h : ∀ i, i < n → (hb : a + i < v.length) → Writes (g i) (f v[a + i] ++ [10])) :
    Writes (loopW g n 0) (lineText (((v.drop a).take n).map fun x => [f x])) := by
  rw [row_get d hl, lineText_map, List.flatMap_map]
  refine Writes.loopW _ 0 fun i _ hi => ?_
  have hg : v.getD (a + i) d = v[a + i] := by simp [show a + i < v.length by omega]
  show Writes _ (f (v.getD (a + i) d) ++ [10])
  rw [hg]
  exact h i (by omega) (by omega)

theorem textLine_append (a : List Bytes) {b : List Bytes} (h : b ≠ []) : textLine (a ++ b) = a.flatMap (fun w => w ++ [32]) ++ textLine b := by
  induction a with
  | nil => rfl
  | cons w a ih => rw [List.cons_append, textLine_cons _ (by simp [h]), ih]; simp

/-- A word and more words after it. -/
theorem textLine_tail (w : Bytes) (v : List Bytes) : textLine (w :: v) = w ++ v.flatMap (fun t => [32] ++ t) ++ [10] := by
  induction v generalizing w with
  | nil => simp [textLine]
  | cons a v ih => rw [textLine_cons _ (by simp), ih]; simp

theorem spacedLine_eq (P : Fmt) {v : List Double} (h : v ≠ []) : spacedLine P v = textLine (v.map (fmtDouble P)) := by
  induction v with
  | nil => exact absurd rfl h
  | cons a v ih =>
    cases v with
    | nil => rfl
    | cons b v =>
      rw [List.map_cons, textLine_cons _ (by simp), ← ih (by simp)]
      rfl

/-! ## Sections -/

theorem saveMeshFormat_lines {f : MeshFormat} (ht : f.fileType = 0) :
    Writes (saveMeshFormat f) (lineText (sectionLines (b! "MeshFormat") [[f.version, b! "0", intText f.dataSize.toInt]])) := by
  rw [saveMeshFormat_eq, lineText_section]
  refine writes_section (name := b! "MeshFormat") rfl rfl
    ((Writes.bind (Writes.emit _) (Writes.when (Writes.emit _))).cast ?_)
  rw [ht, decI32_eq f.dataSize]
  simp [textLine, lineText, endl]
  rfl

theorem saveNames_lines (cfg : Cfg) {s : MshSpec} (hf : s.Fits cfg) :
    Writes (whenW (s.physicalGroups.length > 0) (savePhysicalGroups s.physicalGroups)) (lineText (namesLines s)) := by
  refine (saveNames_bytes cfg hf).cast ?_
  unfold namesSections namesLines
  rw [secBytes_only, secBytes_one, lineText_onlyIf, lineText_section, lineText_cons, lineText_map]

theorem tags_line {v : List Int32} (h : v.length < 2 ^ 60) : textLine (tagWords v) = intListAscii v ++ [10] := by
  unfold tagWords intListAscii
  rw [textLine_tail, List.flatMap_map, decSize_eq h, flatMap_congr' (v := v) fun t _ => by rw [← decI32_eq]]

theorem tags_words {v : List Int32} (h : v.length < 2 ^ 60) (b : List Bytes) (hb : b ≠ []) :
    textLine (tagWords v ++ b) = intListAscii v ++ [32] ++ textLine b := by
  have : ∀ (w : Bytes) (v : List Bytes), textLine (w :: v ++ b) = w ++ v.flatMap (fun t => [32] ++ t) ++ [32] ++ textLine b := by
    intro w v
    induction v generalizing w with
    | nil => rw [List.cons_append, textLine_cons _ (by simp [hb])]; simp
    | cons a v ih => rw [List.cons_append, textLine_cons _ (by simp), ih]; simp
  unfold tagWords intListAscii
  rw [this, List.flatMap_map, decSize_eq h, flatMap_congr' (v := v) fun t _ => by rw [← decI32_eq]]

theorem savePoint_line (cfg : Cfg) {p : PointEntity} (h : p.physicalGroupTags.length < 2 ^ 60) :
    Writes (savePointAscii cfg p) (textLine (pointWords cfg.fmt p)) := by
  unfold savePointAscii pointWords
  refine (Writes.bind (Writes.emit _) (Writes.emit _)).cast ?_
  rw [textLine_append _ (by simp [tagWords]), tags_line h, decI32_eq]
  simp [endl]

theorem saveBox_line (cfg : Cfg) {p : BoxEntity} (h : p.physicalGroupTags.length < 2 ^ 60) (h' : p.boundaryTags.length < 2 ^ 60) :
    Writes (saveBoxAscii cfg p) (textLine (boxWords cfg.fmt p)) := by
  unfold saveBoxAscii boxWords
  refine (Writes.bind (Writes.emit _) (Writes.bind (Writes.emit _) (Writes.emit _))).cast ?_
  rw [List.append_assoc (intText p.tag.toInt :: _), textLine_append (intText p.tag.toInt :: _) (by simp [tagWords]), tags_words h _ (by simp [tagWords]), tags_line h', decI32_eq]
  simp [endl]

theorem saveEntities_lines (cfg : Cfg) {e : Entities} (h : ∀ n ∈ e.sizes, n < 2 ^ 60) :
    Writes (saveEntitiesAscii41 cfg e) (lineText (entitiesLines cfg.fmt e)) := by
  have hb : ∀ p ∈ e.curves ++ e.surfaces ++ e.volumes, Writes (saveBoxAscii cfg p) (textLine (boxWords cfg.fmt p)) := fun p hp => by
    have : ∀ n ∈ [p.physicalGroupTags.length, p.boundaryTags.length], n < 2 ^ 60 := fun n hn => h n (by
      unfold Entities.sizes
      exact List.mem_append_right _ (List.mem_flatMap.mpr ⟨p, hp, hn⟩))
    exact saveBox_line cfg (this _ (by simp)) (this _ (by simp))
  have hl : ∀ n ∈ [e.points.length, e.curves.length, e.surfaces.length, e.volumes.length], n < 2 ^ 60 := fun n hn => h n (by
    unfold Entities.sizes
    exact List.mem_append_left _ (List.mem_append_left _ hn))
  unfold saveEntitiesAscii41 entitiesLines
  rw [lineText_cons, lineText_append, lineText_append, lineText_append, lineText_map, lineText_map, lineText_map, lineText_map,
    List.append_assoc (_ ++ _) (List.flatMap _ e.surfaces), List.append_assoc (List.flatMap _ e.points)]
  refine Writes.bind (Writes.cast (Writes.emit _) ?_) (Writes.bind (Writes.forW _ fun p hp => savePoint_line cfg (h _ ?_))
    (Writes.bind (Writes.forW e.curves fun p h => hb p (by simp [h])) (Writes.bind (Writes.forW e.surfaces fun p h => hb p (by simp [h]))
    (Writes.forW e.volumes fun p h => hb p (by simp [h])))))
  · rw [decSize_eq (hl _ (by simp)), decSize_eq (hl _ (by simp)), decSize_eq (hl _ (by simp)), decSize_eq (hl _ (by simp))]
    simp [textLine, endl]
  · unfold Entities.sizes
    exact List.mem_append_left _ (List.mem_append_right _ (List.mem_map.mpr ⟨p, hp, rfl⟩))

theorem u64_last {k : Nat} {e : UInt64} (hk : k < e.toNat) (t : Bytes) (s : Bytes) :
    (if UInt64.ofNat k = e - 1 then t else s) = if k + 1 = e.toNat then t else s := by
  have h1 : (1 : UInt64) ≤ e := UInt64.le_iff_toNat_le.mpr (by have : (1 : UInt64).toNat = 1 := rfl; omega)
  have : UInt64.ofNat k = e - 1 ↔ k + 1 = e.toNat := by
    rw [← UInt64.toNat_inj, UInt64.toNat_sub_of_le _ _ h1, ofNat_toNat_lt (by have := e.toNat_lt; omega)]
    have : (1 : UInt64).toNat = 1 := rfl
    omega
  simp only [this]

theorem saveNodeBlock_lines (cfg : Cfg) {b : NodeBlock} (hb : b.Ok) (hc : b.data.length ≤ cfg.maxCount) :
    Writes (saveNodeBlockAscii41 cfg b) (lineText (nodeBlockLines cfg.fmt b)) := by
  have hlt := cfg.maxCount_lt
  obtain ⟨e, he, he2, he3⟩ := entriesPerNode_ok hb.dim
  have hco := coords_ge b
  unfold saveNodeBlockAscii41 nodeBlockLines
  rw [lineText_cons, lineText_append]
  refine Writes.bind (Writes.cast (Writes.emit _) ?_) (Writes.bind ?_ (Writes.lift he ?_))
  · rw [hb.tags]
    simp [textLine, endl, decI32_eq, decU64_eq]
  · have := loopBlocks_eq b.tags b.numNodesInBlock (fun t => emit (decU64 t ++ endl)) hb.tags.symm
    unfold loopBlocks at this
    rw [this, lineText_map]
    refine Writes.forW b.tags fun t _ => Writes.cast (Writes.emit _) ?_
    simp [textLine, endl, decU64_eq]
  · rw [hb.tags, ← he2]
    refine writes_rows Double.zero _ (by omega) (by rw [hb.data, he2]) fun j i hj hi hbd => ?_
    refine Writes.lift (vecGet_ok (idx_toNat (by omega)) hbd) ?_
    rw [u64_last hi]
    exact Writes.bind (Writes.emit _) (Writes.emit _)

theorem saveNodes_lines (cfg : Cfg) {n : Nodes} (h : n.Good cfg) :
    Writes (saveNodesAscii41 cfg n) (lineText (nodes41Lines cfg.fmt n)) := by
  unfold saveNodesAscii41 nodes41Lines
  rw [loopBlocks_eq _ _ _ h.blocks.symm, lineText_cons, lineText_flatMap]
  refine Writes.bind (Writes.cast (Writes.emit _) ?_) (Writes.forW _ fun b hb => saveNodeBlock_lines cfg (h.ok b hb) (h.fitsB b hb).2)
  rw [h.blocks]
  simp [textLine, endl, decU64_eq]

theorem saveElementBlock_lines (cfg : Cfg) {b : ElementBlock} (hb : b.Ok) (hc : b.data.length ≤ cfg.maxCount) :
    Writes (saveElementBlockAscii41 b) (lineText (elementBlockLines b)) := by
  have hlt := cfg.maxCount_lt
  obtain ⟨n, hn, hl⟩ := hb.data
  obtain ⟨hn1, hn2, _⟩ := nodesPerElement_of_mshNodes hn
  obtain ⟨e1, e2⟩ := nodes_succ hn2
  unfold saveElementBlockAscii41 elementBlockLines
  rw [lineText_cons, elementBlockLines_eq hn hl]
  refine Writes.bind (Writes.cast (Writes.emit _) ?_) (Writes.lift hn1 ?_)
  · simp [textLine, endl, decI32_eq, decU64_eq]
  · rw [e2]
    refine writes_rows 0 _ (by omega) (by rw [hl]) fun j i hj hi hbd => ?_
    have hi' : (UInt64.ofNat j * (UInt64.ofNat n + 1) + UInt64.ofNat i).toNat = j * (n + 1) + i := by
      rw [idx_toNat (by rw [e1]; omega), e1]
    refine Writes.lift (vecGet_ok hi' hbd) ?_
    have : UInt64.ofNat i = UInt64.ofNat n ↔ i + 1 = n + 1 := by
      rw [← UInt64.toNat_inj, ofNat_toNat_lt (by omega), e2]
      omega
    simp only [this, ← decU64_eq]
    exact Writes.bind (Writes.emit _) (Writes.emit _)

theorem saveElements_lines (cfg : Cfg) {n : Elements} (h : n.Good cfg) :
    Writes (saveElementsAscii41 n) (lineText (elements41Lines n)) := by
  unfold saveElementsAscii41 elements41Lines
  rw [loopBlocks_eq _ _ _ h.blocks.symm, lineText_cons, lineText_flatMap]
  refine Writes.bind (Writes.cast (Writes.emit _) ?_) (Writes.forW _ fun b hb => saveElementBlock_lines cfg (h.ok b hb) (h.fitsB b hb))
  rw [h.blocks]
  simp [textLine, endl, decU64_eq]

theorem saveDataEntry_line (cfg : Cfg) (isEN : Bool) {e : DataEntry} (h : e.data ≠ []) :
    Writes (saveDataEntryAscii cfg isEN e) (textLine (dataEntryWords cfg.fmt isEN e)) := by
  unfold saveDataEntryAscii dataEntryWords
  rw [textLine_append _ (by simp [h]), ← spacedLine_eq _ h, decU64_eq]
  refine (Writes.bind (Writes.emit _) (Writes.bind (Writes.when (Writes.emit _)) (Writes.emit _))).cast ?_
  cases isEN <;> simp [onlyIf, decI32_eq]

theorem saveData_lines (cfg : Cfg) {f : MeshFormat} (ht : f.fileType = 0) (isEN : Bool) {d : Data} (hfit : d.Fits cfg)
    (hne : ∀ e ∈ d.entries, e.data ≠ []) :
    Writes (saveData cfg f isEN d) (lineText ((dataHeadWords cfg.fmt d.header).map (fun w => [w]) ++
      d.entries.map (dataEntryWords cfg.fmt isEN))) := by
  obtain ⟨c1, c2, c3, -, -⟩ := hfit.get
  have := cfg.maxCount_lt
  unfold saveData
  rw [lineText_append, lineText_map, lineText_map]
  refine Writes.bind (saveDataHeader_lines cfg (by omega) (by omega) (by omega)) ?_
  rw [if_neg (by rw [ht]; decide)]
  exact Writes.forW d.entries fun e he => saveDataEntry_line cfg isEN (hne e he)

theorem saveDataSections_lines (cfg : Cfg) {f : MeshFormat} (ht : f.fileType = 0)
    (name : Bytes) (isEN : Bool) (ds : List Data) (hfit : ∀ d ∈ ds, d.Fits cfg) (hne : ∀ d ∈ ds, ∀ e ∈ d.entries, e.data ≠ []) :
    Writes (whenW (ds.length > 0) (saveDataSections cfg f name isEN ds)) (lineText (ds.flatMap (dataLines cfg.fmt name isEN))) := by
  rw [lineText_flatMap]
  refine Writes.cast (writes_only (len_iff ds) (b := ds.flatMap fun d => lineText (dataLines cfg.fmt name isEN d)) fun _ => ?_) ?_
  · refine Writes.forW ds fun d hd => ?_
    unfold dataLines
    rw [lineText_section]
    exact writes_section rfl rfl (saveData_lines cfg ht isEN (hfit d hd) (hne d hd))
  · cases ds <;> simp [onlyIf]

/-! ## The extension -/

theorem saveKnots_lines (cfg : Cfg) (data : List Double) (hlt : data.length < 2 ^ 64) :
    ∀ (ks : List UInt64) (start : UInt64), data.length = start.toNat + (ks.map (·.toNat)).sum →
    Writes (saveControl.saveKnots cfg data start ks) (lineText ((data.drop start.toNat).map fun x => [fmtDouble cfg.fmt x])) := by
  intro ks
  induction ks with
  | nil =>
    intro start h
    simp only [List.map_nil, List.sum_nil, Nat.add_zero] at h
    rw [← h, List.drop_length]
    exact Writes.pure
  | cons k ks ih =>
    intro start h
    simp only [List.map_cons, List.sum_cons] at h
    have hs : (start + k).toNat = start.toNat + k.toNat := add_toNat (by omega)
    have hd : data.drop start.toNat = (data.drop start.toNat).take k.toNat ++ data.drop (start + k).toNat := by
      rw [hs, ← List.drop_drop, List.take_append_drop]
    rw [hd, List.map_append, lineText_append]
    refine Writes.bind (writes_singles Double.zero _ (by omega) fun i hi hb => ?_) (ih (start + k) (by omega))
    have hidx : (start + UInt64.ofNat i).toNat = start.toNat + i := by
      rw [add_toNat (by rw [ofNat_toNat_lt (by omega)]; omega), ofNat_toNat_lt (by omega)]
    exact Writes.lift (vecGet_ok hidx hb) (Writes.emit _)

theorem saveControl_lines (cfg : Cfg) (data : List Double) (hlt : data.length < 2 ^ 64) (n w : UInt64)
    (ks : List UInt64) (h : data.length = n.toNat * (if w = 0 then 3 else 4) + (ks.map (·.toNat)).sum) :
    Writes (saveControl cfg data n (if 0 < w then 4 else 3) ks) (lineText (controlLines cfg.fmt n w data)) := by
  unfold saveControl controlLines
  simp only
  rw [lineText_append]
  rw [← weights_pos] at h ⊢
  have h3 : 0 < (if 0 < w then (4 : UInt64) else 3).toNat := by rw [weights_pos]; split <;> omega
  generalize hd : (if 0 < w then (4 : UInt64) else 3) = dim at h h3 ⊢
  have hm : (n * dim).toNat = n.toNat * dim.toNat := mul_toNat (by omega)
  rw [← hm]
  refine Writes.bind (writes_rows Double.zero _ h3 (by omega) fun j i hj hi hb => ?_) (saveKnots_lines cfg data hlt ks (n * dim) (by omega))
  refine Writes.lift (vecGet_ok (idx_toNat (by omega)) hb) ?_
  have : UInt64.ofNat i + 1 = dim ↔ i + 1 = dim.toNat := by
    have hdl := dim.toNat_lt
    rw [← UInt64.toNat_inj, add_toNat (by rw [ofNat_toNat_lt (by omega)]; show i + 1 < _; omega), ofNat_toNat_lt (by omega)]
    rfl
  simp only [this]
  exact Writes.bind (Writes.emit _) (Writes.emit _)

theorem writes_assert {cfg : Cfg} {c : Bool} (h : c = true) : Writes (assertW cfg c) [] := by
  subst h
  unfold assertW
  simp
  exact Writes.pure

theorem saveCurve_lines (cfg : Cfg) {c : Curve} (h : c.Ok) (hlt : c.data.length < 2 ^ 64) :
    Writes (saveCurveAscii cfg c)
      (lineText (curveHeadWords c :: controlLines cfg.fmt c.numControlPoints c.withWeights c.data)) := by
  have hl := h.entries hlt
  unfold saveCurveAscii
  rw [lineText_cons, ← curvePairs_line, curveHeaderText_eq]
  refine Writes.bind (Writes.emit _) (Writes.bind (x := []) (writes_assert (by simp [eq_sizeU hl])) (saveControl_lines cfg _ hlt _ _ _ ?_))
  simpa [Curve.Ok] using h

theorem savePatch_lines (cfg : Cfg) {c : Patch} (h : c.Ok) (hlt : c.data.length < 2 ^ 64) :
    Writes (savePatchAscii cfg c)
      (lineText (patchHeadWords c :: controlLines cfg.fmt c.numControlPoints c.withWeights c.data)) := by
  have hl := h.entries hlt
  unfold savePatchAscii
  rw [lineText_cons, ← patchPairs_line, patchHeaderText_eq]
  refine Writes.bind (Writes.emit _) (Writes.bind (x := []) (writes_assert (by simp [eq_sizeU hl])) (saveControl_lines cfg _ hlt _ _ _ ?_))
  simp only [Patch.Ok] at h
  simp [h, Nat.add_assoc]

theorem count_line {α : Type} {v : List α} (h : v.length < 2 ^ 60) : Writes (emit (decU64 (sizeU v) ++ endl)) (textLine [natText v.length]) :=
  Writes.cast (Writes.emit _) (by rw [decSize_eq h]; rfl)

theorem saveCurves_lines (cfg : Cfg) {f : MeshFormat} (ht : f.fileType = 0) {cs : List Curve} (hc : cs.length ≤ cfg.maxCount)
    (hok : ∀ c ∈ cs, c.Ok ∧ c.data.length ≤ cfg.maxCount) :
    Writes (saveCurves cfg f cs) (lineText (sectionLines (b! "Curves") ([natText cs.length] ::
      cs.flatMap fun c => curveHeadWords c :: controlLines cfg.fmt c.numControlPoints c.withWeights c.data))) := by
  have hlt := cfg.maxCount_lt
  unfold saveCurves
  simp only [if_pos ht]
  rw [← Wr.bind_assoc (emit (decU64 (sizeU cs) ++ endl)), lineText_section, lineText_cons, lineText_flatMap]
  exact writes_section (name := b! "Curves") rfl rfl (Writes.bind (count_line (by omega)) (Writes.forW _ fun c hm =>
    saveCurve_lines cfg (hok c hm).1 (by have := (hok c hm).2; omega)))

theorem savePatches_lines (cfg : Cfg) {f : MeshFormat} (ht : f.fileType = 0) {cs : List Patch} (hc : cs.length ≤ cfg.maxCount)
    (hok : ∀ c ∈ cs, c.Ok ∧ c.data.length ≤ cfg.maxCount) :
    Writes (savePatches cfg f cs) (lineText (sectionLines (b! "Patches") ([natText cs.length] ::
      cs.flatMap fun c => patchHeadWords c :: controlLines cfg.fmt c.numControlPoints c.withWeights c.data))) := by
  have hlt := cfg.maxCount_lt
  unfold savePatches
  simp only [if_pos ht]
  rw [← Wr.bind_assoc (emit (decU64 (sizeU cs) ++ endl)), lineText_section, lineText_cons, lineText_flatMap]
  exact writes_section (name := b! "Patches") rfl rfl (Writes.bind (count_line (by omega)) (Writes.forW _ fun c hm =>
    savePatch_lines cfg (hok c hm).1 (by have := (hok c hm).2; omega)))

/-- Every entry of every data section has a value. -/
def MshSpec.NoEmptyEntry (s : MshSpec) : Prop :=
  ∀ d ∈ s.nodeData ++ s.elementData ++ s.elementNodeData, ∀ e ∈ d.entries, e.data ≠ []

theorem saveTail_lines (cfg : Cfg) {s : MshSpec} (ht : s.meshFormat.fileType = 0) (hs : s.Ok) (hf : s.Fits cfg) (hne : s.NoEmptyEntry) :
    Writes (saveTail cfg s) (lineText (tailLines cfg.nanospline cfg.fmt s)) := by
  unfold saveTail tailLines
  rw [List.append_assoc, List.append_assoc, lineText_append, lineText_append, lineText_append, lineText_onlyIf, lineText_append, lineText_append,
    lineText_onlyIf, lineText_onlyIf, List.append_assoc, lineText_section (b! "NanoSplineFormat")]
  refine Writes.bind (saveDataSections_lines cfg ht _ _ _ (fun d h => hf.data (by simp [h])) fun d h => hne d (by simp [h]))
    (Writes.bind (saveDataSections_lines cfg ht _ _ _ (fun d h => hf.data (by simp [h])) fun d h => hne d (by simp [h]))
    (Writes.bind (saveDataSections_lines cfg ht _ _ _ (fun d h => hf.data (by simp [h])) fun d h => hne d (by simp [h]))
    (writes_only Iff.rfl fun hn => ?_)))
  refine Writes.bind (writes_section (name := b! "NanoSplineFormat") rfl rfl (Writes.cast (Writes.emit _) (by simp [lineText, textLine, endl])))
    (Writes.bind (writes_only (len_iff _) fun _ => ?_) (writes_only (len_iff _) fun _ => ?_))
  · exact saveCurves_lines cfg ht (hf.len (by simp)) fun c hc => ⟨hs.curve c hc, (hs.tailFits hf).1 c hc⟩
  · exact savePatches_lines cfg ht (hf.len (by simp)) fun c hc => ⟨hs.patch c hc, (hs.tailFits hf).2 c hc⟩

/-! ## Whole files -/

theorem saveMsh_lines41 (cfg : Cfg) {s : MshSpec} (hfmt : s.meshFormat = ⟨b! "4.1", 0, 8⟩) (hs : s.Ok) (hf : s.Fits cfg)
    (hne : s.NoEmptyEntry) : Writes (saveMsh cfg s) (lineText (lines41 cfg.nanospline cfg.fmt s)) := by
  have hlt := cfg.maxCount_lt
  have hv : s.meshFormat.version = b! "4.1" := by rw [hfmt]
  have ht : s.meshFormat.fileType = 0 := by rw [hfmt]
  rw [saveMsh_eq]
  unfold lines41
  simp only [List.append_assoc]
  rw [lineText_append, lineText_append, lineText_append, lineText_append, lineText_append, lineText_onlyIf, lineText_onlyIf, lineText_onlyIf]
  refine Writes.bind ((saveMeshFormat_lines ht).cast (by rw [hfmt]; rfl)) (Writes.bind (saveNames_lines cfg hf)
    (Writes.bind (writes_only (any_iff _) fun _ => ?_) (Writes.bind (writes_only (pos_iff _) fun _ => ?_)
    (Writes.bind (writes_only (pos_iff _) fun _ => ?_) (saveTail_lines cfg ht hs hf hne)))))
  · unfold saveEntities
    rw [if_neg (by rw [hv]; decide), if_pos hv, if_pos ht, lineText_section]
    exact writes_section (name := b! "Entities") rfl rfl (saveEntities_lines cfg fun n hn => by have := hf.entities n hn; omega)
  · unfold saveNodes
    rw [if_pos hv, if_pos ht, lineText_section]
    exact writes_section (name := b! "Nodes") rfl rfl (saveNodes_lines cfg (hs.goodNodes hf))
  · unfold saveElements
    rw [if_pos hv, if_pos ht, lineText_section]
    exact writes_section (name := b! "Elements") rfl rfl (saveElements_lines cfg (hs.goodElements hf))

/-! ## Version 2.2 -/

theorem saveNodeBlock22_lines (cfg : Cfg) {b : NodeBlock} (hb : b.Ok) (hc : b.data.length ≤ cfg.maxCount) :
    Writes (saveNodeBlockAscii22 cfg b) (lineText (b.list.map (node22Words cfg.fmt))) := by
  have hlt := cfg.maxCount_lt
  obtain ⟨e, he, he2, he3⟩ := entriesPerNode_ok hb.dim
  unfold saveNodeBlockAscii22
  refine Writes.lift he ?_
  rw [lineText_map, b.list_eq, List.flatMap_map, ← hb.tags]
  refine Writes.loopW _ 0 fun j _ hj => ?_
  have hj : j < b.tags.length := by omega
  have hbd := hb.bound hj
  rw [← he2] at hbd ⊢
  have i0 : (UInt64.ofNat j * e).toNat = j * e.toNat := idx_mul (by omega)
  have i1 : (UInt64.ofNat j * e + 1).toNat = j * e.toNat + 1 := idx_toNat (k := 1) (by omega)
  have i2 : (UInt64.ofNat j * e + 2).toNat = j * e.toNat + 2 := idx_toNat (k := 2) (by omega)
  have g : ∀ k (h : k < b.data.length), b.data.getD k Double.zero = b.data[k] := fun k h => by simp [h]
  have htl : b.tags.length ≤ b.data.length := by
    rw [hb.data, ← hb.tags]
    exact Nat.le_mul_of_pos_right _ (by have := coords_ge b; omega)
  have gt : b.tags.getD j 0 = b.tags[j] := by simp [hj]
  rw [g _ (by omega), g _ (by omega), g _ (by omega), gt]
  refine Writes.cast (Writes.lift (vecGet_ok (ofNat_toNat_lt (by omega)) hj) (Writes.bind (Writes.emit _)
    (Writes.lift (vecGet_ok i0 (by omega)) (Writes.bind (Writes.emit _) (Writes.lift (vecGet_ok i1 (by omega))
    (Writes.bind (Writes.emit _) (Writes.lift (vecGet_ok i2 (by omega)) (Writes.emit _)))))))) ?_
  simp [node22Words, textLine, decU64_eq, endl]

theorem saveElementBlock22_lines (cfg : Cfg) {b : ElementBlock} (hb : b.Ok) (hc : b.data.length ≤ cfg.maxCount) :
    Writes (saveElementBlockAscii22 b) (lineText (b.list.map element22Words)) := by
  have hlt := cfg.maxCount_lt
  obtain ⟨n, hn, hl⟩ := hb.data
  obtain ⟨hn1, hn2, hn3⟩ := nodesPerElement_of_mshNodes hn
  obtain ⟨e1, e2⟩ := nodes_succ hn2
  unfold saveElementBlockAscii22
  refine Writes.lift hn1 ?_
  rw [lineText_map, b.list_eq hn, List.flatMap_map]
  refine Writes.loopW _ 0 fun j _ hj => ?_
  have hj : j < b.numElementsInBlock.toNat := by omega
  have hbd := elem_bound hl hj
  have i0 : (UInt64.ofNat j * (UInt64.ofNat n + 1)).toNat = j * (n + 1) := by rw [idx_mul (by rw [e1]; omega), e1]
  have h0 : j * (n + 1) < b.data.length := by omega
  have g : ∀ k (h : k < b.data.length), b.data.getD k 0 = b.data[k] := fun k h => by simp [h]
  refine Writes.lift (vecGet_ok i0 h0) ?_
  unfold element22Words
  rw [textLine_append _ (by
    intro h
    have := congrArg List.length h
    simp at this
    omega)]
  refine Writes.bind (Writes.cast (Writes.emit _) ?_) ?_
  · show _ = List.flatMap _ [natText (b.data.getD (j * (n + 1)) 0).toNat, _, _, _]
    rw [g _ h0, decU64_eq, decI32_eq b.elementType, decI32_eq b.entityTag]
    simp
    rfl
  · rw [drop_take_eq (by omega), List.map_map, e2]
    refine writes_row _ (by omega) fun k hk => ?_
    have hl : j * (n + 1) + k + 1 < b.data.length := by omega
    have i1 : (UInt64.ofNat j * (UInt64.ofNat n + 1) + UInt64.ofNat k + 1).toNat = j * (n + 1) + k + 1 := by
      have := idx_toNat (j := j) (k := k) (e := UInt64.ofNat n + 1) (by rw [e1]; omega)
      rw [e1] at this
      rw [add_toNat (by rw [this]; simp; omega), this]; rfl
    refine Writes.lift (vecGet_ok i1 hl) ?_
    rw [u64_last (by rw [e2]; exact hk), e2]
    show Writes _ (natText (b.data.getD (j * (n + 1) + k + 1) 0).toNat ++ _)
    rw [g _ hl, ← decU64_eq]
    exact Writes.bind (Writes.emit _) (Writes.emit _)

theorem saveMsh_lines22 (cfg : Cfg) {s : MshSpec} (hv : s.meshFormat.version = b! "2.2") (ht : s.meshFormat.fileType = 0)
    (hs : s.Ok) (hf : s.Fits cfg) (hc : s.Counted) (hne : s.NoEmptyEntry) :
    Writes (saveMsh cfg s) (lineText (lines22 cfg.nanospline cfg.fmt s)) := by
  have hlt := cfg.maxCount_lt
  have hgn := hs.goodNodes hf
  have hge := hs.goodElements hf
  rw [saveMsh_eq]
  unfold lines22
  simp only [List.append_assoc]
  rw [lineText_append, lineText_append, lineText_append, lineText_append, lineText_onlyIf, lineText_onlyIf]
  refine Writes.bind ((saveMeshFormat_lines ht).cast (by rw [hv])) (Writes.bind (saveNames_lines cfg hf)
    ((Writes.bind (x := []) ?_ (Writes.bind (writes_only (pos_iff _) fun _ => ?_)
    (Writes.bind (writes_only (pos_iff _) fun _ => ?_) (saveTail_lines cfg ht hs hf hne)))).cast (List.nil_append _)))
  · unfold saveEntities whenW
    rw [if_pos hv, ite_self]
    exact Writes.pure
  · unfold saveNodes saveNodesAscii22
    rw [if_neg (by rw [hv]; decide), if_pos hv, if_pos ht, loopBlocks_eq _ _ _ hgn.blocks.symm, lineText_section, lineText_cons]
    refine writes_section (name := b! "Nodes") rfl rfl (Writes.bind (Writes.cast (Writes.emit _) ?_) ?_)
    · rw [decU64_eq, hc.nodes_list hs]; rfl
    · unfold Nodes.list
      rw [List.map_flatMap, lineText_flatMap]
      exact Writes.forW _ fun b hb => saveNodeBlock22_lines cfg (hgn.ok b hb) (hgn.fitsB b hb).2
  · unfold saveElements saveElementsAscii22
    rw [if_neg (by rw [hv]; decide), if_pos hv, if_pos ht, loopBlocks_eq _ _ _ hge.blocks.symm, lineText_section, lineText_cons]
    refine writes_section (name := b! "Elements") rfl rfl (Writes.bind (Writes.cast (Writes.emit _) ?_) ?_)
    · rw [decU64_eq, hc.elements_list]; rfl
    · unfold Elements.list
      rw [List.map_flatMap, lineText_flatMap]
      exact Writes.forW _ fun b hb => saveElementBlock22_lines cfg (hge.ok b hb) (hge.fitsB b hb)

end MshIO
