import Verif.Proofs.FormatWords

/-!
# The bytes of saved binary files are those of the layout specification
-/

namespace MshIO

/-! ## Numbers -/

theorem le_eq (k : Nat) : ∀ n, le k n = leBytes k n := by
  induction k with
  | zero => intro n; rfl
  | succ k ih =>
    intro n
    unfold le leBytes
    rw [List.range_succ_eq_map, List.map_cons, List.map_map, ← ih (n / 256)]
    unfold le
    congr 1
    · simp
    · refine List.map_congr_left fun i _ => ?_
      show UInt8.ofNat (n / 256 ^ (i + 1) % 256) = _
      rw [Nat.pow_succ', Nat.div_div_eq_div_mul]

theorem le64_eq (x : UInt64) : le64 x = encU64 x := le_eq 8 _

theorem leDouble_eq (d : Double) : leDouble d = encDouble d := le_eq 8 _

theorem le32_eq (x : Int32) : le32 x = encI32 x := by
  unfold le32 encI32
  rw [le_eq]
  congr 1
  have h := Int32.toInt_bmod x
  have h1 : x.toUInt32.toNat < 2 ^ 32 := x.toUInt32.toNat_lt
  have h2 : x.toInt = (x.toUInt32.toNat : Int).bmod (2 ^ 32) := by
    rw [← UInt32.toNat_toBitVec]
    exact x.toBitVec.toInt_eq_toNat_bmod
  rw [h2, Int.bmod_def]
  split <;> omega

theorem leLow32_eq (x : UInt64) : leLow32 x = encI32 (intOfSize x) := by
  unfold leLow32 encI32
  rw [le_eq]
  simp [intOfSize]

theorem leSize_eq {α : Type} {v : List α} (h : v.length < 2 ^ 60) : le 8 v.length = encU64 (sizeU v) := by
  rw [← le64_eq, le64, sizeU_toNat (by omega)]

/-! ## Sections -/

/-- Sections between their markers. -/
def secBytes (secs : List (Bytes × Bytes)) : Bytes := secs.flatMap fun q => bracketed q.1 q.2

theorem secBytes_append (a b : List (Bytes × Bytes)) : secBytes (a ++ b) = secBytes a ++ secBytes b := by simp [secBytes]

theorem secBytes_one (name b : Bytes) : secBytes [(name, b)] = bracketed name b := by simp [secBytes]

theorem secBytes_only {p : Prop} [Decidable p] (a : List (Bytes × Bytes)) : secBytes (onlyIf p a) = onlyIf p (secBytes a) := by
  unfold onlyIf
  split <;> rfl

theorem secBytes_map {α : Type} (v : List α) (name : Bytes) (f : α → Bytes) :
    secBytes (v.map fun d => (name, f d)) = v.flatMap fun d => bracketed name (f d) := by
  simp [secBytes, List.flatMap_map]

theorem secBytes_file (secs : List (Bytes × Bytes)) : sectionsFile (secs.map fun q => (q, Margin.tight)) = secBytes secs := by
  unfold sectionsFile secBytes
  rw [List.flatMap_map]
  exact flatMap_congr' fun q _ => by simp [bracketed, Margin.tight]


theorem writes_section {name : Bytes} {w : Wr Unit} {b t e : Bytes} (ht : t = b! "$" ++ name ++ endl)
    (he : e = b! "$End" ++ name ++ endl) (hw : Writes w b) :
    Writes (emit t >>= fun _ => w >>= fun _ => emit e) (bracketed name b) := by
  refine Writes.cast (Writes.bind (Writes.emit _) (Writes.bind hw (Writes.emit _))) ?_
  subst ht he
  simp [bracketed, endl]

theorem writes_only {c : Bool} {p : Prop} [Decidable p] (hp : c = true ↔ p) {w : Wr Unit} {b : Bytes} (h : c = true → Writes w b) :
    Writes (whenW c w) (onlyIf p b) := by
  unfold whenW onlyIf
  cases c with
  | true => rw [if_pos (hp.mp rfl)]; exact h rfl
  | false => rw [if_neg (show ¬ p from fun h => by have := hp.mpr h; cases this)]; exact Writes.pure

theorem len_iff {α : Type} (v : List α) : decide (v.length > 0) = true ↔ v ≠ [] := by cases v <;> simp

theorem pos_iff (n : UInt64) : decide (n > 0) = true ↔ n ≠ 0 :=
  ⟨u64_pos, fun h => by
    by_contra h'
    exact h (u64_zero (by simpa using h'))⟩

theorem any_iff (e : Entities) : (!e.empty) = true ↔ e.Any := by
  obtain ⟨a, b, c, d⟩ := e
  unfold Entities.Any Entities.empty
  cases a <;> cases b <;> cases c <;> cases d <;> simp

theorem intListBinary_eq {v : List Int32} (h : v.length < 2 ^ 60) : intListBinary v = tagBytes v := by
  unfold intListBinary tagBytes
  rw [leSize_eq h, flatMap_congr' fun t _ => le32_eq t]

theorem pointEnc_eq {p : PointEntity} (h : p.physicalGroupTags.length < 2 ^ 60) : pointEnc p = pointBytes p := by
  simp [pointEnc, pointBytes, intListBinary_eq h, le32_eq, leDouble_eq]

theorem boxEnc_eq {p : BoxEntity} (h : p.physicalGroupTags.length < 2 ^ 60) (h' : p.boundaryTags.length < 2 ^ 60) :
    boxEnc p = boxBytes p := by
  simp [boxEnc, boxBytes, intListBinary_eq h, intListBinary_eq h', le32_eq, leDouble_eq]

theorem entitiesEnc_eq (e : Entities) (h : ∀ n ∈ e.sizes, n < 2 ^ 60) : entitiesEnc e = entitiesBytes e := by
  have hp : ∀ p ∈ e.points, pointEnc p = pointBytes p := fun p hp => pointEnc_eq (h _ (by
    unfold Entities.sizes
    exact List.mem_append_left _ (List.mem_append_right _ (List.mem_map.mpr ⟨p, hp, rfl⟩))))
  have hb : ∀ p ∈ e.curves ++ e.surfaces ++ e.volumes, boxEnc p = boxBytes p := fun p hp => by
    have : ∀ n ∈ [p.physicalGroupTags.length, p.boundaryTags.length], n < 2 ^ 60 := fun n hn => h n (by
      unfold Entities.sizes
      exact List.mem_append_right _ (List.mem_flatMap.mpr ⟨p, hp, hn⟩))
    exact boxEnc_eq (this _ (by simp)) (this _ (by simp))
  have hl : ∀ n ∈ [e.points.length, e.curves.length, e.surfaces.length, e.volumes.length], n < 2 ^ 60 := fun n hn => h n (by
    unfold Entities.sizes
    exact List.mem_append_left _ (List.mem_append_left _ hn))
  unfold entitiesEnc entitiesBytes
  rw [leSize_eq (hl _ (by simp)), leSize_eq (hl _ (by simp)), leSize_eq (hl _ (by simp)), leSize_eq (hl _ (by simp)),
    flatMap_congr' hp, flatMap_congr' (fun p h => hb p (by simp [h])),
    flatMap_congr' (v := e.surfaces) (fun p h => hb p (by simp [h])),
    flatMap_congr' (v := e.volumes) (fun p h => hb p (by simp [h]))]
  simp

theorem nodeBlockEnc_eq {b : NodeBlock} (h : b.tags.length = b.numNodesInBlock.toNat) : nodeBlockEnc b = nodeBlockBytes b := by
  unfold nodeBlockEnc nodeBlockBytes
  rw [h, show le 8 b.numNodesInBlock.toNat = _ from le64_eq _, flatMap_congr' fun t _ => (le64_eq t).symm,
    flatMap_congr' fun t _ => (leDouble_eq t).symm]
  simp [le32_eq]

theorem nodesEnc_eq {n : Nodes} (h : n.entityBlocks.length = n.numEntityBlocks.toNat) (hb : ∀ b ∈ n.entityBlocks, b.Ok) :
    nodesEnc n = nodes41Bytes n := by
  unfold nodesEnc nodes41Bytes
  rw [h, show le 8 n.numEntityBlocks.toNat = _ from le64_eq _, flatMap_congr' fun b h => nodeBlockEnc_eq (hb b h).tags]
  simp [le64_eq]

theorem elementBlockEnc_eq (b : ElementBlock) : elementBlockEnc b = elementBlockBytes b := by
  unfold elementBlockEnc elementBlockBytes
  rw [flatMap_congr' fun t _ => (le64_eq t).symm]
  simp [le64_eq, le32_eq]

theorem elementsEnc_eq {n : Elements} (h : n.entityBlocks.length = n.numEntityBlocks.toNat) : elementsEnc n = elements41Bytes n := by
  unfold elementsEnc elements41Bytes
  rw [h, show le 8 n.numEntityBlocks.toNat = _ from le64_eq _, flatMap_congr' fun b _ => elementBlockEnc_eq b]
  simp [le64_eq]

/-! ## Data -/

theorem entryEnc_eq (isEN : Bool) (e : DataEntry) : entryEnc isEN e = dataEntryBytes isEN e := by
  unfold entryEnc dataEntryBytes onlyIf
  rw [flatMap_congr' fun t _ => (leDouble_eq t).symm, leLow32_eq, le32_eq]
  simp only [List.append_assoc]

theorem saveDataHeader_lines (cfg : Cfg) {h : DataHeader} (h1 : h.stringTags.length < 2 ^ 60) (h2 : h.realTags.length < 2 ^ 60)
    (h3 : h.intTags.length < 2 ^ 60) :
    Writes (saveDataHeader cfg h) ((dataHeadWords cfg.fmt h).flatMap fun w => textLine [w]) := by
  unfold saveDataHeader
  refine Writes.cast (Writes.bind (Writes.emit _) (Writes.bind (Writes.forW _ fun t _ => Writes.emit _) (Writes.bind (Writes.emit _)
    (Writes.bind (Writes.forW _ fun t _ => Writes.emit _) (Writes.bind (Writes.emit _) (Writes.forW _ fun t _ => Writes.emit _)))))) ?_
  rw [decSize_eq h1, decSize_eq h2, decSize_eq h3]
  simp only [dataHeadWords, quoted_eq, quoted_eq', textLine, List.flatMap_append, List.flatMap_cons, List.flatMap_map, decI32_eq, endl, List.append_assoc]

theorem saveData_bytes (cfg : Cfg) {f : MeshFormat} (ht : 0 < f.fileType) (hv : f.version = b! "4.1" ∨ f.version = b! "2.2")
    (isEN : Bool) {d : Data} (hfit : d.Fits cfg) :
    Writes (saveData cfg f isEN d) ((dataHeadWords cfg.fmt d.header).flatMap (fun w => textLine [w]) ++
      d.entries.flatMap (dataEntryBytes isEN)) := by
  obtain ⟨c1, c2, c3, -, -⟩ := hfit.get
  have := cfg.maxCount_lt
  unfold saveData
  refine Writes.bind (saveDataHeader_lines cfg (by omega) (by omega) (by omega)) ?_
  rw [if_pos ht]
  have := Writes.forW d.entries fun e _ => (saveDataEntryBinary_writes isEN e).cast (entryEnc_eq isEN e)
  rcases hv with hv | hv
  · rw [if_pos hv]; exact this
  · rw [if_neg (by rw [hv]; decide), if_pos hv]; exact this

theorem saveDataSections_bytes (cfg : Cfg) {f : MeshFormat} (ht : 0 < f.fileType) (hv : f.version = b! "4.1" ∨ f.version = b! "2.2")
    (name : Bytes) (isEN : Bool) (ds : List Data) (hfit : ∀ d ∈ ds, d.Fits cfg) :
    Writes (whenW (ds.length > 0) (saveDataSections cfg f name isEN ds)) (ds.flatMap fun d => bracketed name (dataBytes cfg.fmt isEN d)) := by
  refine Writes.cast (writes_only (len_iff ds) (b := ds.flatMap fun d => bracketed name (dataBytes cfg.fmt isEN d)) fun _ => ?_) ?_
  · exact Writes.forW ds fun d hd => writes_section rfl rfl (saveData_bytes cfg ht hv isEN (hfit d hd))
  · cases ds <;> simp [onlyIf]

/-! ## The extension -/

theorem curvePairs_line (c : Curve) : flat (curvePairs c) = textLine (curveHeadWords c) := by
  simp [curvePairs, curveHeadWords, textLine, flat, decU64_eq]

theorem patchPairs_line (c : Patch) : flat (patchPairs c) = textLine (patchHeadWords c) := by
  simp [patchPairs, patchHeadWords, textLine, flat, decU64_eq]

theorem saveCurves_bytes (cfg : Cfg) {f : MeshFormat} (ht : f.fileType ≠ 0) {cs : List Curve} (hc : cs.length ≤ cfg.maxCount)
    (hok : ∀ c ∈ cs, c.Ok ∧ c.data.length ≤ cfg.maxCount) :
    Writes (saveCurves cfg f cs) (bracketed (b! "Curves") (textLine [natText cs.length] ++
      cs.flatMap fun c => textLine (curveHeadWords c) ++ c.data.flatMap leDouble)) := by
  have hlt := cfg.maxCount_lt
  unfold saveCurves
  simp only [if_neg ht]
  rw [← Wr.bind_assoc (emit (decU64 (sizeU cs) ++ endl))]
  refine writes_section (name := b! "Curves") rfl rfl ?_
  refine Writes.bind (x := textLine [natText cs.length]) (Writes.cast (Writes.emit _) (by rw [decSize_eq (by omega)]; rfl)) (Writes.forW _ fun c hm => ?_)
  refine (saveCurveBinary_writes cfg c (hok c hm).1 (by have := (hok c hm).2; omega)).cast ?_
  rw [curvePairs_line, flatMap_congr' fun t _ => (leDouble_eq t).symm]

theorem savePatches_bytes (cfg : Cfg) {f : MeshFormat} (ht : f.fileType ≠ 0) {cs : List Patch} (hc : cs.length ≤ cfg.maxCount)
    (hok : ∀ c ∈ cs, c.Ok ∧ c.data.length ≤ cfg.maxCount) :
    Writes (savePatches cfg f cs) (bracketed (b! "Patches") (textLine [natText cs.length] ++
      cs.flatMap fun c => textLine (patchHeadWords c) ++ c.data.flatMap leDouble)) := by
  have hlt := cfg.maxCount_lt
  unfold savePatches
  simp only [if_neg ht]
  rw [← Wr.bind_assoc (emit (decU64 (sizeU cs) ++ endl))]
  refine writes_section (name := b! "Patches") rfl rfl ?_
  refine Writes.bind (x := textLine [natText cs.length]) (Writes.cast (Writes.emit _) (by rw [decSize_eq (by omega)]; rfl)) (Writes.forW _ fun c hm => ?_)
  refine (savePatchBinary_writes cfg c (hok c hm).1 (by have := (hok c hm).2; omega)).cast ?_
  rw [patchPairs_line, flatMap_congr' fun t _ => (leDouble_eq t).symm]

theorem MshSpec.Ok.tailFits {cfg : Cfg} {s : MshSpec} (_ : s.Ok) (hf : s.Fits cfg) :
    (∀ c ∈ s.curves, c.data.length ≤ cfg.maxCount) ∧ ∀ c ∈ s.patches, c.data.length ≤ cfg.maxCount :=
  ⟨fun c hc => hf.all _ (mem_sizes.mpr (Or.inr (Or.inr (Or.inr (Or.inr (Or.inr (Or.inr
    (Or.inl (List.mem_map.mpr ⟨c, hc, rfl⟩))))))))),
   fun c hc => hf.all _ (mem_sizes.mpr (Or.inr (Or.inr (Or.inr (Or.inr (Or.inr (Or.inr
    (Or.inr (List.mem_map.mpr ⟨c, hc, rfl⟩)))))))))⟩

theorem saveTail_bytes (cfg : Cfg) {s : MshSpec} (ht : 0 < s.meshFormat.fileType)
    (hv : s.meshFormat.version = b! "4.1" ∨ s.meshFormat.version = b! "2.2") (hs : s.Ok) (hf : s.Fits cfg) :
    Writes (saveTail cfg s) (secBytes (tailSections cfg.nanospline cfg.fmt s)) := by
  have ht0 : s.meshFormat.fileType ≠ 0 := by intro h; rw [h] at ht; exact absurd ht (by decide)
  unfold saveTail tailSections
  simp only [secBytes_append, secBytes_map, secBytes_only, secBytes_one]
  rw [List.append_assoc, List.append_assoc]
  refine Writes.bind (saveDataSections_bytes cfg ht hv _ _ _ fun d h => hf.data (by simp [h]))
    (Writes.bind (saveDataSections_bytes cfg ht hv _ _ _ fun d h => hf.data (by simp [h]))
    (Writes.bind (saveDataSections_bytes cfg ht hv _ _ _ fun d h => hf.data (by simp [h]))
    (writes_only Iff.rfl fun hn => ?_)))
  rw [List.append_assoc]
  refine Writes.bind (writes_section (name := b! "NanoSplineFormat") rfl rfl (Writes.emit _))
    (Writes.bind (writes_only (len_iff _) fun _ => ?_) (writes_only (len_iff _) fun _ => ?_))
  · exact saveCurves_bytes cfg ht0 (hf.len (by simp)) fun c hc => ⟨hs.curve c hc, (hs.tailFits hf).1 c hc⟩
  · exact savePatches_bytes cfg ht0 (hf.len (by simp)) fun c hc => ⟨hs.patch c hc, (hs.tailFits hf).2 c hc⟩

/-! ## Whole files -/

theorem saveMeshFormat_bytes {f : MeshFormat} (ht : f.fileType = 1) :
    Writes (saveMeshFormat f) (bracketed (b! "MeshFormat") (textLine [f.version, b! "1", intText f.dataSize.toInt] ++ le 4 1)) := by
  rw [saveMeshFormat_eq]
  refine writes_section (name := b! "MeshFormat") rfl rfl
    ((Writes.bind (Writes.emit _) (Writes.when (Writes.emit _))).cast ?_)
  rw [ht, decI32_eq f.dataSize]
  simp [textLine, endl]
  rfl

theorem saveNames_bytes (cfg : Cfg) {s : MshSpec} (hf : s.Fits cfg) :
    Writes (whenW (s.physicalGroups.length > 0) (savePhysicalGroups s.physicalGroups)) (secBytes (namesSections s)) := by
  have := hf.groups
  rw [namesSections, secBytes_only, secBytes_one]
  refine writes_only (len_iff _) fun _ => ?_
  unfold savePhysicalGroups
  rw [← Wr.bind_assoc (emit (decU64 (sizeU s.physicalGroups) ++ endl))]
  refine writes_section (name := b! "PhysicalNames") rfl rfl
    (Writes.bind (x := textLine [natText s.physicalGroups.length]) (Writes.cast (Writes.emit _) (by rw [decSize_eq (by omega)]; rfl))
      (Writes.forW _ fun g _ => Writes.cast (Writes.emit _) ?_))
  simp [groupWords, textLine, decI32_eq, endl, quoted_eq]

theorem saveMsh_bytes41 (cfg : Cfg) {s : MshSpec} (hfmt : s.meshFormat = ⟨b! "4.1", 1, 8⟩) (hs : s.Ok) (hf : s.Fits cfg) :
    Writes (saveMsh cfg s) (sectionsFile ((sections41 cfg.nanospline cfg.fmt s).map fun q => (q, .tight))) := by
  have hlt := cfg.maxCount_lt
  have hv : s.meshFormat.version = b! "4.1" := by rw [hfmt]
  have ht : s.meshFormat.fileType = 1 := by rw [hfmt]
  have ht0 : ¬ s.meshFormat.fileType = 0 := by rw [hfmt]; decide
  rw [saveMsh_eq, secBytes_file]
  unfold sections41
  simp only [secBytes_append, secBytes_only, secBytes_one, List.append_assoc]
  refine Writes.bind ((saveMeshFormat_bytes ht).cast (by rw [hfmt]; rfl)) (Writes.bind (saveNames_bytes cfg hf)
    (Writes.bind (writes_only (any_iff _) fun _ => ?_) (Writes.bind (writes_only (pos_iff _) fun _ => ?_)
    (Writes.bind (writes_only (pos_iff _) fun _ => ?_) (saveTail_bytes cfg (by rw [ht]; decide) (Or.inl hv) hs hf)))))
  · unfold saveEntities
    rw [if_neg (by rw [hv]; decide), if_pos hv, if_neg ht0]
    exact writes_section (name := b! "Entities") rfl rfl ((saveEntitiesBinary41_writes _).cast
      (entitiesEnc_eq _ fun n hn => by have := hf.entities n hn; omega))
  · unfold saveNodes
    rw [if_pos hv, if_neg ht0]
    exact writes_section (name := b! "Nodes") rfl rfl ((saveNodesBinary41_writes cfg _ (hs.goodNodes hf)).cast (nodesEnc_eq hs.nodeBlocks hs.node))
  · unfold saveElements
    rw [if_pos hv, if_neg ht0]
    exact writes_section (name := b! "Elements") rfl rfl ((saveElementsBinary41_writes _ hs.elementBlocks).cast (elementsEnc_eq hs.elementBlocks))

/-! ## Version 2.2 -/

theorem nodeBytes_eq (n : MeshNode) : nodeBytes n = node22Bytes n := by
  unfold nodeBytes node22Bytes
  rw [leLow32_eq, flatMap_congr' fun t _ => leDouble_eq t]

theorem elemBytes_file (e : MeshElem) : elemBytes e.file = element22Bytes e := by
  unfold elemBytes element22Bytes MeshElem.file
  rw [List.flatMap_map, flatMap_congr' (v := e.nodes) fun t _ => leLow32_eq t, leLow32_eq, le32_eq]
  simp

theorem group_bytes {b : ElementBlock} (h31 : b.numElementsInBlock.toNat < 2 ^ 31) : b.group.bytes = elementBlock22Bytes b := by
  unfold FileGroup.bytes elementBlock22Bytes ElementBlock.group
  have e1 : encI32 (Int32.ofNat (b.list.map MeshElem.file).length) = le 4 b.list.length := by
    rw [← le32_eq, List.length_map, le32, Int32.toInt_ofNat_of_lt (by rw [b.list_length]; exact h31)]
    congr 1
    have := b.list_length
    omega
  rw [e1, List.flatMap_map, flatMap_congr' fun e _ => elemBytes_file e, le32_eq]
  simp only [List.append_assoc]
  rfl

theorem saveMsh_bytes22 (cfg : Cfg) {s : MshSpec} (hv : s.meshFormat.version = b! "2.2") (ht : s.meshFormat.fileType = 1)
    (hs : s.Ok) (hf : s.Fits cfg) (hc : s.Counted)
    (h31 : ∀ b ∈ s.elements.entityBlocks, b.numElementsInBlock.toNat < 2 ^ 31) :
    Writes (saveMsh cfg s) (sectionsFile ((sections22 cfg.nanospline cfg.fmt s).map fun q => (q, .tight))) := by
  have hlt := cfg.maxCount_lt
  have ht0 : ¬ s.meshFormat.fileType = 0 := by rw [ht]; decide
  have hn : s.nodes.list.length < 2 ^ 64 := by rw [← hc.nodes_list hs]; exact s.nodes.numNodes.toNat_lt
  have he : s.elements.list.length < 2 ^ 64 := by rw [← hc.elements_list]; exact s.elements.numElements.toNat_lt
  rw [saveMsh_eq, secBytes_file]
  unfold sections22
  simp only [secBytes_append, secBytes_only, secBytes_one, List.append_assoc]
  refine Writes.bind ((saveMeshFormat_bytes ht).cast (by rw [hv])) (Writes.bind (saveNames_bytes cfg hf)
    ((Writes.bind (x := []) ?_ (Writes.bind (writes_only (pos_iff _) fun _ => ?_)
    (Writes.bind (writes_only (pos_iff _) fun _ => ?_) (saveTail_bytes cfg (by rw [ht]; decide) (Or.inr hv) hs hf)))).cast (List.nil_append _)))
  · unfold saveEntities whenW
    rw [if_pos hv, ite_self]
    exact Writes.pure
  · unfold saveNodes
    rw [if_neg (by rw [hv]; decide), if_pos hv, if_neg ht0]
    refine writes_section (name := b! "Nodes") rfl rfl ((saveNodesBinary22_writes cfg _ (hs.goodNodes hf) (hc.nodes_list hs)).cast ?_)
    rw [decU64_eq, ofNat_toNat_lt hn, flatMap_congr' fun n _ => nodeBytes_eq n]
    rfl
  · unfold saveElements
    rw [if_neg (by rw [hv]; decide), if_pos hv, if_neg ht0]
    refine writes_section (name := b! "Elements") rfl rfl ((saveElementsBinary22_writes cfg _ (hs.goodElements hf) hc.elements_list h31).cast ?_)
    rw [groups_elems, List.length_map, show (s.elements.entityBlocks.flatMap ElementBlock.list).length = s.elements.list.length from rfl,
      decU64_eq, ofNat_toNat_lt he, List.flatMap_map, flatMap_congr' fun b h => group_bytes (h31 b h)]
    rfl

/-! ## Sections of the round-trip lemmas -/

theorem sectionsFile_flatS (parts : List ((Bytes × Bytes) × Margin)) :
    sectionsFile parts = flatS (parts.map fun p => (p.1, (p.2.before, p.2.after))) := by
  unfold sectionsFile flatS
  rw [List.flatMap_map]
  exact flatMap_congr' fun q _ => by simp [endTag]


theorem only_secs {c : Bool} {p : Prop} [Decidable p] (hp : c = true ↔ p) {a b : List (Bytes × Bytes)} (h : p → a = b) :
    (if c = true then a else []) = onlyIf p b := by
  unfold onlyIf
  by_cases hc : c = true
  · rw [if_pos hc, if_pos (hp.mp hc), h (hp.mp hc)]
  · rw [if_neg hc, if_neg fun h => hc (hp.mpr h)]

theorem dataSecs_eq (cfg : Cfg) {f : MeshFormat} (ht : 0 < f.fileType) (hv : f.version = b! "4.1" ∨ f.version = b! "2.2")
    (name : Bytes) (isEN : Bool) (ds : List Data) (hfit : ∀ d ∈ ds, d.Fits cfg) :
    (if decide (ds.length > 0) = true then ds.map fun d => (name, (saveData cfg f isEN d).1) else []) =
      ds.map fun d => (name, dataBytes cfg.fmt isEN d) := by
  rw [List.map_congr_left (g := fun d => (name, dataBytes cfg.fmt isEN d)) fun d hd => by
    rw [show (saveData cfg f isEN d).1 = _ from congrArg Prod.fst (saveData_bytes cfg ht hv isEN (hfit d hd))]; rfl]
  cases ds <;> simp

theorem tailSecs_eq (cfg : Cfg) {s : MshSpec} (ht : 0 < s.meshFormat.fileType)
    (hv : s.meshFormat.version = b! "4.1" ∨ s.meshFormat.version = b! "2.2") (hf : s.Fits cfg) :
    tailSecs cfg s = tailSections cfg.nanospline cfg.fmt s := by
  have hlt := cfg.maxCount_lt
  have h1 : s.curves.length ≤ cfg.maxCount := hf.len (by simp)
  have h2 : s.patches.length ≤ cfg.maxCount := hf.len (by simp)
  unfold tailSecs tailSections
  rw [dataSecs_eq cfg ht hv _ _ _ fun d h => hf.data (by simp [h]), dataSecs_eq cfg ht hv _ _ _ fun d h => hf.data (by simp [h]),
    dataSecs_eq cfg ht hv _ _ _ fun d h => hf.data (by simp [h]), only_secs (len_iff s.curves) fun _ => rfl,
    only_secs (len_iff s.patches) fun _ => rfl, decSize_eq (by omega), decSize_eq (by omega)]
  simp only [curvePairs_line, patchPairs_line, flatMap_congr' fun t _ => (leDouble_eq t).symm, List.append_assoc,
    show ∀ w, textLine [w] = w ++ endl from fun _ => rfl]
  rfl

theorem openSecs_eq {s : MshSpec} (ht : s.meshFormat.fileType = 1) :
    openSecs s = [(b! "MeshFormat", textLine [s.meshFormat.version, b! "1", intText s.meshFormat.dataSize.toInt] ++ le 4 1)] := by
  unfold openSecs
  rw [ht, decI32_eq s.meshFormat.dataSize]
  simp [textLine, endl]
  rfl

theorem nameSecs_eq (cfg : Cfg) {s : MshSpec} (hf : s.Fits cfg) : nameSecs s = namesSections s := by
  have := hf.groups
  refine only_secs (len_iff _) fun _ => ?_
  unfold namesText
  rw [decSize_eq (by omega)]
  simp [groupWords, textLine, decI32_eq, endl, quoted_eq]

theorem secs41_eq (cfg : Cfg) {s : MshSpec} (hfmt : s.meshFormat = ⟨b! "4.1", 1, 8⟩) (hs : s.Ok) (hf : s.Fits cfg) :
    headSecs41 s (tailSecs cfg s) = sections41 cfg.nanospline cfg.fmt s := by
  have hlt := cfg.maxCount_lt
  unfold headSecs41 restSecs41 sections41
  rw [openSecs_eq (by rw [hfmt]), nameSecs_eq cfg hf, tailSecs_eq cfg (by rw [hfmt]; decide) (by rw [hfmt]; exact Or.inl rfl) hf,
    only_secs (any_iff _) fun _ => rfl, only_secs (pos_iff _) fun _ => rfl, only_secs (pos_iff _) fun _ => rfl,
    entitiesEnc_eq _ (fun n hn => by have := hf.entities n hn; omega), nodesEnc_eq hs.nodeBlocks hs.node,
    elementsEnc_eq hs.elementBlocks, hfmt]
  simp only [List.append_assoc]
  rfl

theorem secs22_eq (cfg : Cfg) {s : MshSpec} (hv : s.meshFormat.version = b! "2.2") (ht : s.meshFormat.fileType = 1)
    (hs : s.Ok) (hf : s.Fits cfg) (hc : s.Counted)
    (h31 : ∀ b ∈ s.elements.entityBlocks, b.numElementsInBlock.toNat < 2 ^ 31) :
    headSecs22 s (tailSecs cfg s) = sections22 cfg.nanospline cfg.fmt s := by
  have hn : s.nodes.list.length < 2 ^ 64 := by rw [← hc.nodes_list hs]; exact s.nodes.numNodes.toNat_lt
  have he : s.elements.list.length < 2 ^ 64 := by rw [← hc.elements_list]; exact s.elements.numElements.toNat_lt
  unfold headSecs22 sections22
  rw [openSecs_eq ht, nameSecs_eq cfg hf, tailSecs_eq cfg (by rw [ht]; decide) (Or.inr hv) hf, ite_self,
    only_secs (pos_iff _) fun _ => rfl, only_secs (pos_iff _) fun _ => rfl, groups_elems, List.length_map,
    show (s.elements.entityBlocks.flatMap ElementBlock.list).length = s.elements.list.length from rfl,
    decU64_eq, ofNat_toNat_lt hn, decU64_eq, ofNat_toNat_lt he, List.flatMap_map, flatMap_congr' fun b h => group_bytes (h31 b h),
    flatMap_congr' fun n _ => nodeBytes_eq n, hv]
  simp only [List.append_assoc, List.nil_append, show ∀ w, textLine [w] = w ++ endl from fun _ => rfl]

end MshIO
