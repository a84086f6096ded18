import Verif.Proofs.Nano

/-!
# Whole files
-/

namespace MshIO

/-! ## The sections after `$Elements` -/

/-- The second half of `saveMsh`. -/
def saveTail (cfg : Cfg) (s : MshSpec) : Wr Unit :=
  whenW (s.nodeData.length > 0) (saveDataSections cfg s.meshFormat (b! "NodeData") false s.nodeData) >>= fun _ =>
  whenW (s.elementData.length > 0)
    (saveDataSections cfg s.meshFormat (b! "ElementData") false s.elementData) >>= fun _ =>
  whenW (s.elementNodeData.length > 0)
    (saveDataSections cfg s.meshFormat (b! "ElementNodeData") true s.elementNodeData) >>= fun _ =>
  whenW cfg.nanospline (saveNanosplineFormat s.nanosplineVersion >>= fun _ =>
    whenW (s.curves.length > 0) (saveCurves cfg s.meshFormat s.curves) >>= fun _ =>
    whenW (s.patches.length > 0) (savePatches cfg s.meshFormat s.patches))

theorem saveMsh_eq (cfg : Cfg) (s : MshSpec) : saveMsh cfg s =
    saveMeshFormat s.meshFormat >>= fun _ =>
    whenW (s.physicalGroups.length > 0) (savePhysicalGroups s.physicalGroups) >>= fun _ =>
    whenW (!s.entities.empty) (saveEntities cfg s.meshFormat s.entities) >>= fun _ =>
    whenW (s.nodes.numNodes > 0) (saveNodes cfg s.meshFormat s.nodes) >>= fun _ =>
    whenW (s.elements.numElements > 0) (saveElements s.meshFormat s.elements) >>= fun _ =>
    saveTail cfg s := rfl

/-- What the tail sections add to a spec. -/
def MshSpec.withTail (ext : Bool) (t : UInt64 → UInt64) (f g : Double → Double) (s s0 : MshSpec) : MshSpec :=
  { s0 with
    nodeData := s.nodeData.map (Data.convert false t f g)
    elementData := s.elementData.map (Data.convert false t f g)
    elementNodeData := s.elementNodeData.map (Data.convert true t f g)
    nanosplineVersion := if ext then s.nanosplineVersion else b! "1.0"
    curves := if ext then s.curves.map (Curve.convert g) else []
    patches := if ext then s.patches.map (Patch.convert g) else [] }

/-- Requirements on the tail sections. -/
structure MshSpec.TailOk (cfg : Cfg) (s : MshSpec) : Prop where
  nd : s.nodeData.length ≤ cfg.maxCount
  ed : s.elementData.length ≤ cfg.maxCount
  end' : s.elementNodeData.length ≤ cfg.maxCount
  ndOk : ∀ d ∈ s.nodeData, d.Ok false ∧ d.Fits cfg
  edOk : ∀ d ∈ s.elementData, d.Ok false ∧ d.Fits cfg
  endOk : ∀ d ∈ s.elementNodeData, d.Ok true ∧ d.Fits cfg
  cs : s.curves.length ≤ cfg.maxCount
  ps : s.patches.length ≤ cfg.maxCount
  csOk : ∀ c ∈ s.curves, c.Ok ∧ c.data.length ≤ cfg.maxCount
  psOk : ∀ c ∈ s.patches, c.Ok ∧ c.data.length ≤ cfg.maxCount
  word : cfg.nanospline = true → Word s.nanosplineVersion

theorem mem_sizes {s : MshSpec} {n : Nat} :
    n ∈ s.sizes ↔ n ∈ [s.physicalGroups.length, s.entities.points.length, s.entities.curves.length,
   s.entities.surfaces.length, s.entities.volumes.length, s.nodes.entityBlocks.length,
   s.elements.entityBlocks.length, s.nodeData.length, s.elementData.length,
   s.elementNodeData.length, s.curves.length, s.patches.length] ∨
  n ∈ s.entities.points.map (·.physicalGroupTags.length) ∨
  n ∈ (s.entities.curves ++ s.entities.surfaces ++ s.entities.volumes).flatMap
    (fun b => [b.physicalGroupTags.length, b.boundaryTags.length]) ∨
  n ∈ s.nodes.entityBlocks.flatMap (fun b => [b.tags.length, b.data.length]) ∨
  n ∈ s.elements.entityBlocks.map (·.data.length) ∨
  n ∈ (s.nodeData ++ s.elementData ++ s.elementNodeData).flatMap Data.sizes ∨
  n ∈ s.curves.map (·.data.length) ∨ n ∈ s.patches.map (·.data.length) := by
  unfold MshSpec.sizes
  simp only [List.mem_append, or_assoc]

theorem MshSpec.Fits.data {cfg : Cfg} {s : MshSpec} (hf : s.Fits cfg) {d : Data}
    (h : d ∈ s.nodeData ++ s.elementData ++ s.elementNodeData) : d.Fits cfg := by
  intro n hn
  refine hf.all n (mem_sizes.mpr ?_)
  exact Or.inr (Or.inr (Or.inr (Or.inr (Or.inr (Or.inl (List.mem_flatMap.mpr ⟨d, h, hn⟩))))))

theorem MshSpec.Fits.len {cfg : Cfg} {s : MshSpec} (hf : s.Fits cfg) {n : Nat}
    (h : n ∈ [s.physicalGroups.length, s.entities.points.length, s.entities.curves.length,
   s.entities.surfaces.length, s.entities.volumes.length, s.nodes.entityBlocks.length,
   s.elements.entityBlocks.length, s.nodeData.length, s.elementData.length,
   s.elementNodeData.length, s.curves.length, s.patches.length]) : n ≤ cfg.maxCount :=
  hf.all n (mem_sizes.mpr (Or.inl h))

theorem MshSpec.Ok.tail {cfg : Cfg} {s : MshSpec} (hs : s.Ok) (hf : s.Fits cfg)
    (hw : cfg.nanospline = true → Word s.nanosplineVersion) : s.TailOk cfg where
  nd := hf.len (by simp)
  ed := hf.len (by simp)
  end' := hf.len (by simp)
  ndOk d hd := ⟨hs.nodeData d hd, hf.data (by simp [hd])⟩
  edOk d hd := ⟨hs.elementData d hd, hf.data (by simp [hd])⟩
  endOk d hd := ⟨hs.elementNodeData d hd, hf.data (by simp [hd])⟩
  cs := hf.len (by simp)
  ps := hf.len (by simp)
  csOk c hc := ⟨hs.curve c hc, hf.all _ (mem_sizes.mpr (Or.inr (Or.inr (Or.inr (Or.inr (Or.inr (Or.inr
    (Or.inl (List.mem_map.mpr ⟨c, hc, rfl⟩)))))))))⟩
  psOk c hc := ⟨hs.patch c hc, hf.all _ (mem_sizes.mpr (Or.inr (Or.inr (Or.inr (Or.inr (Or.inr (Or.inr
    (Or.inr (List.mem_map.mpr ⟨c, hc, rfl⟩)))))))))⟩
  word := hw

theorem MshSpec.Ok.goodNodes {cfg : Cfg} {s : MshSpec} (hs : s.Ok) (hf : s.Fits cfg) : s.nodes.Good cfg where
  blocks := hs.nodeBlocks
  ok := hs.node
  fits := hf.len (by simp)
  fitsB b hb := by
    have : ∀ n ∈ [b.tags.length, b.data.length], n ≤ cfg.maxCount := fun n hn =>
      hf.all n (mem_sizes.mpr (Or.inr (Or.inr (Or.inr (Or.inl (List.mem_flatMap.mpr ⟨b, hb, hn⟩))))))
    exact ⟨this _ (by simp), this _ (by simp)⟩

theorem MshSpec.Ok.goodElements {cfg : Cfg} {s : MshSpec} (hs : s.Ok) (hf : s.Fits cfg) :
    s.elements.Good cfg where
  blocks := hs.elementBlocks
  ok := hs.element
  fits := hf.len (by simp)
  fitsB b hb := hf.all _ (mem_sizes.mpr (Or.inr (Or.inr (Or.inr (Or.inr (Or.inl
    (List.mem_map.mpr ⟨b, hb, rfl⟩)))))))

theorem MshSpec.Fits.entities {cfg : Cfg} {s : MshSpec} (hf : s.Fits cfg) :
    ∀ n ∈ s.entities.sizes, n ≤ cfg.maxCount := by
  intro n hn
  unfold Entities.sizes at hn
  rcases List.mem_append.mp hn with hn | hn
  · rcases List.mem_append.mp hn with hn | hn
    · refine hf.len ?_
      simp only [List.mem_cons, List.not_mem_nil, or_false] at hn ⊢
      rcases hn with h | h | h | h <;> simp [h]
    · exact hf.all n (mem_sizes.mpr (Or.inr (Or.inl hn)))
  · exact hf.all n (mem_sizes.mpr (Or.inr (Or.inr (Or.inl hn))))

theorem len_zero {α : Type} {v : List α} (h : decide (v.length > 0) = false) : v = [] := by
  cases v with
  | nil => rfl
  | cons a v => simp at h

theorem u64_zero {n : UInt64} (h : decide (n > 0) = false) : n = 0 := by
  have h : ¬ 0 < n := by simpa using h
  apply UInt64.toNat_inj.mp
  rw [UInt64.lt_iff_toNat_lt] at h
  simp at h ⊢; omega

theorem u64_pos {n : UInt64} (h : decide (n > 0) = true) : n ≠ 0 := by
  rintro rfl
  exact absurd h (by decide)

/-- Specs before the tail sections. -/
structure MshSpec.Fresh (s0 : MshSpec) : Prop where
  nd : s0.nodeData = []
  ed : s0.elementData = []
  end' : s0.elementNodeData = []
  cs : s0.curves = []
  ps : s0.patches = []
  nv : s0.nanosplineVersion = b! "1.0"

/-- Tokens of the sections of the extension. -/
def extToks (P : Fmt) (s : MshSpec) : List Bytes :=
  ((36 :: b! "NanoSplineFormat") :: ([s.nanosplineVersion] ++ [endTag (b! "NanoSplineFormat")])) ++
  ((if decide (s.curves.length > 0) = true then (36 :: b! "Curves") :: (([decU64 (sizeU s.curves)] ++
      s.curves.flatMap fun c => curveToks c ++ c.data.map (fmtDouble P)) ++ [endTag (b! "Curves")]) else []) ++
   (if decide (s.patches.length > 0) = true then (36 :: b! "Patches") :: (([decU64 (sizeU s.patches)] ++
      s.patches.flatMap fun c => patchToks c ++ c.data.map (fmtDouble P)) ++ [endTag (b! "Patches")]) else []))

/-- Tokens of the tail sections. -/
def tailToks (ext : Bool) (P : Fmt) (s : MshSpec) : List Bytes :=
  (if decide (s.nodeData.length > 0) = true then s.nodeData.flatMap (dataSecToks P (b! "NodeData") false) else []) ++
  ((if decide (s.elementData.length > 0) = true then s.elementData.flatMap (dataSecToks P (b! "ElementData") false) else []) ++
  ((if decide (s.elementNodeData.length > 0) = true then s.elementNodeData.flatMap (dataSecToks P (b! "ElementNodeData") true) else []) ++
  (if ext = true then extToks P s else [])))

/-- Tokens of the format and the names. -/
def openToks (s : MshSpec) : List Bytes :=
  ((36 :: b! "MeshFormat") :: ([s.meshFormat.version, decI32 s.meshFormat.fileType, decI32 s.meshFormat.dataSize] ++ [endTag (b! "MeshFormat")]))

/-- Tokens of the names. -/
def nameToks (s : MshSpec) : List Bytes :=
  if decide (s.physicalGroups.length > 0) = true then
    (36 :: b! "PhysicalNames") :: ((decU64 (sizeU s.physicalGroups) :: s.physicalGroups.flatMap groupToks) ++ [endTag (b! "PhysicalNames")]) else []

/-- Tokens of the sections between the format and the tail sections, version 4.1; then `ts`. -/
def restToks41 (P : Fmt) (s : MshSpec) (ts : List Bytes) : List Bytes :=
  (nameToks s ++
  ((if (!s.entities.empty) = true then (36 :: b! "Entities") :: (entitiesToks P s.entities ++ [endTag (b! "Entities")]) else []) ++
  ((if decide (s.nodes.numNodes > 0) = true then (36 :: b! "Nodes") :: (nodesToks P s.nodes ++ [endTag (b! "Nodes")]) else []) ++
  ((if decide (s.elements.numElements > 0) = true then (36 :: b! "Elements") :: (elementsToks s.elements ++ [endTag (b! "Elements")]) else []) ++ ts))))

/-- Tokens of the sections before the tail sections, version 4.1; then `ts`. -/
abbrev headToks41 (P : Fmt) (s : MshSpec) (ts : List Bytes) : List Bytes := openToks s ++ restToks41 P s ts

theorem slt_tail (cfg : Cfg) {rd : Double → Double} (s s0 : MshSpec) (hm : s0.meshFormat = s.meshFormat)
    (ht : s.meshFormat.fileType = 0) (h : s.TailOk cfg) (h0 : s0.Fresh)
    (hr : ∀ x ∈ s.realTags, DTok cfg.fmt rd x)
    (hd : ∀ d ∈ s.nodeData ++ s.elementData ++ s.elementNodeData, ∀ e ∈ d.entries, ∀ x ∈ e.data,
      DTok cfg.fmt rd x)
    (hcs : cfg.nanospline = true → ∀ c ∈ s.curves, ∀ x ∈ c.data, DTok cfg.fmt rd x)
    (hps : cfg.nanospline = true → ∀ c ∈ s.patches, ∀ x ∈ c.data, DTok cfg.fmt rd x) :
    SLT cfg (tailToks cfg.nanospline cfg.fmt s) (saveTail cfg s) s0 (MshSpec.withTail cfg.nanospline id rd rd s s0) := by
  have hr' : ∀ d ∈ s.nodeData ++ s.elementData ++ s.elementNodeData, ∀ x ∈ d.header.realTags,
      DTok cfg.fmt rd x := fun d hd x hx => hr x (List.mem_flatMap.mpr ⟨d, hd, hx⟩)
  have hn : ∀ n, ([] : List Data).length + n ≤ cfg.maxCount ↔ n ≤ cfg.maxCount := by simp
  have h1 := slt_dataSections cfg nodeDataField (rd := rd) s.nodeData s0 (by rw [hm]; exact ht)
    (by show s0.nodeData.length + _ ≤ _; rw [h0.nd]; simpa using h.nd)
    (fun d hd => (h.ndOk d hd).1) (fun d hd => (h.ndOk d hd).2)
    (fun d hm => hr' d (by simp [hm])) (fun d hm => hd d (by simp [hm]))
  generalize e1 : nodeDataField.set s0 _ = s1 at h1
  replace e1 : s1 = { s0 with nodeData := s.nodeData.map (Data.convert false id rd rd) } := by
    rw [← e1]; show ({ s0 with nodeData := s0.nodeData ++ _ } : MshSpec) = _; rw [h0.nd]; rfl
  have h2 := slt_dataSections cfg elementDataField (rd := rd) s.elementData s1 (by rw [e1]; show s0.meshFormat.fileType = 0; rw [hm]; exact ht)
    (by show s1.elementData.length + _ ≤ _; rw [e1]; show s0.elementData.length + _ ≤ _; rw [h0.ed]; simpa using h.ed)
    (fun d hd => (h.edOk d hd).1) (fun d hd => (h.edOk d hd).2)
    (fun d hm => hr' d (by simp [hm])) (fun d hm => hd d (by simp [hm]))
  generalize e2 : elementDataField.set s1 _ = s2 at h2
  replace e2 : s2 = { s1 with elementData := s.elementData.map (Data.convert false id rd rd) } := by
    rw [← e2]; show ({ s1 with elementData := s1.elementData ++ _ } : MshSpec) = _
    rw [e1]; show ({ s0 with nodeData := _, elementData := s0.elementData ++ _ } : MshSpec) = _; rw [h0.ed]; rfl
  have h3 := slt_dataSections cfg elementNodeDataField (rd := rd) s.elementNodeData s2
    (by rw [e2, e1]; show s0.meshFormat.fileType = 0; rw [hm]; exact ht)
    (by show s2.elementNodeData.length + _ ≤ _; rw [e2, e1]; show s0.elementNodeData.length + _ ≤ _; rw [h0.end']; simpa using h.end')
    (fun d hd => (h.endOk d hd).1) (fun d hd => (h.endOk d hd).2)
    (fun d hm => hr' d (by simp [hm])) (fun d hm => hd d (by simp [hm]))
  generalize e3 : elementNodeDataField.set s2 _ = s3 at h3
  replace e3 : s3 = { s2 with elementNodeData := s.elementNodeData.map (Data.convert true id rd rd) } := by
    rw [← e3]; show ({ s2 with elementNodeData := s2.elementNodeData ++ _ } : MshSpec) = _
    rw [e2, e1]; show ({ s0 with nodeData := _, elementData := _, elementNodeData := s0.elementNodeData ++ _ } : MshSpec) = _
    rw [h0.end']; rfl
  have m1 : s1.meshFormat = s.meshFormat := by rw [e1]; exact hm
  have m2 : s2.meshFormat = s.meshFormat := by rw [e2]; exact m1
  have m3 : s3.meshFormat = s.meshFormat := by rw [e3]; exact m2
  have c3 : s3.curves = [] := by rw [e3, e2, e1]; exact h0.cs
  have p3 : s3.patches = [] := by rw [e3, e2, e1]; exact h0.ps
  have v3 : s3.nanosplineVersion = b! "1.0" := by rw [e3, e2, e1]; exact h0.nv
  rw [hm] at h1; rw [m1] at h2; rw [m2] at h3
  unfold saveTail
  refine SLT.bind (SLT.when (s2 := s1) (fun _ => h1) fun hz => ?_)
    (SLT.bind (SLT.when (s2 := s2) (fun _ => h2) fun hz => ?_)
    (SLT.bind (SLT.when (s2 := s3) (fun _ => h3) fun hz => ?_) ?_))
  · rw [e1, len_zero hz, List.map_nil, ← h0.nd]
  · rw [e2, len_zero hz, List.map_nil, e1, ← h0.ed]
  · rw [e3, len_zero hz, List.map_nil, e2, e1, ← h0.end']
  have et : MshSpec.withTail cfg.nanospline id rd rd s s0 =
      { s3 with nanosplineVersion := if cfg.nanospline then s.nanosplineVersion else b! "1.0"
                curves := if cfg.nanospline then s.curves.map (Curve.convert rd) else []
                patches := if cfg.nanospline then s.patches.map (Patch.convert rd) else [] } := by
    rw [e3, e2, e1]; rfl
  rw [et]
  clear et e1 e2 e3 h1 h2 h3
  refine SLT.when (fun hn => ?_) fun hn => ?_
  · simp only [hn, if_true]
    refine SLT.bind (slt_nanosplineFormat cfg s3 _ (h.word hn)) (SLT.bind
      (SLT.when (s2 := { s3 with nanosplineVersion := s.nanosplineVersion,
                                 curves := s.curves.map (Curve.convert rd) }) (fun _ => ?_) fun hz => ?_)
      (SLT.when (fun _ => ?_) fun hz => ?_))
    · have := slt_curves cfg hn (rd := rd) { s3 with nanosplineVersion := s.nanosplineVersion }
        (by show s3.meshFormat.fileType = 0; rw [m3]; exact ht) c3 s.curves h.cs
        (fun c hc => (h.csOk c hc).1) (fun c hc => (h.csOk c hc).2) (hcs hn)
      rw [← m3]; exact this
    · rw [len_zero hz, List.map_nil, ← c3]
    · have := slt_patches cfg hn (rd := rd) { s3 with nanosplineVersion := s.nanosplineVersion, curves := s.curves.map (Curve.convert rd) }
        (by show s3.meshFormat.fileType = 0; rw [m3]; exact ht) p3 s.patches h.ps
        (fun c hc => (h.psOk c hc).1) (fun c hc => (h.psOk c hc).2) (hps hn)
      rw [← m3]; exact this
    · rw [len_zero hz, List.map_nil, ← p3]
  · simp only [hn]
    clear m1 m2 h0 hm
    cases s3
    simp_all

/-- The tail sections. -/
def tailSecs (cfg : Cfg) (s : MshSpec) : List (Bytes × Bytes) :=
  (if decide (s.nodeData.length > 0) = true then s.nodeData.map fun d => (b! "NodeData", (saveData cfg s.meshFormat false d).1) else []) ++
  ((if decide (s.elementData.length > 0) = true then
      s.elementData.map fun d => (b! "ElementData", (saveData cfg s.meshFormat false d).1) else []) ++
  ((if decide (s.elementNodeData.length > 0) = true then
      s.elementNodeData.map fun d => (b! "ElementNodeData", (saveData cfg s.meshFormat true d).1) else []) ++
  (if cfg.nanospline = true then [(b! "NanoSplineFormat", s.nanosplineVersion ++ endl)] ++
    ((if decide (s.curves.length > 0) = true then [(b! "Curves", decU64 (sizeU s.curves) ++ endl ++
        s.curves.flatMap fun c => flat (curvePairs c) ++ c.data.flatMap encDouble)] else []) ++
     (if decide (s.patches.length > 0) = true then [(b! "Patches", decU64 (sizeU s.patches) ++ endl ++
        s.patches.flatMap fun c => flat (patchPairs c) ++ c.data.flatMap encDouble)] else [])) else [])))

/-- The format and the names. -/
def openSecs (s : MshSpec) : List (Bytes × Bytes) :=
  [(b! "MeshFormat", s.meshFormat.version ++ [32] ++ decI32 s.meshFormat.fileType ++ [32] ++ decI32 s.meshFormat.dataSize ++
    endl ++ encI32 1)]

/-- The names. -/
def nameSecs (s : MshSpec) : List (Bytes × Bytes) :=
  if decide (s.physicalGroups.length > 0) = true then [(b! "PhysicalNames", namesText s.physicalGroups)] else []

/-- The sections between the format and the tail sections, version 4.1; then `ts`. -/
def restSecs41 (s : MshSpec) (ts : List (Bytes × Bytes)) : List (Bytes × Bytes) :=
  (nameSecs s ++
  ((if (!s.entities.empty) = true then [(b! "Entities", entitiesEnc s.entities)] else []) ++
  ((if decide (s.nodes.numNodes > 0) = true then [(b! "Nodes", nodesEnc s.nodes)] else []) ++
  ((if decide (s.elements.numElements > 0) = true then [(b! "Elements", elementsEnc s.elements)] else []) ++ ts))))

/-- The sections before the tail sections, version 4.1; then `ts`. -/
abbrev headSecs41 (s : MshSpec) (ts : List (Bytes × Bytes)) : List (Bytes × Bytes) := openSecs s ++ restSecs41 s ts

theorem sls_tail (cfg : Cfg) {rd : Double → Double} (s s0 : MshSpec) (hm : s0.meshFormat = s.meshFormat)
    (ht : 0 < s.meshFormat.fileType)
    (hv : s.meshFormat.version = b! "4.1" ∨ s.meshFormat.version = b! "2.2") (h : s.TailOk cfg) (h0 : s0.Fresh)
    (hr : ∀ x ∈ s.realTags, DTok cfg.fmt rd x) :
    SLS cfg (tailSecs cfg s) (saveTail cfg s) s0 (MshSpec.withTail cfg.nanospline wrap32 rd id s s0) := by
  have hr' : ∀ d ∈ s.nodeData ++ s.elementData ++ s.elementNodeData, ∀ x ∈ d.header.realTags,
      DTok cfg.fmt rd x := fun d hd x hx => hr x (List.mem_flatMap.mpr ⟨d, hd, hx⟩)
  have hn : ∀ n, ([] : List Data).length + n ≤ cfg.maxCount ↔ n ≤ cfg.maxCount := by simp
  have h1 := sls_dataSections cfg nodeDataField (rd := rd) s.nodeData s0 (by rw [hm]; exact ht) (by rw [hm]; exact hv)
    (by show s0.nodeData.length + _ ≤ _; rw [h0.nd]; simpa using h.nd)
    (fun d hd => (h.ndOk d hd).1) (fun d hd => (h.ndOk d hd).2)
    (fun d hm => hr' d (by simp [hm]))
  generalize e1 : nodeDataField.set s0 _ = s1 at h1
  replace e1 : s1 = { s0 with nodeData := s.nodeData.map (Data.convert false wrap32 rd id) } := by
    rw [← e1]; show ({ s0 with nodeData := s0.nodeData ++ _ } : MshSpec) = _; rw [h0.nd]; rfl
  have h2 := sls_dataSections cfg elementDataField (rd := rd) s.elementData s1 (by rw [e1]; show 0 < s0.meshFormat.fileType; rw [hm]; exact ht)
    (by rw [e1]; show s0.meshFormat.version = _ ∨ s0.meshFormat.version = _; rw [hm]; exact hv)
    (by show s1.elementData.length + _ ≤ _; rw [e1]; show s0.elementData.length + _ ≤ _; rw [h0.ed]; simpa using h.ed)
    (fun d hd => (h.edOk d hd).1) (fun d hd => (h.edOk d hd).2)
    (fun d hm => hr' d (by simp [hm]))
  generalize e2 : elementDataField.set s1 _ = s2 at h2
  replace e2 : s2 = { s1 with elementData := s.elementData.map (Data.convert false wrap32 rd id) } := by
    rw [← e2]; show ({ s1 with elementData := s1.elementData ++ _ } : MshSpec) = _
    rw [e1]; show ({ s0 with nodeData := _, elementData := s0.elementData ++ _ } : MshSpec) = _; rw [h0.ed]; rfl
  have h3 := sls_dataSections cfg elementNodeDataField (rd := rd) s.elementNodeData s2
    (by rw [e2, e1]; show 0 < s0.meshFormat.fileType; rw [hm]; exact ht)
    (by rw [e2, e1]; show s0.meshFormat.version = _ ∨ s0.meshFormat.version = _; rw [hm]; exact hv)
    (by show s2.elementNodeData.length + _ ≤ _; rw [e2, e1]; show s0.elementNodeData.length + _ ≤ _; rw [h0.end']; simpa using h.end')
    (fun d hd => (h.endOk d hd).1) (fun d hd => (h.endOk d hd).2)
    (fun d hm => hr' d (by simp [hm]))
  generalize e3 : elementNodeDataField.set s2 _ = s3 at h3
  replace e3 : s3 = { s2 with elementNodeData := s.elementNodeData.map (Data.convert true wrap32 rd id) } := by
    rw [← e3]; show ({ s2 with elementNodeData := s2.elementNodeData ++ _ } : MshSpec) = _
    rw [e2, e1]; show ({ s0 with nodeData := _, elementData := _, elementNodeData := s0.elementNodeData ++ _ } : MshSpec) = _
    rw [h0.end']; rfl
  have m1 : s1.meshFormat = s.meshFormat := by rw [e1]; exact hm
  have m2 : s2.meshFormat = s.meshFormat := by rw [e2]; exact m1
  have m3 : s3.meshFormat = s.meshFormat := by rw [e3]; exact m2
  have c3 : s3.curves = [] := by rw [e3, e2, e1]; exact h0.cs
  have p3 : s3.patches = [] := by rw [e3, e2, e1]; exact h0.ps
  have v3 : s3.nanosplineVersion = b! "1.0" := by rw [e3, e2, e1]; exact h0.nv
  rw [hm] at h1; rw [m1] at h2; rw [m2] at h3
  unfold saveTail
  refine SLS.bind (SLS.when (s2 := s1) (fun _ => h1) fun hz => ?_)
    (SLS.bind (SLS.when (s2 := s2) (fun _ => h2) fun hz => ?_)
    (SLS.bind (SLS.when (s2 := s3) (fun _ => h3) fun hz => ?_) ?_))
  · rw [e1, len_zero hz, List.map_nil, ← h0.nd]
  · rw [e2, len_zero hz, List.map_nil, e1, ← h0.ed]
  · rw [e3, len_zero hz, List.map_nil, e2, e1, ← h0.end']
  have et : MshSpec.withTail cfg.nanospline wrap32 rd id s s0 =
      { s3 with nanosplineVersion := if cfg.nanospline then s.nanosplineVersion else b! "1.0"
                curves := if cfg.nanospline then s.curves else []
                patches := if cfg.nanospline then s.patches else [] } := by
    have i1 : Curve.convert id = id := by funext c; exact c.convert_id
    have i2 : Patch.convert id = id := by funext c; exact c.convert_id
    rw [e3, e2, e1]; simp only [MshSpec.withTail, i1, i2, List.map_id]
  rw [et]
  clear et e1 e2 e3 h1 h2 h3
  refine SLS.when (fun hn => ?_) fun hn => ?_
  · simp only [hn, if_true]
    refine SLS.bind (sls_nanosplineFormat cfg s3 _ (h.word hn)) (SLS.bind
      (SLS.when (s2 := { s3 with nanosplineVersion := s.nanosplineVersion,
                                 curves := s.curves }) (fun _ => ?_) fun hz => ?_)
      (SLS.when (fun _ => ?_) fun hz => ?_))
    · have := sls_curves cfg hn { s3 with nanosplineVersion := s.nanosplineVersion }
        (by show s3.meshFormat.fileType ≠ 0; rw [m3]; rintro h; rw [h] at ht; exact absurd ht (by decide)) c3 s.curves h.cs
        (fun c hc => (h.csOk c hc).1) (fun c hc => (h.csOk c hc).2)
      rw [← m3]; exact this
    · rw [len_zero hz, ← c3]
    · have := sls_patches cfg hn { s3 with nanosplineVersion := s.nanosplineVersion, curves := s.curves }
        (by show s3.meshFormat.fileType ≠ 0; rw [m3]; rintro h; rw [h] at ht; exact absurd ht (by decide)) p3 s.patches h.ps
        (fun c hc => (h.psOk c hc).1) (fun c hc => (h.psOk c hc).2)
      rw [← m3]; exact this
    · rw [len_zero hz, ← p3]
  · simp only [hn]
    clear m1 m2 h0 hm
    cases s3
    simp_all

/-! ## Whole v4.1 files -/

/-- The first four optional sections. -/
def MshSpec.mid41 (g : Double → Double) (s : MshSpec) : MshSpec :=
  { meshFormat := s.meshFormat
    physicalGroups := s.physicalGroups
    entities := s.entities.convert g
    nodes := if s.nodes.numNodes = 0 then {} else s.nodes.convert g
    elements := if s.elements.numElements = 0 then {} else s.elements }

theorem MshSpec.convert_eq (ext : Bool) (t : UInt64 → UInt64) (f g : Double → Double) (s : MshSpec) :
    s.convert ext t f g = MshSpec.withTail ext t f g s (s.mid41 g) := rfl

theorem entities_empty {e : Entities} (h : (!e.empty) = false) : e = {} := by
  obtain ⟨a, b, c, d⟩ := e
  simp only [Entities.empty, Bool.not_eq_false', Bool.and_eq_true, List.isEmpty_iff] at h
  simp [h]

theorem slt_msh41_rest (cfg : Cfg) {rd : Double → Double} (s : MshSpec)
    (hv : s.meshFormat.version = b! "4.1") (ht : s.meshFormat.fileType = 0)
    (hs : s.Ok) (hf : s.Fits cfg)
    (hpar : cfg.asserts = true → ∀ b ∈ s.nodes.entityBlocks, 0 ≤ b.parametric.toInt ∧ b.parametric.toInt ≤ 3)
    (hde : ∀ d ∈ s.entities.doubles, DTok cfg.fmt rd d)
    (hdn : ∀ b ∈ s.nodes.entityBlocks, ∀ d ∈ b.data, DTok cfg.fmt rd d)
    {ts : List Bytes} {w : Wr Unit} {s' : MshSpec} (hw : SLT cfg ts w (s.mid41 rd) s') :
    SLT cfg (restToks41 cfg.fmt s ts) (
      whenW (s.physicalGroups.length > 0) (savePhysicalGroups s.physicalGroups) >>= fun _ =>
      whenW (!s.entities.empty) (saveEntities cfg s.meshFormat s.entities) >>= fun _ =>
      whenW (s.nodes.numNodes > 0) (saveNodes cfg s.meshFormat s.nodes) >>= fun _ =>
      whenW (s.elements.numElements > 0) (saveElements s.meshFormat s.elements) >>= fun _ => w) { meshFormat := s.meshFormat } s' := by
  refine (SLT.bind (SLT.when (s2 := { meshFormat := s.meshFormat, physicalGroups := s.physicalGroups })
      (fun _ => slt_physicalNames cfg _ _ rfl hf.groups (hf.len (by simp))) fun hz => ?_)
    (SLT.bind (SLT.when (s2 := { meshFormat := s.meshFormat, physicalGroups := s.physicalGroups, entities := s.entities.convert rd })
      (fun _ => slt_entities cfg { meshFormat := s.meshFormat, physicalGroups := s.physicalGroups } _ hv ht rfl
        hf.entities hde) fun hz => ?_)
    (SLT.bind (SLT.when (s2 := { meshFormat := s.meshFormat, physicalGroups := s.physicalGroups, entities := s.entities.convert rd, nodes := if s.nodes.numNodes = 0 then {} else s.nodes.convert rd })
      (fun hp => ?_) fun hz => ?_)
    (SLT.bind (SLT.when (s2 := s.mid41 rd) (fun hp => ?_) fun hz => ?_) hw))))
  · rw [len_zero hz]
  · rw [entities_empty hz]; rfl
  · rw [if_neg (u64_pos hp)]
    exact slt_nodes41 cfg { meshFormat := s.meshFormat, physicalGroups := s.physicalGroups, entities := s.entities.convert rd } _ hv ht rfl (hs.goodNodes hf) hpar hdn
  · rw [if_pos (u64_zero hz)]
  · unfold MshSpec.mid41
    rw [if_neg (u64_pos hp)]
    exact slt_elements41 cfg { meshFormat := s.meshFormat, physicalGroups := s.physicalGroups, entities := s.entities.convert rd, nodes := if s.nodes.numNodes = 0 then {} else s.nodes.convert rd } _ hv ht rfl (hs.goodElements hf)
  · unfold MshSpec.mid41
    rw [if_pos (u64_zero hz)]

theorem slt_msh41_head (cfg : Cfg) {rd : Double → Double} (s : MshSpec)
    (hv : s.meshFormat.version = b! "4.1") (ht : s.meshFormat.fileType = 0) (h8 : s.meshFormat.dataSize = 8)
    (hs : s.Ok) (hf : s.Fits cfg)
    (hpar : cfg.asserts = true → ∀ b ∈ s.nodes.entityBlocks, 0 ≤ b.parametric.toInt ∧ b.parametric.toInt ≤ 3)
    (hde : ∀ d ∈ s.entities.doubles, DTok cfg.fmt rd d)
    (hdn : ∀ b ∈ s.nodes.entityBlocks, ∀ d ∈ b.data, DTok cfg.fmt rd d)
    {ts : List Bytes} {w : Wr Unit} {s' : MshSpec} (hw : SLT cfg ts w (s.mid41 rd) s') :
    SLT cfg (headToks41 cfg.fmt s ts) (saveMeshFormat s.meshFormat >>= fun _ =>
      whenW (s.physicalGroups.length > 0) (savePhysicalGroups s.physicalGroups) >>= fun _ =>
      whenW (!s.entities.empty) (saveEntities cfg s.meshFormat s.entities) >>= fun _ =>
      whenW (s.nodes.numNodes > 0) (saveNodes cfg s.meshFormat s.nodes) >>= fun _ =>
      whenW (s.elements.numElements > 0) (saveElements s.meshFormat s.elements) >>= fun _ => w) {} s' :=
  SLT.bind (slt_meshFormat cfg {} s.meshFormat (Or.inr hv) ht fun _ => h8) (slt_msh41_rest cfg s hv ht hs hf hpar hde hdn hw)

theorem MshSpec.mid41_fresh (g : Double → Double) (s : MshSpec) : (s.mid41 g).Fresh :=
  ⟨rfl, rfl, rfl, rfl, rfl, rfl⟩

theorem mem_doubles {s : MshSpec} {x : Double} :
    x ∈ s.doubles ↔ x ∈ s.entities.doubles ∨ x ∈ s.nodes.entityBlocks.flatMap (·.data) ∨
      x ∈ s.realTags ∨ x ∈ (s.nodeData ++ s.elementData ++ s.elementNodeData).flatMap
        (fun d => d.entries.flatMap (·.data)) ∨ x ∈ s.curves.flatMap (·.data) ∨ x ∈ s.patches.flatMap (·.data) := by
  unfold MshSpec.doubles Entities.doubles
  simp only [List.mem_append, or_assoc]

/-- The whole v4.1 ASCII file. -/
theorem slt_msh41 (cfg : Cfg) {rd : Double → Double} (s : MshSpec)
    (hv : s.meshFormat.version = b! "4.1") (ht : s.meshFormat.fileType = 0) (h8 : s.meshFormat.dataSize = 8)
    (hs : s.Ok) (hf : s.Fits cfg)
    (hpar : cfg.asserts = true → ∀ b ∈ s.nodes.entityBlocks, 0 ≤ b.parametric.toInt ∧ b.parametric.toInt ≤ 3)
    (hw : cfg.nanospline = true → Word s.nanosplineVersion)
    (hd : ∀ x ∈ s.doubles, DTok cfg.fmt rd x) :
    SLT cfg (headToks41 cfg.fmt s (tailToks cfg.nanospline cfg.fmt s)) (saveMsh cfg s) {} (s.convert cfg.nanospline id rd rd) := by
  rw [saveMsh_eq, MshSpec.convert_eq]
  refine slt_msh41_head cfg s hv ht h8 hs hf hpar (fun d h => hd d (mem_doubles.mpr (Or.inl h)))
    (fun b hb d h => hd d (mem_doubles.mpr (Or.inr (Or.inl (List.mem_flatMap.mpr ⟨b, hb, h⟩)))))
    (slt_tail cfg s _ rfl ht (hs.tail hf hw) (s.mid41_fresh rd)
      (fun x h => hd x (mem_doubles.mpr (Or.inr (Or.inr (Or.inl h)))))
      (fun d hdm e he x hx => hd x (mem_doubles.mpr (Or.inr (Or.inr (Or.inr (Or.inl
        (List.mem_flatMap.mpr ⟨d, hdm, List.mem_flatMap.mpr ⟨e, he, hx⟩⟩)))))))
      (fun _ c hc x hx => hd x (mem_doubles.mpr (Or.inr (Or.inr (Or.inr (Or.inr (Or.inl
        (List.mem_flatMap.mpr ⟨c, hc, hx⟩))))))))
      (fun _ c hc x hx => hd x (mem_doubles.mpr (Or.inr (Or.inr (Or.inr (Or.inr (Or.inr
        (List.mem_flatMap.mpr ⟨c, hc, hx⟩)))))))))

theorem sls_msh41_rest (cfg : Cfg) (s : MshSpec)
    (hv : s.meshFormat.version = b! "4.1") (ht : s.meshFormat.fileType = 1)
    (hs : s.Ok) (hf : s.Fits cfg)
    {ts : List (Bytes × Bytes)} {w : Wr Unit} {s' : MshSpec} (hw : SLS cfg ts w (s.mid41 id) s') :
    SLS cfg (restSecs41 s ts) (
      whenW (s.physicalGroups.length > 0) (savePhysicalGroups s.physicalGroups) >>= fun _ =>
      whenW (!s.entities.empty) (saveEntities cfg s.meshFormat s.entities) >>= fun _ =>
      whenW (s.nodes.numNodes > 0) (saveNodes cfg s.meshFormat s.nodes) >>= fun _ =>
      whenW (s.elements.numElements > 0) (saveElements s.meshFormat s.elements) >>= fun _ => w) { meshFormat := s.meshFormat } s' := by
  have ht0 : s.meshFormat.fileType ≠ 0 := by rw [ht]; decide
  have hmid : s.mid41 id = { meshFormat := s.meshFormat, physicalGroups := s.physicalGroups, entities := s.entities, nodes := if s.nodes.numNodes = 0 then {} else s.nodes, elements := if s.elements.numElements = 0 then {} else s.elements } := by
    unfold MshSpec.mid41; rw [Entities.convert_id, Nodes.convert_id]
  rw [hmid] at hw
  refine (SLS.bind (SLS.when (s2 := { meshFormat := s.meshFormat, physicalGroups := s.physicalGroups })
      (fun _ => sls_physicalNames cfg _ _ rfl hf.groups (hf.len (by simp))) fun hz => ?_)
    (SLS.bind (SLS.when (s2 := { meshFormat := s.meshFormat, physicalGroups := s.physicalGroups, entities := s.entities })
      (fun _ => sls_entities cfg { meshFormat := s.meshFormat, physicalGroups := s.physicalGroups } _ hv ht0 rfl
        hf.entities) fun hz => ?_)
    (SLS.bind (SLS.when (s2 := { meshFormat := s.meshFormat, physicalGroups := s.physicalGroups, entities := s.entities, nodes := if s.nodes.numNodes = 0 then {} else s.nodes })
      (fun hp => ?_) fun hz => ?_)
    (SLS.bind (SLS.when (fun hp => ?_) fun hz => ?_) hw))))
  · rw [len_zero hz]
  · rw [entities_empty hz]
  · rw [if_neg (u64_pos hp)]
    exact sls_nodes41 cfg { meshFormat := s.meshFormat, physicalGroups := s.physicalGroups, entities := s.entities } _ hv ht0 rfl (hs.goodNodes hf)
  · rw [if_pos (u64_zero hz)]
  · rw [if_neg (u64_pos hp)]
    exact sls_elements41 cfg { meshFormat := s.meshFormat, physicalGroups := s.physicalGroups, entities := s.entities, nodes := if s.nodes.numNodes = 0 then {} else s.nodes } _ hv ht0 rfl (hs.goodElements hf)
  · rw [if_pos (u64_zero hz)]

theorem sls_msh41_head (cfg : Cfg) (s : MshSpec)
    (hv : s.meshFormat.version = b! "4.1") (ht : s.meshFormat.fileType = 1) (h8 : s.meshFormat.dataSize = 8)
    (hs : s.Ok) (hf : s.Fits cfg)
    {ts : List (Bytes × Bytes)} {w : Wr Unit} {s' : MshSpec} (hw : SLS cfg ts w (s.mid41 id) s') :
    SLS cfg (headSecs41 s ts) (saveMeshFormat s.meshFormat >>= fun _ =>
      whenW (s.physicalGroups.length > 0) (savePhysicalGroups s.physicalGroups) >>= fun _ =>
      whenW (!s.entities.empty) (saveEntities cfg s.meshFormat s.entities) >>= fun _ =>
      whenW (s.nodes.numNodes > 0) (saveNodes cfg s.meshFormat s.nodes) >>= fun _ =>
      whenW (s.elements.numElements > 0) (saveElements s.meshFormat s.elements) >>= fun _ => w) {} s' :=
  SLS.bind (sls_meshFormat cfg {} s.meshFormat (Or.inr hv) ht fun _ => h8) (sls_msh41_rest cfg s hv ht hs hf hw)

/-- The whole v4.1 binary file. -/
theorem sls_msh41 (cfg : Cfg) {rd : Double → Double} (s : MshSpec)
    (hv : s.meshFormat.version = b! "4.1") (ht : s.meshFormat.fileType = 1) (h8 : s.meshFormat.dataSize = 8)
    (hs : s.Ok) (hf : s.Fits cfg)
    (hw : cfg.nanospline = true → Word s.nanosplineVersion)
    (hd : ∀ x ∈ s.realTags, DTok cfg.fmt rd x) :
    SLS cfg (headSecs41 s (tailSecs cfg s)) (saveMsh cfg s) {} (s.convert cfg.nanospline wrap32 rd id) := by
  rw [saveMsh_eq, MshSpec.convert_eq]
  exact sls_msh41_head cfg s hv ht h8 hs hf
    (sls_tail cfg s _ rfl (by rw [ht]; decide) (Or.inl hv) (hs.tail hf hw) (s.mid41_fresh id) hd)

theorem SL.load41 {cfg : Cfg} {w : Wr Unit} {s : MshSpec} (h : SL cfg w {} s)
    (hv : s.meshFormat.version = b! "4.1") : ∃ file, w = (file, .ok ()) ∧ loadMsh cfg file = .ok s := by
  obtain ⟨b, hw, hp⟩ := h
  refine ⟨b, hw, ?_⟩
  rw [hp.load]
  unfold loadPostProcess
  rw [if_neg (by rw [hv]; decide)]

end MshIO
