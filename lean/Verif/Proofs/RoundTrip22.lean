import Verif.Proofs.Write22

/-!
# Version 2.2 files: saving and loading a whole spec
-/

namespace MshIO

theorem MshSpec.Counted.nodes_list {s : MshSpec} (h : s.Counted) (hs : s.Ok) : s.nodes.numNodes.toNat = s.nodes.list.length := by
  rw [h.nodes, s.nodes.list_length hs.node]

theorem MshSpec.Counted.elements_list {s : MshSpec} (h : s.Counted) : s.elements.numElements.toNat = s.elements.list.length := by
  rw [h.elements, s.elements.list_length]

theorem typed_reload {s : MshSpec} (hs : s.Ok) (w : UInt64 → UInt64) : Typed (s.elems22 w) := by
  intro e he
  obtain ⟨e, he', rfl⟩ := List.mem_map.mp he
  obtain ⟨b, hb, he'⟩ := List.mem_flatMap.mp he'
  refine ⟨?_, rfl⟩
  show mshNodes e.type = some (e.nodes.map w).length
  rw [List.length_map]
  exact (mem_elem_nodes (hs.element b hb) he').2.2.2.2.2

theorem sum_reload (w : UInt64 → UInt64) (es : List MeshElem) :
    ((es.map (MeshElem.reload w)).map fun e => e.nodes.length + 1).sum = (es.map fun e => e.nodes.length + 1).sum := by
  rw [List.map_map]
  congr 1
  refine List.map_congr_left fun e _ => ?_
  simp [MeshElem.reload]

theorem elems22_congr {s : MshSpec} (hs : s.Ok) {w w' : UInt64 → UInt64}
    (h : ∀ b ∈ s.elements.entityBlocks, ∀ t ∈ b.data, w t = w' t) : s.elems22 w = s.elems22 w' := by
  refine List.map_congr_left fun e he => ?_
  obtain ⟨b, hb, he⟩ := List.mem_flatMap.mp he
  obtain ⟨_, _, _, h1, h2, _⟩ := mem_elem_nodes (hs.element b hb) he
  rw [h b hb _ h1, List.map_congr_left fun t ht => h b hb t (h2 t ht)]

theorem mem_block_list {b : NodeBlock} {n : MeshNode} (h : n ∈ b.list) : n.tag ∈ b.tags := by
  rw [b.list_eq] at h
  obtain ⟨i, hi, rfl⟩ := List.mem_map.mp h
  have hi : i < b.tags.length := by simpa using hi
  simp [hi]

theorem nodes22_congr {s : MshSpec} {w w' : UInt64 → UInt64} {g : Double → Double}
    (h : ∀ b ∈ s.nodes.entityBlocks, ∀ t ∈ b.tags, w t = w' t) : s.nodes22 w g = s.nodes22 w' g := by
  refine List.map_congr_left fun n hn => ?_
  obtain ⟨b, hb, hn⟩ := List.mem_flatMap.mp hn
  rw [h b hb _ (mem_block_list hn)]

theorem mem_doubles22 {s : MshSpec} {x : Double} :
    x ∈ s.doubles22 ↔ x ∈ s.nodes.list.flatMap (fun n => [n.x, n.y, n.z]) ∨
      x ∈ s.realTags ∨ x ∈ (s.nodeData ++ s.elementData ++ s.elementNodeData).flatMap
        (fun d => d.entries.flatMap (·.data)) ∨ x ∈ s.curves.flatMap (·.data) ∨ x ∈ s.patches.flatMap (·.data) := by
  unfold MshSpec.doubles22
  simp only [List.mem_append, or_assoc]

/-- The spec in front of the tail sections, before post-processing. -/
def MshSpec.mid22 (ns : List MeshNode) (el : Elements) (s : MshSpec) : MshSpec :=
  { meshFormat := s.meshFormat
    physicalGroups := s.physicalGroups
    nodes := if s.nodes.numNodes = 0 then {} else rawNodes ns
    elements := if s.elements.numElements = 0 then {} else el }

theorem list_nil {n : UInt64} {α : Type} {l : List α} (h : n.toNat = l.length) (hz : n = 0) : l = [] := by
  rw [hz] at h; exact List.length_eq_zero_iff.mp h.symm

theorem post22 (cfg : Cfg) (s : MshSpec) (hv : s.meshFormat.version = b! "2.2") (hs : s.Ok) (hc : s.Counted)
    (ext : Bool) (t w : UInt64 → UInt64) (f g : Double → Double) (el : Elements)
    (hel : el.entityBlocks = (s.elems22 w).map MeshElem.block ∧ el.numEntityBlocks = UInt64.ofNat (s.elems22 w).length ∧
      el.numElements = UInt64.ofNat (s.elems22 w).length)
    (hr : NodesInRange (s.nodes22 w g) (s.elems22 w)) (hf : Fits22 cfg (s.nodes22 w g) (s.elems22 w)) :
    loadPostProcess cfg (MshSpec.withTail ext t f g s (s.mid22 (s.nodes22 w g) el)) =
      .ok { s.convert22 ext t w f g with
        elements := if s.elements.numElements = 0 then {} else
          { elementsOf (s.elems22 w) with minElementTag := el.minElementTag, maxElementTag := el.maxElementTag } } := by
  have hN : s.nodes.numNodes = 0 → s.nodes22 w g = [] := fun hz => by
    show List.map _ _ = _
    rw [list_nil (hc.nodes_list hs) hz]; rfl
  have hE : s.elements.numElements = 0 → s.elems22 w = [] := fun hz => by
    show List.map _ _ = _
    rw [list_nil hc.elements_list hz]; rfl
  rw [loadPostProcess22 cfg (MshSpec.withTail ext t f g s (s.mid22 (s.nodes22 w g) el)) hv (s.nodes22 w g) (s.elems22 w) ?_ ?_ (typed_reload hs w) hr hf]
  · congr 1
    have e1 : (if s.nodes22 w g = [] ∧ (if s.nodes.numNodes = 0 then ({} : Nodes) else rawNodes (s.nodes22 w g)) = {} then ({} : Nodes)
        else nodesOf (s.nodes22 w g) (s.elems22 w)) = if s.nodes.numNodes = 0 then {} else nodesOf (s.nodes22 w g) (s.elems22 w) := by
      by_cases hz : s.nodes.numNodes = 0
      · rw [if_pos ⟨hN hz, by rw [if_pos hz]⟩, if_pos hz]
      · simp only [if_neg hz]
        rw [if_neg]
        rintro ⟨_, h⟩
        have := congrArg Nodes.entityBlocks h
        simp [rawNodes] at this
    have e2 : ({ (if s.elements.numElements = 0 then ({} : Elements) else el) with
        numEntityBlocks := (elementsOf (s.elems22 w)).numEntityBlocks
        entityBlocks := (elementsOf (s.elems22 w)).entityBlocks } : Elements) =
        if s.elements.numElements = 0 then {} else
          { elementsOf (s.elems22 w) with minElementTag := el.minElementTag, maxElementTag := el.maxElementTag } := by
      by_cases hz : s.elements.numElements = 0
      · simp only [if_pos hz, hE hz]; rfl
      · simp only [if_neg hz]
        obtain ⟨_, _, h3⟩ := hel
        cases el
        simp only at h3
        rw [h3]
        rfl
    show MshSpec.mk _ (if s.nodes22 w g = [] ∧ (if s.nodes.numNodes = 0 then ({} : Nodes) else rawNodes (s.nodes22 w g)) = {} then ({} : Nodes)
        else nodesOf (s.nodes22 w g) (s.elems22 w)) ({ (if s.elements.numElements = 0 then ({} : Elements) else el) with
        numEntityBlocks := (elementsOf (s.elems22 w)).numEntityBlocks
        entityBlocks := (elementsOf (s.elems22 w)).entityBlocks } : Elements) _ _ _ _ _ _ _ _ = _
    rw [e1, e2]
    rfl
  · show NodesState _ (if s.nodes.numNodes = 0 then {} else _)
    by_cases hz : s.nodes.numNodes = 0
    · rw [if_pos hz]; exact Or.inr ⟨hN hz, rfl⟩
    · rw [if_neg hz]; exact Or.inl rfl
  · show ElemsState _ (if s.elements.numElements = 0 then {} else _)
    by_cases hz : s.elements.numElements = 0
    · rw [if_pos hz, hE hz]; exact ⟨rfl, rfl⟩
    · rw [if_neg hz]; exact ⟨hel.1, hel.2.1⟩

theorem SL.load {cfg : Cfg} {w : Wr Unit} {s : MshSpec} (h : SL cfg w {} s) :
    ∃ file, w = (file, .ok ()) ∧ loadMsh cfg file = loadPostProcess cfg s := by
  obtain ⟨b, hw, hp⟩ := h
  exact ⟨b, hw, hp.load⟩

/-- Tokens of the sections before the tail sections, version 2.2; then `ts`. -/
def headToks22 (P : Fmt) (s : MshSpec) (ts : List Bytes) : List Bytes :=
  openToks s ++ (nameToks s ++
  ((if (!s.entities.empty) = true then [] else []) ++
  ((if decide (s.nodes.numNodes > 0) = true then (36 :: b! "Nodes") :: ((decU64 (UInt64.ofNat s.nodes.list.length) ::
      s.nodes.list.flatMap (nodeWords P)) ++ [endTag (b! "Nodes")]) else []) ++
  ((if decide (s.elements.numElements > 0) = true then
      (36 :: b! "Elements") :: ((decU64 (UInt64.ofNat (s.elements.list.map MeshElem.file).length) ::
        (s.elements.list.map MeshElem.file).flatMap elemWords) ++ [endTag (b! "Elements")]) else []) ++ ts))))

theorem slt_msh22_head (cfg : Cfg) {rd : Double → Double} (s : MshSpec)
    (hv : s.meshFormat.version = b! "2.2") (ht : s.meshFormat.fileType = 0) (hs : s.Ok) (hf : s.Fits cfg) (hc : s.Counted)
    (h31 : ∀ b ∈ s.elements.entityBlocks, ∀ t ∈ b.data, t.toNat < 2 ^ 31)
    (hd : ∀ n ∈ s.nodes.list, ∀ x ∈ [n.x, n.y, n.z], DTok cfg.fmt rd x)
    (h3 : 3 * s.nodes.list.length ≤ cfg.maxCount) (h1 : 1 ≤ cfg.maxCount)
    (hfit : (s.elements.list.map fun e => e.nodes.length + 1).sum ≤ cfg.maxCount)
    {ts : List Bytes} {w : Wr Unit} {s' : MshSpec} (hw : SLT cfg ts w (s.mid22 (s.nodes22 id rd) (rawElements (s.elems22 wrap32))) s') :
    SLT cfg (headToks22 cfg.fmt s ts) (saveMeshFormat s.meshFormat >>= fun _ =>
      whenW (s.physicalGroups.length > 0) (savePhysicalGroups s.physicalGroups) >>= fun _ =>
      whenW (!s.entities.empty) (saveEntities cfg s.meshFormat s.entities) >>= fun _ =>
      whenW (s.nodes.numNodes > 0) (saveNodes cfg s.meshFormat s.nodes) >>= fun _ =>
      whenW (s.elements.numElements > 0) (saveElements s.meshFormat s.elements) >>= fun _ => w) {} s' := by
  refine SLT.bind (slt_meshFormat cfg {} s.meshFormat (Or.inl hv) ht (fun h => by rw [hv] at h; exact absurd h (by decide)))
    (SLT.bind (SLT.when (s2 := { meshFormat := s.meshFormat, physicalGroups := s.physicalGroups })
      (fun _ => slt_physicalNames cfg _ _ rfl hf.groups (hf.len (by simp))) fun hz => ?_)
    (SLT.bind (SLT.when (s2 := { meshFormat := s.meshFormat, physicalGroups := s.physicalGroups })
      (fun _ => ?_) fun hz => rfl)
    (SLT.bind (SLT.when (s2 := { meshFormat := s.meshFormat, physicalGroups := s.physicalGroups, nodes := if s.nodes.numNodes = 0 then {} else rawNodes (s.nodes22 id rd) })
      (fun hp => ?_) fun hz => ?_)
    (SLT.bind (SLT.when (s2 := s.mid22 (s.nodes22 id rd) (rawElements (s.elems22 wrap32))) (fun hp => ?_) fun hz => ?_) hw))))
  · rw [len_zero hz]
  · unfold saveEntities
    rw [if_pos hv]
    exact SLT.pure _ _
  · rw [if_neg (u64_pos hp)]
    exact slt_nodes22 cfg { meshFormat := s.meshFormat, physicalGroups := s.physicalGroups } s.nodes hv ht rfl (hs.goodNodes hf)
      (hc.nodes_list hs) (fun n hn => by
        have := hd n hn
        exact ⟨this _ (by simp), this _ (by simp), this _ (by simp)⟩) h3 h1
  · rw [if_pos (u64_zero hz)]
  · unfold MshSpec.mid22
    rw [if_neg (u64_pos hp)]
    exact slt_elements22 cfg { meshFormat := s.meshFormat, physicalGroups := s.physicalGroups, nodes := if s.nodes.numNodes = 0 then {} else rawNodes (s.nodes22 id rd) } s.elements hv ht rfl rfl
      (hs.goodElements hf) hc.elements_list h31 (by rw [elemEntries_eq, sum_reload]; exact hfit) h1
  · unfold MshSpec.mid22
    rw [if_pos (u64_zero hz)]

theorem slt_msh22 (cfg : Cfg) {rd : Double → Double} (s : MshSpec)
    (hv : s.meshFormat.version = b! "2.2") (ht : s.meshFormat.fileType = 0) (hs : s.Ok) (hf : s.Fits cfg) (hc : s.Counted)
    (h31 : ∀ b ∈ s.elements.entityBlocks, ∀ t ∈ b.data, t.toNat < 2 ^ 31)
    (hw : cfg.nanospline = true → Word s.nanosplineVersion)
    (hd : ∀ x ∈ s.doubles22, DTok cfg.fmt rd x)
    (h3 : 3 * s.nodes.list.length ≤ cfg.maxCount) (h1 : 1 ≤ cfg.maxCount)
    (hfit : (s.elements.list.map fun e => e.nodes.length + 1).sum ≤ cfg.maxCount) :
    SLT cfg (headToks22 cfg.fmt s (tailToks cfg.nanospline cfg.fmt s)) (saveMsh cfg s) {} (MshSpec.withTail cfg.nanospline id rd rd s
      (s.mid22 (s.nodes22 id rd) (rawElements (s.elems22 wrap32)))) := by
  rw [saveMsh_eq]
  exact slt_msh22_head cfg s hv ht hs hf hc h31
    (fun n hn x hx => hd x (mem_doubles22.mpr (Or.inl (List.mem_flatMap.mpr ⟨n, hn, hx⟩)))) h3 h1 hfit
    (slt_tail cfg s _ rfl ht (hs.tail hf hw) ⟨rfl, rfl, rfl, rfl, rfl, rfl⟩
      (fun x h => hd x (mem_doubles22.mpr (Or.inr (Or.inl h))))
      (fun d hdm e he x hx => hd x (mem_doubles22.mpr (Or.inr (Or.inr (Or.inl
        (List.mem_flatMap.mpr ⟨d, hdm, List.mem_flatMap.mpr ⟨e, he, hx⟩⟩))))))
      (fun _ c hc x hx => hd x (mem_doubles22.mpr (Or.inr (Or.inr (Or.inr (Or.inl (List.mem_flatMap.mpr ⟨c, hc, hx⟩)))))))
      (fun _ c hc x hx => hd x (mem_doubles22.mpr (Or.inr (Or.inr (Or.inr (Or.inr (List.mem_flatMap.mpr ⟨c, hc, hx⟩))))))))

/-- What the elements section of a binary file leaves. -/
def rawElementsB (s : MshSpec) : Elements :=
  { rawElements (s.elems22 wrap32) with
    minElementTag := (binaryRange (s.elements.list.map MeshElem.file)).1
    maxElementTag := (binaryRange (s.elements.list.map MeshElem.file)).2 }

/-- The sections before the tail sections, version 2.2; then `ts`. -/
def headSecs22 (s : MshSpec) (ts : List (Bytes × Bytes)) : List (Bytes × Bytes) :=
  openSecs s ++ (nameSecs s ++
  ((if (!s.entities.empty) = true then [] else []) ++
  ((if decide (s.nodes.numNodes > 0) = true then
      [(b! "Nodes", decU64 (UInt64.ofNat s.nodes.list.length) ++ endl ++ s.nodes.list.flatMap nodeBytes)] else []) ++
  ((if decide (s.elements.numElements > 0) = true then
      [(b! "Elements", decU64 (UInt64.ofNat ((s.elements.entityBlocks.map ElementBlock.group).flatMap FileGroup.elems).length) ++ endl ++
        (s.elements.entityBlocks.map ElementBlock.group).flatMap FileGroup.bytes)] else []) ++ ts))))

theorem sls_msh22_head (cfg : Cfg) (s : MshSpec)
    (hv : s.meshFormat.version = b! "2.2") (ht : s.meshFormat.fileType = 1) (hs : s.Ok) (hf : s.Fits cfg) (hc : s.Counted)
    (h31 : ∀ b ∈ s.elements.entityBlocks, 0 < b.numElementsInBlock.toNat ∧ b.numElementsInBlock.toNat < 2 ^ 31)
    (h3 : 3 * s.nodes.list.length ≤ cfg.maxCount) (h1 : 1 ≤ cfg.maxCount)
    (hfit : (s.elements.list.map fun e => e.nodes.length + 1).sum ≤ cfg.maxCount)
    {ts : List (Bytes × Bytes)} {w : Wr Unit} {s' : MshSpec} (hw : SLS cfg ts w (s.mid22 (s.nodes22 wrap32 id) (rawElementsB s)) s') :
    SLS cfg (headSecs22 s ts) (saveMeshFormat s.meshFormat >>= fun _ =>
      whenW (s.physicalGroups.length > 0) (savePhysicalGroups s.physicalGroups) >>= fun _ =>
      whenW (!s.entities.empty) (saveEntities cfg s.meshFormat s.entities) >>= fun _ =>
      whenW (s.nodes.numNodes > 0) (saveNodes cfg s.meshFormat s.nodes) >>= fun _ =>
      whenW (s.elements.numElements > 0) (saveElements s.meshFormat s.elements) >>= fun _ => w) {} s' := by
  have ht0 : s.meshFormat.fileType ≠ 0 := by rw [ht]; decide
  refine SLS.bind (sls_meshFormat cfg {} s.meshFormat (Or.inl hv) ht (fun h => by rw [hv] at h; exact absurd h (by decide)))
    (SLS.bind (SLS.when (s2 := { meshFormat := s.meshFormat, physicalGroups := s.physicalGroups })
      (fun _ => sls_physicalNames cfg _ _ rfl hf.groups (hf.len (by simp))) fun hz => ?_)
    (SLS.bind (SLS.when (s2 := { meshFormat := s.meshFormat, physicalGroups := s.physicalGroups })
      (fun _ => ?_) fun hz => rfl)
    (SLS.bind (SLS.when (s2 := { meshFormat := s.meshFormat, physicalGroups := s.physicalGroups, nodes := if s.nodes.numNodes = 0 then {} else rawNodes (s.nodes22 wrap32 id) })
      (fun hp => ?_) fun hz => ?_)
    (SLS.bind (SLS.when (s2 := s.mid22 (s.nodes22 wrap32 id) (rawElementsB s)) (fun hp => ?_) fun hz => ?_) hw))))
  · rw [len_zero hz]
  · unfold saveEntities
    rw [if_pos hv]
    exact SLS.pure _ _
  · rw [if_neg (u64_pos hp)]
    exact sls_nodes22 cfg { meshFormat := s.meshFormat, physicalGroups := s.physicalGroups } s.nodes hv ht0 rfl (hs.goodNodes hf)
      (hc.nodes_list hs) h3 h1
  · rw [if_pos (u64_zero hz)]
  · unfold MshSpec.mid22
    rw [if_neg (u64_pos hp)]
    exact sls_elements22 cfg { meshFormat := s.meshFormat, physicalGroups := s.physicalGroups, nodes := if s.nodes.numNodes = 0 then {} else rawNodes (s.nodes22 wrap32 id) } s.elements hv ht0 rfl rfl
      (hs.goodElements hf) hc.elements_list h31 (by rw [elemEntries_eq, sum_reload]; exact hfit) h1
  · unfold MshSpec.mid22
    rw [if_pos (u64_zero hz)]

theorem sls_msh22 (cfg : Cfg) {rd : Double → Double} (s : MshSpec)
    (hv : s.meshFormat.version = b! "2.2") (ht : s.meshFormat.fileType = 1) (hs : s.Ok) (hf : s.Fits cfg) (hc : s.Counted)
    (h31 : ∀ b ∈ s.elements.entityBlocks, 0 < b.numElementsInBlock.toNat ∧ b.numElementsInBlock.toNat < 2 ^ 31)
    (hw : cfg.nanospline = true → Word s.nanosplineVersion)
    (hd : ∀ x ∈ s.realTags, DTok cfg.fmt rd x)
    (h3 : 3 * s.nodes.list.length ≤ cfg.maxCount) (h1 : 1 ≤ cfg.maxCount)
    (hfit : (s.elements.list.map fun e => e.nodes.length + 1).sum ≤ cfg.maxCount) :
    SLS cfg (headSecs22 s (tailSecs cfg s)) (saveMsh cfg s) {} (MshSpec.withTail cfg.nanospline wrap32 rd id s
      (s.mid22 (s.nodes22 wrap32 id) (rawElementsB s))) := by
  rw [saveMsh_eq]
  exact sls_msh22_head cfg s hv ht hs hf hc h31 h3 h1 hfit
    (sls_tail cfg s _ rfl (by rw [ht]; decide) (Or.inr hv) (hs.tail hf hw) ⟨rfl, rfl, rfl, rfl, rfl, rfl⟩ hd)

end MshIO
