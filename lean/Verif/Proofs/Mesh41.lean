import Verif.Proofs.Basic41

/-!
# `$Nodes` and `$Elements`, version 4.1: written and read back
-/

namespace MshIO

/-! ## `$Nodes`, ASCII -/

/-- Tokens of a node block. -/
def nodeBlockToks (P : Fmt) (b : NodeBlock) : List Bytes :=
  decI32 b.entityDim :: decI32 b.entityTag :: decI32 b.parametric :: decU64 b.numNodesInBlock ::
  (b.tags.map decU64 ++ b.data.map (fmtDouble P))

/-- A block whose doubles went through `g`. -/
def NodeBlock.convert (g : Double → Double) (b : NodeBlock) : NodeBlock :=
  { b with data := b.data.map g }

theorem loadNodeBlockAscii41_reads (cfg : Cfg) {rd : Double → Double} (b : NodeBlock) (hb : b.Ok)
    (hd : ∀ d ∈ b.data, DTok cfg.fmt rd d) (hc1 : b.tags.length ≤ cfg.maxCount)
    (hc2 : b.data.length ≤ cfg.maxCount)
    (hpar : cfg.asserts = true → 0 ≤ b.parametric.toInt ∧ b.parametric.toInt ≤ 3) :
    ReadsT (loadNodeBlockAscii41 cfg {}) (nodeBlockToks cfg.fmt b) (b.convert rd) := by
  have hlt := cfg.maxCount_lt
  obtain ⟨e, he, he2, he3⟩ := entriesPerNode_ok hb.dim
  have hmul : (b.numNodesInBlock * e).toNat = b.data.length := by
    rw [mul_toNat (by rw [he2, ← hb.data]; omega), he2, hb.data]
  unfold loadNodeBlockAscii41
  refine ReadsT.cons (inInt_tok _ _) (ReadsT.cons (inInt_tok _ _) (ReadsT.cons (inInt_tok _ _)
    (ReadsT.cons (inSize_tok _ _) (ReadsT.silent (silent_assertGood cfg) ?_))))
  refine ReadsT.silent (silent_resize_nil _ _ _ (by rw [← hb.tags]; exact hc1)) ?_
  rw [← hb.tags]
  refine ReadsT.bind (readsT_sizes b.tags) (ReadsT.silent (silent_assertGood cfg)
    (ReadsT.silent (p := assertC cfg _) (a := ()) ?_ ?_))
  · intro bs
    unfold assertC
    cases ha : cfg.asserts with
    | false => simp
    | true =>
      obtain ⟨h1, h2⟩ := hpar ha
      have e1 : (0 : Int32) ≤ b.parametric := by rw [Int32.le_iff_toInt_le]; exact h1
      have e2 : b.parametric ≤ 3 := by rw [Int32.le_iff_toInt_le]; exact h2
      simp [e1, e2]
  refine ReadsT.silent (silent_lift he) (ReadsT.silent (silent_resize_nil _ _ _ (by omega)) ?_)
  refine ReadsT.last (readsT_nestedDoubles b.data hd _ _ e (by simp [hmul]) (by rw [he2, hb.data, hb.tags])
    (by omega)) (ReadsT.silent (silent_assertGood cfg) ?_)
  exact ReadsT.pure _

theorem saveNodeBlockAscii41_writes (cfg : Cfg) (b : NodeBlock) (hb : b.Ok)
    (hc2 : b.data.length ≤ cfg.maxCount) :
    WritesT (saveNodeBlockAscii41 cfg b) (nodeBlockToks cfg.fmt b) := by
  have hlt := cfg.maxCount_lt
  obtain ⟨e, he, he2, he3⟩ := entriesPerNode_ok hb.dim
  unfold saveNodeBlockAscii41
  refine WritesT.bind (WritesT.emit [(decI32 b.entityDim, [32]), (decI32 b.entityTag, [32]),
    (decI32 b.parametric, [32]), (decU64 b.numNodesInBlock, [10])] (by simp [one_sp, one_nl])
    (by simp [flat, endl])) (WritesT.bind ?_ (WritesT.lift he ?_))
  · have := loopBlocks_eq b.tags b.numNodesInBlock (fun t => emit (decU64 t ++ endl)) hb.tags.symm
    unfold loopBlocks at this
    rw [this]
    refine WritesT.cast (WritesT.forW b.tags (toks := fun t => [decU64 t]) fun t _ =>
      WritesT.emit [(decU64 t, [10])] (by simp [one_nl]) (by simp [flat, endl])) ?_
    rw [← List.map_eq_flatMap]
  · refine WritesT.nested (by rw [hb.data, he2]) (by omega) ?_
    intro j k _ _ a ha
    refine WritesT.lift ha ⟨[(fmtDouble cfg.fmt a, if UInt64.ofNat k = e - 1 then endl else [32])], rfl, ?_, ?_⟩
    · intro q hq
      rw [List.mem_singleton] at hq; subst hq
      simp only
      split
      · exact ⟨by simp, one_nl⟩
      · exact ⟨by simp, one_sp⟩
    · exact Writes.cast (Writes.bind (Writes.emit _) (Writes.emit _)) (by simp [flat])

/-- Tokens of the section. -/
def nodesToks (P : Fmt) (n : Nodes) : List Bytes :=
  decU64 n.numEntityBlocks :: decU64 n.numNodes :: decU64 n.minNodeTag :: decU64 n.maxNodeTag ::
  n.entityBlocks.flatMap (nodeBlockToks P)

/-- Nodes whose doubles went through `g`. -/
def Nodes.convert (g : Double → Double) (n : Nodes) : Nodes :=
  { n with entityBlocks := n.entityBlocks.map (NodeBlock.convert g) }

/-- Counters agree with vectors, and the vectors can be allocated. -/
structure Nodes.Good (cfg : Cfg) (n : Nodes) : Prop where
  blocks : n.entityBlocks.length = n.numEntityBlocks.toNat
  ok : ∀ b ∈ n.entityBlocks, b.Ok
  fits : n.entityBlocks.length ≤ cfg.maxCount
  fitsB : ∀ b ∈ n.entityBlocks, b.tags.length ≤ cfg.maxCount ∧ b.data.length ≤ cfg.maxCount

theorem loadNodesAscii41_reads (cfg : Cfg) {rd : Double → Double} (n old : Nodes) (h : n.Good cfg)
    (h0 : old.entityBlocks = [])
    (hd : ∀ b ∈ n.entityBlocks, ∀ d ∈ b.data, DTok cfg.fmt rd d)
    (hpar : cfg.asserts = true → ∀ b ∈ n.entityBlocks, 0 ≤ b.parametric.toInt ∧ b.parametric.toInt ≤ 3) :
    ReadsT (loadNodesAscii41 cfg old) (nodesToks cfg.fmt n) (n.convert rd) := by
  unfold loadNodesAscii41
  refine ReadsT.cons (inSize_tok _ _) (ReadsT.cons (inSize_tok _ _) (ReadsT.cons (inSize_tok _ _)
    (ReadsT.cons (inSize_tok _ _) (ReadsT.silent (silent_assertGood cfg) ?_))))
  rw [h0]
  refine ReadsT.silent (silent_resize_nil _ _ _ (by rw [← h.blocks]; exact h.fits)) ?_
  rw [← h.blocks]
  exact ReadsT.map (ReadsT.forEach n.entityBlocks (g := NodeBlock.convert rd) fun b hb =>
    loadNodeBlockAscii41_reads cfg b (h.ok b hb) (hd b hb) (h.fitsB b hb).1 (h.fitsB b hb).2
      (fun ha => hpar ha b hb)) rfl

theorem saveNodesAscii41_writes (cfg : Cfg) (n : Nodes) (h : n.Good cfg) :
    WritesT (saveNodesAscii41 cfg n) (nodesToks cfg.fmt n) := by
  unfold saveNodesAscii41
  rw [loopBlocks_eq _ _ _ h.blocks.symm]
  exact WritesT.bind (WritesT.emit [(decU64 n.numEntityBlocks, [32]), (decU64 n.numNodes, [32]),
    (decU64 n.minNodeTag, [32]), (decU64 n.maxNodeTag, [10])] (by simp [one_sp, one_nl])
    (by simp [flat, endl]))
    (WritesT.forW _ fun b hb => saveNodeBlockAscii41_writes cfg b (h.ok b hb) (h.fitsB b hb).2)

/-! ## `$Nodes`, binary -/

theorem writeN_all {α : Type} (enc : α → Bytes) (v : List α) (n : UInt64) (h : n.toNat = v.length)
    (hlt : v.length < 2 ^ 61) : Writes (writeN enc v n) (v.flatMap enc) := by
  unfold writeN
  have : n.toNat % 2 ^ 61 = v.length := by rw [h, Nat.mod_eq_of_lt hlt]
  rw [this, if_pos le_rfl, List.take_length]
  exact Writes.emit _

/-- Bytes of a node block. -/
def nodeBlockEnc (b : NodeBlock) : Bytes :=
  encI32 b.entityDim ++ (encI32 b.entityTag ++ (encI32 b.parametric ++ (encU64 b.numNodesInBlock ++
    (b.tags.flatMap encU64 ++ b.data.flatMap encDouble))))

theorem loadNodeBlockBinary41_reads (cfg : Cfg) (b : NodeBlock) (hb : b.Ok)
    (hc1 : b.tags.length ≤ cfg.maxCount) (hc2 : b.data.length ≤ cfg.maxCount) :
    ReadsB (loadNodeBlockBinary41 cfg {}) (nodeBlockEnc b) b := by
  have hlt := cfg.maxCount_lt
  obtain ⟨e, he, he2, he3⟩ := entriesPerNode_ok hb.dim
  have hmul : (b.numNodesInBlock * e).toNat = b.data.length := by
    rw [mul_toNat (by rw [he2, ← hb.data]; omega), he2, hb.data]
  unfold loadNodeBlockBinary41
  refine ReadsB.bind (readInt_reads _ _) (ReadsB.bind (readInt_reads _ _) (ReadsB.bind (readInt_reads _ _)
    (ReadsB.bind (readSize_reads _ _) (ReadsB.silent (silent_assertGood cfg) ?_))))
  refine ReadsB.silent (silent_resize_nil _ _ _ (by rw [← hb.tags]; exact hc1)) ?_
  refine ReadsB.bind (readSizes_reads _ b.tags (by simp [hb.tags])) (ReadsB.silent (silent_assertGood cfg)
    (ReadsB.silent (silent_lift he) (ReadsB.silent (silent_resize_nil _ _ _ (by omega)) ?_)))
  exact ReadsB.last (readDoubles_reads _ b.data (by simp [hmul]))
    (ReadsB.silent (silent_assertGood cfg) (ReadsB.pure _))

theorem saveNodeBlockBinary41_writes (cfg : Cfg) (b : NodeBlock) (hb : b.Ok)
    (hc1 : b.tags.length ≤ cfg.maxCount) (hc2 : b.data.length ≤ cfg.maxCount) :
    Writes (saveNodeBlockBinary41 b) (nodeBlockEnc b) := by
  have hlt := cfg.maxCount_lt
  obtain ⟨e, he, he2, he3⟩ := entriesPerNode_ok hb.dim
  have hmul : (b.numNodesInBlock * e).toNat = b.data.length := by
    rw [mul_toNat (by rw [he2, ← hb.data]; omega), he2, hb.data]
  unfold saveNodeBlockBinary41
  exact Writes.cast (Writes.bind (Writes.emit _) (Writes.bind (writeN_all _ _ _ hb.tags.symm (by omega))
    (Writes.lift he (writeN_all _ _ _ hmul (by omega))))) (by simp [nodeBlockEnc])

/-- Bytes of the section. -/
def nodesEnc (n : Nodes) : Bytes :=
  encU64 n.numEntityBlocks ++ (encU64 n.numNodes ++ (encU64 n.minNodeTag ++ (encU64 n.maxNodeTag ++
    n.entityBlocks.flatMap nodeBlockEnc)))

theorem loadNodesBinary41_reads (cfg : Cfg) (n old : Nodes) (h : n.Good cfg)
    (h0 : old.entityBlocks = []) {w : Bytes} (hw : One w) :
    Rds (loadNodesBinary41 cfg old) (w ++ nodesEnc n) n := by
  unfold loadNodesBinary41
  refine ReadsB.rds_eat ?_ ?_ hw
  · refine ReadsB.bind (readSize_reads _ _) (ReadsB.bind (readSize_reads _ _) (ReadsB.bind (readSize_reads _ _)
      (ReadsB.bind (readSize_reads _ _) (ReadsB.silent (silent_assertGood cfg) ?_))))
    rw [h0]
    refine ReadsB.silent (silent_resize_nil _ _ _ (by rw [← h.blocks]; exact h.fits)) ?_
    rw [← h.blocks]
    exact ReadsB.map (ReadsB.forEach n.entityBlocks (g := id) fun b hb =>
      loadNodeBlockBinary41_reads cfg b (h.ok b hb) (h.fitsB b hb).1 (h.fitsB b hb).2) (by simp)
  · intro h
    have := congrArg List.length h
    simp [nodesEnc] at this

theorem saveNodesBinary41_writes (cfg : Cfg) (n : Nodes) (h : n.Good cfg) :
    Writes (saveNodesBinary41 n) (nodesEnc n) := by
  unfold saveNodesBinary41
  rw [loopBlocks_eq _ _ _ h.blocks.symm]
  exact Writes.cast (Writes.bind (Writes.emit _) (Writes.forW _ fun b hb =>
    saveNodeBlockBinary41_writes cfg b (h.ok b hb) (h.fitsB b hb).1 (h.fitsB b hb).2)) (by simp [nodesEnc])

theorem NodeBlock.convert_id (b : NodeBlock) : b.convert id = b := by
  simp [NodeBlock.convert]

theorem Nodes.convert_id (n : Nodes) : n.convert id = n := by
  have : (NodeBlock.convert id) = id := by funext b; exact b.convert_id
  simp [Nodes.convert, this]

theorem loadSection_nodes (cfg : Cfg) (spec : MshSpec) :
    loadSection cfg (36 :: b! "Nodes") spec =
      (loadNodes cfg spec.meshFormat spec.nodes >>= fun f => pure { spec with nodes := f }) := by
  unfold loadSection
  rw [if_neg (by decide), if_neg (by decide), if_neg (by decide), if_pos rfl]

theorem slt_nodes41 (cfg : Cfg) (spec : MshSpec) (n : Nodes) {rd : Double → Double}
    (hv : spec.meshFormat.version = b! "4.1") (ht : spec.meshFormat.fileType = 0)
    (h0 : spec.nodes.entityBlocks = []) (h : n.Good cfg)
    (hpar : cfg.asserts = true → ∀ b ∈ n.entityBlocks, 0 ≤ b.parametric.toInt ∧ b.parametric.toInt ≤ 3)
    (hd : ∀ b ∈ n.entityBlocks, ∀ d ∈ b.data, DTok cfg.fmt rd d) :
    SLT cfg ((36 :: b! "Nodes") :: (nodesToks cfg.fmt n ++ [endTag (b! "Nodes")]))
      (saveNodes cfg spec.meshFormat n) spec { spec with nodes := n.convert rd } := by
  unfold saveNodes
  simp only [hv, if_true, if_pos ht]
  refine SLT.section (name := b! "Nodes") rfl rfl (by decide) (saveNodesAscii41_writes cfg n h) ?_
  rw [loadSection_nodes]
  unfold loadNodes
  rw [h0]
  simp only [List.length_nil, if_true, if_pos hv, if_pos ht]
  exact ReadsT.map (loadNodesAscii41_reads cfg n _ h rfl hd hpar) rfl

theorem sls_nodes41 (cfg : Cfg) (spec : MshSpec) (n : Nodes)
    (hv : spec.meshFormat.version = b! "4.1") (ht : spec.meshFormat.fileType ≠ 0)
    (h0 : spec.nodes.entityBlocks = []) (h : n.Good cfg) :
    SLS cfg [(b! "Nodes", nodesEnc n)] (saveNodes cfg spec.meshFormat n) spec { spec with nodes := n } := by
  unfold saveNodes
  simp only [hv, if_true, if_neg ht]
  refine SLS.section (name := b! "Nodes") rfl rfl (by decide) (saveNodesBinary41_writes cfg n h) ?_
  rw [loadSection_nodes]
  unfold loadNodes
  rw [h0]
  simp only [List.length_nil, if_true, if_pos hv, if_neg ht]
  exact Rds.map (loadNodesBinary41_reads cfg n _ h rfl one_nl) rfl

/-! ## `$Elements` -/

/-- Tokens of an element block. -/
def elementBlockToks (b : ElementBlock) : List Bytes :=
  decI32 b.entityDim :: decI32 b.entityTag :: decI32 b.elementType :: decU64 b.numElementsInBlock ::
  b.data.map decU64

theorem nodes_succ {n : Nat} (h : n ≤ 56) : (UInt64.ofNat n + 1).toNat = n + 1 ∧ (UInt64.ofNat n).toNat = n := by
  have h1 : (UInt64.ofNat n).toNat = n := ofNat_toNat_lt (by omega)
  refine ⟨?_, h1⟩
  rw [add_toNat (by rw [h1]; simp; omega), h1]; rfl

theorem loadElementBlockAscii41_reads (cfg : Cfg) (b : ElementBlock) (hb : b.Ok)
    (hc : b.data.length ≤ cfg.maxCount) :
    ReadsT (loadElementBlockAscii41 cfg {}) (elementBlockToks b) b := by
  have hlt := cfg.maxCount_lt
  obtain ⟨n, hn, hl⟩ := hb.data
  obtain ⟨hn1, hn2, _⟩ := nodesPerElement_of_mshNodes hn
  obtain ⟨e1, e2⟩ := nodes_succ hn2
  have hmul : (b.numElementsInBlock * (UInt64.ofNat n + 1)).toNat = b.data.length := by
    rw [mul_toNat (by rw [e1, ← hl]; omega), e1, hl]
  unfold loadElementBlockAscii41
  refine ReadsT.cons (inInt_tok _ _) (ReadsT.cons (inInt_tok _ _) (ReadsT.cons (inInt_tok _ _)
    (ReadsT.cons (inSize_tok _ _) (ReadsT.silent (silent_lift hn1) ?_))))
  refine ReadsT.silent (silent_resize_nil _ _ _ (by omega)) ?_
  have := readsT_nestedSizes b.data (List.replicate (b.numElementsInBlock * (UInt64.ofNat n + 1)).toNat 0)
    b.numElementsInBlock.toNat (UInt64.ofNat n + 1) (by simp [hmul]) (by rw [e1, hl]) (by omega)
  have e3 : (UInt64.ofNat n + 1).toNat = (UInt64.ofNat n).toNat + 1 := by rw [e1, e2]
  simp only [e3] at this
  exact ReadsT.last this (ReadsT.silent (silent_assertGood cfg) (ReadsT.pure _))

theorem saveElementBlockAscii41_writes (cfg : Cfg) (b : ElementBlock) (hb : b.Ok)
    (hc : b.data.length ≤ cfg.maxCount) :
    WritesT (saveElementBlockAscii41 b) (elementBlockToks b) := by
  have hlt := cfg.maxCount_lt
  obtain ⟨n, hn, hl⟩ := hb.data
  obtain ⟨hn1, hn2, _⟩ := nodesPerElement_of_mshNodes hn
  obtain ⟨e1, e2⟩ := nodes_succ hn2
  unfold saveElementBlockAscii41
  refine WritesT.bind (WritesT.emit [(decI32 b.entityDim, [32]), (decI32 b.entityTag, [32]),
    (decI32 b.elementType, [32]), (decU64 b.numElementsInBlock, [10])] (by simp [one_sp, one_nl])
    (by simp [flat, endl])) (WritesT.lift hn1 ?_)
  have e3 : (UInt64.ofNat n).toNat + 1 = (UInt64.ofNat n + 1).toNat := by rw [e1, e2]
  rw [e3]
  refine WritesT.nested (by rw [hl, e1]) (by omega) ?_
  intro j k _ _ a ha
  refine WritesT.lift ha ⟨[(decU64 a, if UInt64.ofNat k = UInt64.ofNat n then endl else [32])], rfl, ?_, ?_⟩
  · intro q hq
    rw [List.mem_singleton] at hq; subst hq
    simp only
    split
    · exact ⟨by simp, one_nl⟩
    · exact ⟨by simp, one_sp⟩
  · exact Writes.cast (Writes.bind (Writes.emit _) (Writes.emit _)) (by simp [flat])

/-- Tokens of the section. -/
def elementsToks (n : Elements) : List Bytes :=
  decU64 n.numEntityBlocks :: decU64 n.numElements :: decU64 n.minElementTag :: decU64 n.maxElementTag ::
  n.entityBlocks.flatMap elementBlockToks

/-- Counters agree with vectors, and the vectors can be allocated. -/
structure Elements.Good (cfg : Cfg) (n : Elements) : Prop where
  blocks : n.entityBlocks.length = n.numEntityBlocks.toNat
  ok : ∀ b ∈ n.entityBlocks, b.Ok
  fits : n.entityBlocks.length ≤ cfg.maxCount
  fitsB : ∀ b ∈ n.entityBlocks, b.data.length ≤ cfg.maxCount

theorem loadElementsAscii41_reads (cfg : Cfg) (n old : Elements) (h : n.Good cfg)
    (h0 : old.entityBlocks = []) :
    ReadsT (loadElementsAscii41 cfg old) (elementsToks n) n := by
  unfold loadElementsAscii41
  refine ReadsT.cons (inSize_tok _ _) (ReadsT.cons (inSize_tok _ _) (ReadsT.cons (inSize_tok _ _)
    (ReadsT.cons (inSize_tok _ _) (ReadsT.silent (silent_assertGood cfg) ?_))))
  rw [h0]
  refine ReadsT.silent (silent_resize_nil _ _ _ (by rw [← h.blocks]; exact h.fits)) ?_
  rw [← h.blocks]
  exact ReadsT.map (ReadsT.forEach n.entityBlocks (g := id) fun b hb =>
    loadElementBlockAscii41_reads cfg b (h.ok b hb) (h.fitsB b hb)) (by simp)

theorem saveElementsAscii41_writes (cfg : Cfg) (n : Elements) (h : n.Good cfg) :
    WritesT (saveElementsAscii41 n) (elementsToks n) := by
  unfold saveElementsAscii41
  rw [loopBlocks_eq _ _ _ h.blocks.symm]
  exact WritesT.bind (WritesT.emit [(decU64 n.numEntityBlocks, [32]), (decU64 n.numElements, [32]),
    (decU64 n.minElementTag, [32]), (decU64 n.maxElementTag, [10])] (by simp [one_sp, one_nl])
    (by simp [flat, endl]))
    (WritesT.forW _ fun b hb => saveElementBlockAscii41_writes cfg b (h.ok b hb) (h.fitsB b hb))

/-- Bytes of an element block. -/
def elementBlockEnc (b : ElementBlock) : Bytes :=
  encI32 b.entityDim ++ (encI32 b.entityTag ++ (encI32 b.elementType ++ (encU64 b.numElementsInBlock ++
    b.data.flatMap encU64)))

theorem loadElementBlockBinary41_reads (cfg : Cfg) (b : ElementBlock) (hb : b.Ok)
    (hc : b.data.length ≤ cfg.maxCount) :
    ReadsB (loadElementBlockBinary41 cfg {}) (elementBlockEnc b) b := by
  have hlt := cfg.maxCount_lt
  obtain ⟨n, hn, hl⟩ := hb.data
  obtain ⟨hn1, hn2, _⟩ := nodesPerElement_of_mshNodes hn
  obtain ⟨e1, e2⟩ := nodes_succ hn2
  have hmul : (b.numElementsInBlock * (UInt64.ofNat n + 1)).toNat = b.data.length := by
    rw [mul_toNat (by rw [e1, ← hl]; omega), e1, hl]
  unfold loadElementBlockBinary41
  refine ReadsB.bind (readInt_reads _ _) (ReadsB.bind (readInt_reads _ _) (ReadsB.bind (readInt_reads _ _)
    (ReadsB.bind (readSize_reads _ _) (ReadsB.silent (silent_lift hn1) ?_))))
  refine ReadsB.silent (silent_resize_nil _ _ _ (by omega)) ?_
  exact ReadsB.last (readSizes_reads _ b.data (by simp [hmul]))
    (ReadsB.silent (silent_assertGood cfg) (ReadsB.pure _))

theorem saveElementBlockBinary41_writes (b : ElementBlock) :
    Writes (saveElementBlockBinary41 b) (elementBlockEnc b) := by
  unfold saveElementBlockBinary41
  exact Writes.cast (Writes.bind (Writes.emit _) (Writes.emit _)) (by simp [elementBlockEnc])

/-- Bytes of the section. -/
def elementsEnc (n : Elements) : Bytes :=
  encU64 n.numEntityBlocks ++ (encU64 n.numElements ++ (encU64 n.minElementTag ++ (encU64 n.maxElementTag ++
    n.entityBlocks.flatMap elementBlockEnc)))

theorem loadElementsBinary41_reads (cfg : Cfg) (n old : Elements) (h : n.Good cfg)
    (h0 : old.entityBlocks = []) {w : Bytes} (hw : One w) :
    Rds (loadElementsBinary41 cfg old) (w ++ elementsEnc n) n := by
  unfold loadElementsBinary41
  refine ReadsB.rds_eat ?_ ?_ hw
  · refine ReadsB.bind (readSize_reads _ _) (ReadsB.bind (readSize_reads _ _) (ReadsB.bind (readSize_reads _ _)
      (ReadsB.bind (readSize_reads _ _) (ReadsB.silent (silent_assertGood cfg) ?_))))
    rw [h0]
    refine ReadsB.silent (silent_resize_nil _ _ _ (by rw [← h.blocks]; exact h.fits)) ?_
    rw [← h.blocks]
    exact ReadsB.map (ReadsB.forEach n.entityBlocks (g := id) fun b hb =>
      loadElementBlockBinary41_reads cfg b (h.ok b hb) (h.fitsB b hb)) (by simp)
  · intro h
    have := congrArg List.length h
    simp [elementsEnc] at this

theorem saveElementsBinary41_writes (n : Elements) (hbl : n.entityBlocks.length = n.numEntityBlocks.toNat) :
    Writes (saveElementsBinary41 n) (elementsEnc n) := by
  unfold saveElementsBinary41
  rw [loopBlocks_eq _ _ _ hbl.symm]
  exact Writes.cast (Writes.bind (Writes.emit _) (Writes.forW _ fun b _ =>
    saveElementBlockBinary41_writes b)) (by simp [elementsEnc])

theorem loadSection_elements (cfg : Cfg) (spec : MshSpec) :
    loadSection cfg (36 :: b! "Elements") spec =
      (loadElements cfg spec.meshFormat spec.elements spec.entities >>= fun f =>
        pure { spec with elements := f.1, entities := f.2 }) := by
  unfold loadSection
  rw [if_neg (by decide), if_neg (by decide), if_neg (by decide), if_neg (by decide), if_pos rfl]

theorem slt_elements41 (cfg : Cfg) (spec : MshSpec) (n : Elements)
    (hv : spec.meshFormat.version = b! "4.1") (ht : spec.meshFormat.fileType = 0)
    (h0 : spec.elements.entityBlocks = []) (h : n.Good cfg) :
    SLT cfg ((36 :: b! "Elements") :: (elementsToks n ++ [endTag (b! "Elements")]))
      (saveElements spec.meshFormat n) spec { spec with elements := n } := by
  unfold saveElements
  simp only [hv, if_true, if_pos ht]
  refine SLT.section (name := b! "Elements") rfl rfl (by decide) (saveElementsAscii41_writes cfg n h) ?_
  rw [loadSection_elements]
  unfold loadElements
  rw [h0]
  simp only [List.length_nil, if_true, if_pos hv, if_pos ht]
  exact ReadsT.map (ReadsT.map (loadElementsAscii41_reads cfg n _ h rfl) rfl) rfl

theorem sls_elements41 (cfg : Cfg) (spec : MshSpec) (n : Elements)
    (hv : spec.meshFormat.version = b! "4.1") (ht : spec.meshFormat.fileType ≠ 0)
    (h0 : spec.elements.entityBlocks = []) (h : n.Good cfg) :
    SLS cfg [(b! "Elements", elementsEnc n)] (saveElements spec.meshFormat n) spec { spec with elements := n } := by
  unfold saveElements
  simp only [hv, if_true, if_neg ht]
  refine SLS.section (name := b! "Elements") rfl rfl (by decide) (saveElementsBinary41_writes n h.blocks) ?_
  rw [loadSection_elements]
  unfold loadElements
  rw [h0]
  simp only [List.length_nil, if_true, if_pos hv, if_neg ht]
  exact Rds.map (Rds.map (loadElementsBinary41_reads cfg n _ h rfl one_nl) rfl) rfl

end MshIO
