import Verif.Proofs.File22

/-!
# Version 2.2 files: what the saver writes
-/

namespace MshIO

theorem writesT_sp {t : Bytes} (h : IsTok t) : WritesT (emit (t ++ [32])) [t] :=
  WritesT.emit [(t, [32])] (by simp [one_sp, h]) (by simp [flat])

theorem writesT_nl {t : Bytes} (h : IsTok t) : WritesT (emit (t ++ endl)) [t] :=
  WritesT.emit [(t, [10])] (by simp [one_nl, h]) (by simp [flat, endl])

theorem intOfSize_toInt {t : UInt64} (h : t.toNat < 2 ^ 31) : (intOfSize t).toInt = t.toNat := by
  have h2 : (intOfSize t).toUInt32.toNat = t.toNat % 2 ^ 32 := by simp [intOfSize]
  have h3 : (intOfSize t).toInt = ((intOfSize t).toUInt32.toNat : Int).bmod (2 ^ 32) := by
    show (intOfSize t).toBitVec.toInt = _
    rw [BitVec.toInt_eq_toNat_bmod]; rfl
  rw [h3, h2, Nat.mod_eq_of_lt (by omega)]
  exact Int.bmod_eq_of_le (by omega) (by omega)

theorem decU64_eq_decI32 {t : UInt64} (h : t.toNat < 2 ^ 31) : decU64 t = decI32 (intOfSize t) := by
  unfold decU64 decI32
  rw [intOfSize_toInt h, if_neg (by omega)]
  simp

/-! ## Nodes -/

theorem NodeBlock.list_eq (b : NodeBlock) : b.list = (List.range' 0 b.tags.length).map fun i =>
    (⟨b.tags.getD i 0, b.data.getD (i * b.coords) Double.zero, b.data.getD (i * b.coords + 1) Double.zero,
      b.data.getD (i * b.coords + 2) Double.zero⟩ : MeshNode) := by
  apply List.ext_getElem
  · simp [NodeBlock.list]
  · intro i h1 h2
    have hi : i < b.tags.length := by simpa [NodeBlock.list] using h1
    simp [NodeBlock.list, hi]

theorem NodeBlock.list_length (b : NodeBlock) : b.list.length = b.tags.length := by simp [NodeBlock.list]

theorem coords_ge (b : NodeBlock) : 3 ≤ b.coords := by
  unfold NodeBlock.coords; split <;> omega

/-- The three coordinates of node `j` of a block are there. -/
theorem NodeBlock.Ok.bound {b : NodeBlock} (hb : b.Ok) {j : Nat} (hj : j < b.tags.length) :
    j * b.coords + 3 ≤ b.data.length := by
  have h3 := coords_ge b
  rw [hb.data, ← hb.tags]
  calc j * b.coords + 3 ≤ j * b.coords + b.coords := by omega
    _ = (j + 1) * b.coords := by rw [Nat.add_mul, Nat.one_mul]
    _ ≤ b.tags.length * b.coords := Nat.mul_le_mul_right _ hj

theorem idx_mul {j : Nat} {e : UInt64} (h : j * e.toNat < 2 ^ 64) : (UInt64.ofNat j * e).toNat = j * e.toNat := by
  have := idx_toNat (j := j) (k := 0) (e := e) (by omega)
  rw [UInt64.toNat_add] at this
  simpa using this

theorem saveNodeBlockAscii22_writes (cfg : Cfg) (b : NodeBlock) (hb : b.Ok) (hc : b.data.length ≤ cfg.maxCount) :
    WritesT (saveNodeBlockAscii22 cfg b) (b.list.flatMap (nodeWords cfg.fmt)) := by
  have hlt := cfg.maxCount_lt
  obtain ⟨e, he, he2, he3⟩ := entriesPerNode_ok hb.dim
  unfold saveNodeBlockAscii22
  refine WritesT.lift he ?_
  rw [b.list_eq, List.flatMap_map, ← hb.tags]
  refine WritesT.loopW _ 0 fun j _ hj => ?_
  have hj : j < b.tags.length := by omega
  have hbd := hb.bound hj
  rw [← he2] at hbd ⊢
  have i0 : (UInt64.ofNat j * e).toNat = j * e.toNat := idx_mul (by omega)
  have i1 : (UInt64.ofNat j * e + 1).toNat = j * e.toNat + 1 := idx_toNat (k := 1) (by omega)
  have i2 : (UInt64.ofNat j * e + 2).toNat = j * e.toNat + 2 := idx_toNat (k := 2) (by omega)
  have g : ∀ k (h : k < b.data.length), b.data.getD k Double.zero = b.data[k] := fun k h => by simp [h]
  have htl : b.tags.length ≤ b.data.length := by
    rw [hb.data, ← hb.tags]
    exact Nat.le_mul_of_pos_right _ (by have := coords_ge b; omega)
  have gt : b.tags.getD j 0 = b.tags[j] := by simp [hj]
  rw [g _ (by omega), g _ (by omega), g _ (by omega), gt]
  refine WritesT.lift (vecGet_ok (ofNat_toNat_lt (by omega)) hj) ?_
  refine WritesT.bind (writesT_sp (by simp)) ?_
  refine WritesT.lift (vecGet_ok i0 (by omega)) (WritesT.bind (writesT_sp (by simp)) ?_)
  refine WritesT.lift (vecGet_ok i1 (by omega)) (WritesT.bind (writesT_sp (by simp)) ?_)
  exact WritesT.lift (vecGet_ok i2 (by omega)) (writesT_nl (by simp))

theorem saveNodeBlockBinary22_writes (cfg : Cfg) (b : NodeBlock) (hb : b.Ok) (hc : b.data.length ≤ cfg.maxCount) :
    Writes (saveNodeBlockBinary22 b) (b.list.flatMap nodeBytes) := by
  have hlt := cfg.maxCount_lt
  obtain ⟨e, he, he2, he3⟩ := entriesPerNode_ok hb.dim
  unfold saveNodeBlockBinary22
  refine Writes.lift he ?_
  rw [b.list_eq, List.flatMap_map, ← hb.tags]
  refine Writes.loopW _ 0 fun j _ hj => ?_
  have hj : j < b.tags.length := by omega
  have hbd := hb.bound hj
  rw [← he2] at hbd ⊢
  have i0 : (UInt64.ofNat j * e).toNat = j * e.toNat := idx_mul (by omega)
  have g : ∀ k (h : k < b.data.length), b.data.getD k Double.zero = b.data[k] := fun k h => by simp [h]
  have htl : b.tags.length ≤ b.data.length := by
    rw [hb.data, ← hb.tags]
    exact Nat.le_mul_of_pos_right _ (by have := coords_ge b; omega)
  have gt : b.tags.getD j 0 = b.tags[j] := by simp [hj]
  rw [g _ (by omega), g _ (by omega), g _ (by omega), gt]
  refine Writes.lift (vecGet_ok (ofNat_toNat_lt (by omega)) hj) ?_
  refine Writes.bind (Writes.emit _) ?_
  rw [i0, if_pos hbd]
  have : (b.data.drop (j * e.toNat)).take 3 = [b.data[j * e.toNat], b.data[j * e.toNat + 1], b.data[j * e.toNat + 2]] := by
    rw [List.drop_eq_getElem_cons (by omega), List.drop_eq_getElem_cons (i := j * e.toNat + 1) (by omega),
      List.drop_eq_getElem_cons (i := j * e.toNat + 1 + 1) (by omega)]
    rfl
  rw [this]
  exact Writes.emit _

theorem Nodes.list_length (n : Nodes) (h : ∀ b ∈ n.entityBlocks, b.Ok) :
    n.list.length = (n.entityBlocks.map (·.numNodesInBlock.toNat)).sum := by
  unfold Nodes.list
  rw [List.length_flatMap]
  congr 1
  refine List.map_congr_left fun b hb => ?_
  rw [b.list_length, (h b hb).tags]

theorem ofNat_toNat' (n : UInt64) : UInt64.ofNat n.toNat = n := by simp

theorem saveNodesAscii22_writes (cfg : Cfg) (n : Nodes) (h : n.Good cfg) (hn : n.numNodes.toNat = n.list.length) :
    WritesT (saveNodesAscii22 cfg n) (decU64 (UInt64.ofNat n.list.length) :: n.list.flatMap (nodeWords cfg.fmt)) := by
  unfold saveNodesAscii22
  rw [loopBlocks_eq _ _ _ h.blocks.symm, ← hn, ofNat_toNat']
  refine WritesT.bind (writesT_nl (by simp)) ?_
  refine WritesT.cast (y := n.list.flatMap (nodeWords cfg.fmt)) (x := n.entityBlocks.flatMap fun b => b.list.flatMap (nodeWords cfg.fmt)) ?_
    (by unfold Nodes.list; rw [List.flatMap_assoc])
  exact WritesT.forW _ fun b hb => saveNodeBlockAscii22_writes cfg b (h.ok b hb) (h.fitsB b hb).2

theorem saveNodesBinary22_writes (cfg : Cfg) (n : Nodes) (h : n.Good cfg) (hn : n.numNodes.toNat = n.list.length) :
    Writes (saveNodesBinary22 n) (decU64 (UInt64.ofNat n.list.length) ++ [10] ++ n.list.flatMap nodeBytes) := by
  unfold saveNodesBinary22
  rw [loopBlocks_eq _ _ _ h.blocks.symm, ← hn, ofNat_toNat']
  refine Writes.bind (Writes.emit _) ?_
  unfold Nodes.list
  rw [List.flatMap_assoc]
  exact Writes.forW _ fun b hb => saveNodeBlockBinary22_writes cfg b (h.ok b hb) (h.fitsB b hb).2

theorem slt_nodes22 (cfg : Cfg) (spec : MshSpec) (n : Nodes) {rd : Double → Double}
    (hv : spec.meshFormat.version = b! "2.2") (ht : spec.meshFormat.fileType = 0)
    (h0 : spec.nodes = {}) (h : n.Good cfg) (hn : n.numNodes.toNat = n.list.length)
    (hd : ∀ m ∈ n.list, DTok cfg.fmt rd m.x ∧ DTok cfg.fmt rd m.y ∧ DTok cfg.fmt rd m.z)
    (h3 : 3 * n.list.length ≤ cfg.maxCount) (h1 : 1 ≤ cfg.maxCount) :
    SLT cfg ((36 :: b! "Nodes") :: ((decU64 (UInt64.ofNat n.list.length) :: n.list.flatMap (nodeWords cfg.fmt)) ++
      [endTag (b! "Nodes")])) (saveNodes cfg spec.meshFormat n) spec { spec with nodes := rawNodes (n.list.map (MeshNode.convert rd)) } := by
  unfold saveNodes
  rw [if_neg (by rw [hv]; decide), if_pos hv, if_pos ht]
  exact SLT.section (name := b! "Nodes") rfl rfl (by decide) (saveNodesAscii22_writes cfg n h hn)
    (readsT_nodes22 cfg spec hv ht h0 cfg.fmt rd n.list hd h3 h1)

theorem sls_nodes22 (cfg : Cfg) (spec : MshSpec) (n : Nodes)
    (hv : spec.meshFormat.version = b! "2.2") (ht : spec.meshFormat.fileType ≠ 0)
    (h0 : spec.nodes = {}) (h : n.Good cfg) (hn : n.numNodes.toNat = n.list.length)
    (h3 : 3 * n.list.length ≤ cfg.maxCount) (h1 : 1 ≤ cfg.maxCount) :
    SLS cfg [(b! "Nodes", decU64 (UInt64.ofNat n.list.length) ++ endl ++ n.list.flatMap nodeBytes)] (saveNodes cfg spec.meshFormat n) spec { spec with nodes := rawNodes (n.list.map MeshNode.wrap) } := by
  unfold saveNodes
  rw [if_neg (by rw [hv]; decide), if_pos hv, if_neg ht]
  exact SLS.section (name := b! "Nodes") rfl rfl (by decide) (saveNodesBinary22_writes cfg n h hn)
    ((readsM_nodes22 cfg spec hv ht h0 n.list h3 h1 one_nl).rds one_nl.sep.1)

/-! ## Elements -/

/-- The element a version 2.2 file stores for an element: the entity is its only tag. -/
def MeshElem.file (e : MeshElem) : FileElem := ⟨intOfSize e.tag, e.type, [e.entity], e.nodes.map intOfSize⟩

/-- The element that comes back. -/
def MeshElem.reload (w : UInt64 → UInt64) (e : MeshElem) : MeshElem :=
  ⟨w e.tag, e.type, Int32.ofNat ((mshDim e.type).getD 0), e.entity, e.nodes.map w⟩

theorem MeshElem.file_elem (e : MeshElem) : e.file.elem = e.reload wrap32 := by
  unfold FileElem.elem MeshElem.file MeshElem.reload
  simp only [wrap32_eq, List.map_map]
  congr 1
  refine List.map_congr_left fun t _ => ?_
  exact wrap32_eq t

theorem ElementBlock.list_length (b : ElementBlock) : b.list.length = b.numElementsInBlock.toNat := by
  simp [ElementBlock.list]

theorem ElementBlock.list_eq (b : ElementBlock) {n : Nat} (hn : mshNodes b.elementType = some n) :
    b.list = (List.range' 0 b.numElementsInBlock.toNat).map fun i =>
      (⟨b.data.getD (i * (n + 1)) 0, b.elementType, b.entityDim, b.entityTag, (b.data.drop (i * (n + 1) + 1)).take n⟩ : MeshElem) := by
  unfold ElementBlock.list
  rw [hn, List.range_eq_range']
  rfl

theorem drop_take_eq {data : List UInt64} {a n : Nat} (h : a + 1 + n ≤ data.length) :
    (data.drop (a + 1)).take n = (List.range' 0 n).map fun k => data.getD (a + k + 1) 0 := by
  apply List.ext_getElem
  · simp; omega
  · intro i h1 h2
    have hi : i < n := by simpa using h2
    have e : a + 1 + i = a + i + 1 := by omega
    have hl : a + i + 1 < data.length := by omega
    simp [e, hl]

/-- The entries of element `j` of a block are there. -/
theorem elem_bound {len num n j : Nat} (hl : len = num * (n + 1)) (hj : j < num) : j * (n + 1) + 1 + n ≤ len := by
  rw [hl]
  calc j * (n + 1) + 1 + n = (j + 1) * (n + 1) := by rw [Nat.add_mul j 1, Nat.one_mul]; omega
    _ ≤ num * (n + 1) := Nat.mul_le_mul_right _ hj

theorem mem_elem_nodes {b : ElementBlock} {e : MeshElem} (hb : b.Ok) (he : e ∈ b.list) :
    e.type = b.elementType ∧ e.dim = b.entityDim ∧ e.entity = b.entityTag ∧ e.tag ∈ b.data ∧ (∀ t ∈ e.nodes, t ∈ b.data) ∧
      mshNodes e.type = some e.nodes.length := by
  obtain ⟨n, hn, hl⟩ := hb.data
  rw [b.list_eq hn] at he
  obtain ⟨j, hj, rfl⟩ := List.mem_map.mp he
  have hj : j < b.numElementsInBlock.toNat := by simpa using hj
  have hbd := elem_bound hl hj
  refine ⟨rfl, rfl, rfl, ?_, fun t ht => List.mem_of_mem_drop (List.mem_of_mem_take ht), ?_⟩
  · have : j * (n + 1) < b.data.length := by omega
    simp [this]
  · show mshNodes b.elementType = some ((b.data.drop (j * (n + 1) + 1)).take n).length
    rw [hn]
    congr 1
    simp; omega

theorem saveElementBlockAscii22_writes (cfg : Cfg) (b : ElementBlock) (hb : b.Ok) (hc : b.data.length ≤ cfg.maxCount)
    (h31 : ∀ t ∈ b.data, t.toNat < 2 ^ 31) :
    WritesT (saveElementBlockAscii22 b) (b.list.flatMap fun e => elemWords e.file) := by
  have hlt := cfg.maxCount_lt
  obtain ⟨n, hn, hl⟩ := hb.data
  obtain ⟨hn1, hn2, _⟩ := nodesPerElement_of_mshNodes hn
  obtain ⟨e1, e2⟩ := nodes_succ hn2
  unfold saveElementBlockAscii22
  refine WritesT.lift hn1 ?_
  rw [b.list_eq hn, List.flatMap_map]
  refine WritesT.loopW _ 0 fun j _ hj => ?_
  have hj : j < b.numElementsInBlock.toNat := by omega
  have hbd := elem_bound hl hj
  have i0 : (UInt64.ofNat j * (UInt64.ofNat n + 1)).toNat = j * (n + 1) := by rw [idx_mul (by rw [e1]; omega), e1]
  have h0 : j * (n + 1) < b.data.length := by omega
  have g : ∀ k (h : k < b.data.length), b.data.getD k 0 = b.data[k] := fun k h => by simp [h]
  refine WritesT.lift (vecGet_ok i0 h0) ?_
  have hw : elemWords (MeshElem.file ⟨b.data.getD (j * (n + 1)) 0, b.elementType, b.entityDim, b.entityTag, (b.data.drop (j * (n + 1) + 1)).take n⟩) =
      [decU64 b.data[j * (n + 1)], decI32 b.elementType, decI32 1, decI32 b.entityTag] ++
        ((List.range' 0 n).flatMap fun k => [decU64 (b.data.getD (j * (n + 1) + k + 1) 0)]) := by
    rw [drop_take_eq (by omega), decU64_eq_decI32 (h31 _ (List.getElem_mem h0)), g _ h0, ← List.map_eq_flatMap]
    unfold elemWords MeshElem.file
    simp only [List.map_map, List.map_cons, List.map_nil, List.cons_append, List.nil_append]
    congr 4
    refine List.map_congr_left fun k hk => ?_
    have hk : k < n := by simpa using hk
    have hl : j * (n + 1) + k + 1 < b.data.length := by omega
    show decI32 (intOfSize (b.data.getD (j * (n + 1) + k + 1) 0)) = _
    rw [decU64_eq_decI32]
    rw [g _ hl]
    exact h31 _ (List.getElem_mem hl)
  rw [hw]
  refine WritesT.bind (WritesT.emit [(decU64 b.data[j * (n + 1)], [32]), (decI32 b.elementType, [32]), (decI32 1, [32]),
    (decI32 b.entityTag, [32])] (by simp [one_sp]) (by simp [flat])) ?_
  rw [e2]
  refine WritesT.loopW _ 0 fun k _ hk => ?_
  have hk : k < n := by omega
  have hl : j * (n + 1) + k + 1 < b.data.length := by omega
  have i1 : (UInt64.ofNat j * (UInt64.ofNat n + 1) + UInt64.ofNat k + 1).toNat = j * (n + 1) + k + 1 := by
    have := idx_toNat (j := j) (k := k) (e := UInt64.ofNat n + 1) (by rw [e1]; omega)
    rw [e1] at this
    rw [add_toNat (by rw [this]; simp; omega), this]; rfl
  rw [g _ hl]
  refine WritesT.lift (vecGet_ok i1 hl) ⟨[(decU64 b.data[j * (n + 1) + k + 1], if UInt64.ofNat k = UInt64.ofNat n - 1 then endl else [32])], rfl, ?_, ?_⟩
  · intro q hq
    rw [List.mem_singleton] at hq; subst hq
    simp only
    split
    · exact ⟨by simp, one_nl⟩
    · exact ⟨by simp, one_sp⟩
  · exact Writes.cast (Writes.bind (Writes.emit _) (Writes.emit _)) (by simp [flat])

/-- The group a version 2.2 binary file stores for a block. -/
def ElementBlock.group (b : ElementBlock) : FileGroup := ⟨b.elementType, 1, b.list.map MeshElem.file⟩

theorem saveElementBlockBinary22_writes (cfg : Cfg) (b : ElementBlock) (hb : b.Ok) (hc : b.data.length ≤ cfg.maxCount)
    (h31 : b.numElementsInBlock.toNat < 2 ^ 31) :
    Writes (saveElementBlockBinary22 b) b.group.bytes := by
  have hlt := cfg.maxCount_lt
  obtain ⟨n, hn, hl⟩ := hb.data
  obtain ⟨hn1, hn2, _⟩ := nodesPerElement_of_mshNodes hn
  obtain ⟨e1, e2⟩ := nodes_succ hn2
  unfold saveElementBlockBinary22 FileGroup.bytes ElementBlock.group
  have hcount : encI32 (Int32.ofNat (b.list.map MeshElem.file).length) = encI32 (intOfSize b.numElementsInBlock) := by
    congr 1
    apply Int32.toInt_inj.mp
    rw [intOfSize_toInt h31, List.length_map, b.list_length, Int32.toInt_ofNat_of_lt (by omega)]
  have e : encI32 b.elementType ++ (encI32 (Int32.ofNat (b.list.map MeshElem.file).length) ++ (encI32 (Int32.ofNat 1) ++ (b.list.map MeshElem.file).flatMap elemBytes)) =
      (encI32 b.elementType ++ encI32 (intOfSize b.numElementsInBlock) ++ encI32 1) ++ (b.list.map MeshElem.file).flatMap elemBytes := by
    rw [hcount]; simp
  rw [e]
  refine Writes.bind (Writes.emit _) (Writes.lift hn1 ?_)
  rw [b.list_eq hn, List.flatMap_map, List.flatMap_map]
  refine Writes.loopW _ 0 fun j _ hj => ?_
  have hj : j < b.numElementsInBlock.toNat := by omega
  have hbd := elem_bound hl hj
  have i0 : (UInt64.ofNat j * (UInt64.ofNat n + 1)).toNat = j * (n + 1) := by rw [idx_mul (by rw [e1]; omega), e1]
  have h0 : j * (n + 1) < b.data.length := by omega
  have g : ∀ k (h : k < b.data.length), b.data.getD k 0 = b.data[k] := fun k h => by simp [h]
  refine Writes.lift (vecGet_ok i0 h0) ?_
  have hw : elemBytes (MeshElem.file ⟨b.data.getD (j * (n + 1)) 0, b.elementType, b.entityDim, b.entityTag, (b.data.drop (j * (n + 1) + 1)).take n⟩) =
      (encI32 (intOfSize b.data[j * (n + 1)]) ++ encI32 b.entityTag) ++
        ((List.range' 0 n).flatMap fun k => encI32 (intOfSize (b.data.getD (j * (n + 1) + k + 1) 0))) := by
    rw [drop_take_eq (by omega), g _ h0]
    unfold elemBytes MeshElem.file
    simp only [List.map_map, List.flatMap_cons, List.flatMap_nil, List.append_nil, List.append_assoc, List.flatMap_map]
    rfl
  rw [hw]
  refine Writes.bind (Writes.emit _) ?_
  rw [e2]
  refine Writes.loopW _ 0 fun k _ hk => ?_
  have hk : k < n := by omega
  have hl : j * (n + 1) + k + 1 < b.data.length := by omega
  have i1 : (UInt64.ofNat j * (UInt64.ofNat n + 1) + UInt64.ofNat k + 1).toNat = j * (n + 1) + k + 1 := by
    have := idx_toNat (j := j) (k := k) (e := UInt64.ofNat n + 1) (by rw [e1]; omega)
    rw [e1] at this
    rw [add_toNat (by rw [this]; simp; omega), this]; rfl
  rw [g _ hl]
  exact Writes.lift (vecGet_ok i1 hl) (Writes.emit _)

theorem Elements.list_length (n : Elements) :
    n.list.length = (n.entityBlocks.map (·.numElementsInBlock.toNat)).sum := by
  unfold Elements.list
  rw [List.length_flatMap]
  congr 1
  exact List.map_congr_left fun b _ => b.list_length

theorem saveElementsAscii22_writes (cfg : Cfg) (n : Elements) (h : n.Good cfg) (hn : n.numElements.toNat = n.list.length)
    (h31 : ∀ b ∈ n.entityBlocks, ∀ t ∈ b.data, t.toNat < 2 ^ 31) :
    WritesT (saveElementsAscii22 n) (decU64 (UInt64.ofNat (n.list.map MeshElem.file).length) :: (n.list.map MeshElem.file).flatMap elemWords) := by
  unfold saveElementsAscii22
  rw [loopBlocks_eq _ _ _ h.blocks.symm, List.length_map, ← hn, ofNat_toNat']
  refine WritesT.bind (writesT_nl (by simp)) ?_
  refine WritesT.cast (y := (n.list.map MeshElem.file).flatMap elemWords) (x := n.entityBlocks.flatMap fun b => b.list.flatMap fun e => elemWords e.file) ?_
    (by unfold Elements.list; rw [List.flatMap_map, List.flatMap_assoc])
  exact WritesT.forW _ fun b hb => saveElementBlockAscii22_writes cfg b (h.ok b hb) (h.fitsB b hb) (h31 b hb)

theorem groups_elems (bs : List ElementBlock) :
    (bs.map ElementBlock.group).flatMap FileGroup.elems = (bs.flatMap ElementBlock.list).map MeshElem.file := by
  rw [List.flatMap_map, List.map_flatMap]
  rfl

theorem saveElementsBinary22_writes (cfg : Cfg) (n : Elements) (h : n.Good cfg) (hn : n.numElements.toNat = n.list.length)
    (h31 : ∀ b ∈ n.entityBlocks, b.numElementsInBlock.toNat < 2 ^ 31) :
    Writes (saveElementsBinary22 n) (decU64 (UInt64.ofNat ((n.entityBlocks.map ElementBlock.group).flatMap FileGroup.elems).length) ++ [10] ++
      (n.entityBlocks.map ElementBlock.group).flatMap FileGroup.bytes) := by
  unfold saveElementsBinary22
  have : ((n.entityBlocks.map ElementBlock.group).flatMap FileGroup.elems).length = n.list.length := by
    rw [groups_elems, List.length_map]; rfl
  rw [loopBlocks_eq _ _ _ h.blocks.symm, this, ← hn, ofNat_toNat', List.flatMap_map]
  exact Writes.bind (Writes.emit _) (Writes.forW _ fun b hb => saveElementBlockBinary22_writes cfg b (h.ok b hb) (h.fitsB b hb) (h31 b hb))

theorem file_ok {b : ElementBlock} {e : MeshElem} (hb : b.Ok) (he : e ∈ b.list) : e.file.Ok := by
  show mshNodes e.type = some (e.nodes.map intOfSize).length
  rw [List.length_map]
  exact (mem_elem_nodes hb he).2.2.2.2.2

/-- Elements written with one tag mention no physical groups. -/
theorem physOf_file (es : List MeshElem) : entitiesFrom (physOf (es.map MeshElem.file)) = {} := by
  have h : ∀ d, physOf (es.map MeshElem.file) d = [] := by
    intro d
    have h := physOf_entitiesAre (es.map MeshElem.file) d
    cases hp : physOf (es.map MeshElem.file) d with
    | nil => rfl
    | cons p ps =>
      obtain ⟨f, hf, q, hm⟩ := (h.tags p.1).mp ⟨p, by rw [hp]; simp, rfl⟩
      obtain ⟨e, _, rfl⟩ := List.mem_map.mp hf
      obtain ⟨_, more, hm⟩ := hm
      simp [MeshElem.file] at hm
  simp [entitiesFrom, h]

theorem slt_elements22 (cfg : Cfg) (spec : MshSpec) (n : Elements)
    (hv : spec.meshFormat.version = b! "2.2") (ht : spec.meshFormat.fileType = 0)
    (h0 : spec.elements = {}) (h0' : spec.entities = {}) (h : n.Good cfg) (hn : n.numElements.toNat = n.list.length)
    (h31 : ∀ b ∈ n.entityBlocks, ∀ t ∈ b.data, t.toNat < 2 ^ 31)
    (hfit : elemEntries (n.list.map (MeshElem.reload wrap32)) ≤ cfg.maxCount) (h1 : 1 ≤ cfg.maxCount) :
    SLT cfg ((36 :: b! "Elements") :: ((decU64 (UInt64.ofNat (n.list.map MeshElem.file).length) ::
        (n.list.map MeshElem.file).flatMap elemWords) ++ [endTag (b! "Elements")]))
      (saveElements spec.meshFormat n) spec { spec with elements := rawElements (n.list.map (MeshElem.reload wrap32)) } := by
  unfold saveElements
  rw [if_neg (by rw [hv]; decide), if_pos hv, if_pos ht]
  have em : (n.list.map MeshElem.file).map FileElem.elem = n.list.map (MeshElem.reload wrap32) := by
    rw [List.map_map]; exact List.map_congr_left fun e _ => e.file_elem
  have hr := readsT_elements22 cfg spec hv ht h0 h0' (n.list.map MeshElem.file) (fun f hf => by
      obtain ⟨e, he, rfl⟩ := List.mem_map.mp hf
      obtain ⟨b, hb, he⟩ := List.mem_flatMap.mp he
      exact file_ok (h.ok b hb) he) (fun f hf => by
      obtain ⟨e, he, rfl⟩ := List.mem_map.mp hf
      exact ⟨h1, show (1 : Nat) < 2 ^ 31 by decide⟩) (by rw [em]; exact hfit)
  rw [em, physOf_file] at hr
  refine (SLT.section (name := b! "Elements") rfl rfl (by decide) (saveElementsAscii22_writes cfg n h hn h31) hr).cast ?_
  rw [← h0']

theorem sls_elements22 (cfg : Cfg) (spec : MshSpec) (n : Elements)
    (hv : spec.meshFormat.version = b! "2.2") (ht : spec.meshFormat.fileType ≠ 0)
    (h0 : spec.elements = {}) (h0' : spec.entities = {}) (h : n.Good cfg) (hn : n.numElements.toNat = n.list.length)
    (h31 : ∀ b ∈ n.entityBlocks, 0 < b.numElementsInBlock.toNat ∧ b.numElementsInBlock.toNat < 2 ^ 31)
    (hfit : elemEntries (n.list.map (MeshElem.reload wrap32)) ≤ cfg.maxCount) (h1 : 1 ≤ cfg.maxCount) :
    SLS cfg [(b! "Elements", decU64 (UInt64.ofNat ((n.entityBlocks.map ElementBlock.group).flatMap FileGroup.elems).length) ++ endl ++
        (n.entityBlocks.map ElementBlock.group).flatMap FileGroup.bytes)] (saveElements spec.meshFormat n) spec { spec with
      elements := { rawElements (n.list.map (MeshElem.reload wrap32)) with
        minElementTag := (binaryRange (n.list.map MeshElem.file)).1, maxElementTag := (binaryRange (n.list.map MeshElem.file)).2 } } := by
  unfold saveElements
  rw [if_neg (by rw [hv]; decide), if_pos hv, if_neg ht]
  have em : (n.list.map MeshElem.file).map FileElem.elem = n.list.map (MeshElem.reload wrap32) := by
    rw [List.map_map]; exact List.map_congr_left fun e _ => e.file_elem
  have eg : (n.entityBlocks.map ElementBlock.group).flatMap FileGroup.elems = n.list.map MeshElem.file := groups_elems _
  have hr := readsM_elements22 cfg spec hv ht h0 h0' (n.entityBlocks.map ElementBlock.group) (fun g hg => by
      obtain ⟨b, hb, rfl⟩ := List.mem_map.mp hg
      obtain ⟨hp, hlt⟩ := h31 b hb
      refine ⟨?_, ?_, ?_, ?_, h1, show 4 * 1 < 2 ^ 31 by decide⟩
      · intro f hf
        obtain ⟨e, he, rfl⟩ := List.mem_map.mp hf
        exact ⟨(mem_elem_nodes (h.ok b hb) he).1, rfl⟩
      · intro f hf
        obtain ⟨e, he, rfl⟩ := List.mem_map.mp hf
        exact file_ok (h.ok b hb) he
      · intro hz
        have := congrArg List.length hz
        simp [ElementBlock.group, b.list_length] at this
        rw [this] at hp
        exact absurd hp (by decide)
      · simpa [ElementBlock.group, b.list_length] using hlt)
    (by rw [eg, em]; exact hfit) (sep := [10]) one_nl
  refine (SLS.section (name := b! "Elements") rfl rfl (by decide) (saveElementsBinary22_writes cfg n h hn fun b hb => (h31 b hb).2)
    (hr.rds one_nl.sep.1)).cast ?_
  rw [eg, em, physOf_file, ← h0']

end MshIO
