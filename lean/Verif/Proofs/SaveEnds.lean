import Verif.Spec.SaveEnds
import Verif.Proofs.Outcome
import Verif.Proofs.TextSections

/-! # How `save_msh` ends on any spec -/

namespace MshIO

variable {α β : Type}

theorem inOrder_nil : inOrder [] = .ok () := rfl

theorem inOrder_ok (l : List (Outcome Unit)) : inOrder (.ok () :: l) = inOrder l := rfl

theorem inOrder_bad {a : Outcome Unit} (h : a ≠ .ok ()) (l : List (Outcome Unit)) : inOrder (a :: l) = a := by
  cases a <;> first | rfl | exact absurd rfl h

theorem inOrder_single (a : Outcome Unit) : inOrder [a] = a := by cases a <;> rfl

theorem inOrder_cons (a : Outcome Unit) (l : List (Outcome Unit)) : inOrder (a :: l) = inOrder [a, inOrder l] := by
  cases a with
  | ok u => exact (inOrder_single _).symm
  | _ => rfl

theorem inOrder_append (l m : List (Outcome Unit)) : inOrder (l ++ m) = inOrder [inOrder l, inOrder m] := by
  induction l with
  | nil => exact (inOrder_single _).symm
  | cons a l ih =>
    cases a with
    | ok u => exact ih
    | _ => rfl

theorem snd_bind (a : Wr Unit) (f : Unit → Wr Unit) : (a >>= f).2 = inOrder [a.2, (f ()).2] := by
  obtain ⟨b, o⟩ := a
  cases o with
  | ok u => exact (inOrder_single _).symm
  | _ => rfl

theorem snd_emit (b : Bytes) (f : Unit → Wr Unit) : (emit b >>= f).2 = (f ()).2 := by rw [(Goes.emit b).bind_snd]

theorem snd_last (a : Wr Unit) (b : Bytes) : (a >>= fun _ => emit b).2 = a.2 := by
  rw [snd_bind]
  show inOrder [a.2, .ok ()] = _
  cases a.2 <;> rfl

theorem snd_lift_ok {x : Outcome α} {a : α} (h : x = .ok a) (f : α → Wr β) : (Wr.lift x >>= f).2 = (f a).2 := by
  subst h; rfl

theorem snd_lift_ub {x : Outcome α} (h : x = .ub) (f : α → Wr β) : (Wr.lift x >>= f).2 = .ub := by
  subst h; rfl

theorem snd_when (c : Bool) (w : Wr Unit) : (whenW c w).2 = if c = true then w.2 else .ok () := by cases c <;> rfl

theorem snd_forW (f : α → Wr Unit) (v : List α) : (forW f v).2 = inOrder (v.map fun a => (f a).2) := by
  induction v with
  | nil => rfl
  | cons a v ih => rw [forW, snd_bind, ih, List.map_cons, ← inOrder_cons]

theorem within_le {len need : Nat} (h : need ≤ len) : within len need = .ok () := if_pos h
theorem within_lt {len need : Nat} (h : len < need) : within len need = .ub := if_neg (by omega)

theorem vecGet_out {v : List α} {i : UInt64} (h : v.length ≤ i.toNat) : vecGet v i = .ub := by
  unfold vecGet; rw [List.getElem?_eq_none h]

theorem vecGet_in {v : List α} {i : UInt64} (h : i.toNat < v.length) : ∃ a, vecGet v i = .ok a := by
  unfold vecGet; rw [List.getElem?_eq_getElem h]; exact ⟨_, rfl⟩

/-- A step that reads one entry of a vector. -/
theorem snd_cell (v : List α) {i : UInt64} {f : α → Wr Unit} (hf : ∀ a, (f a).2 = .ok ()) : (Wr.lift (vecGet v i) >>= f).2 = within v.length (i.toNat + 1) := by
  by_cases h : i.toNat < v.length
  · obtain ⟨a, ha⟩ := vecGet_in h
    rw [snd_lift_ok ha, hf, within_le h]
  · rw [snd_lift_ub (vecGet_out (by omega)), within_lt (by omega)]

/-- Rows of a table, each as wide as the other. -/
theorem snd_rows {len w : Nat} {row : Nat → Wr Unit} (h : ∀ j, j * w ≤ len → (row j).2 = within len (j * w + w)) (n : Nat) :
    ∀ j, j * w ≤ len → (loopW row n j).2 = within len ((j + n) * w) := by
  induction n with
  | zero => intro j hj; exact (within_le hj).symm
  | succ n ih =>
    intro j hj
    have e : (j + 1) * w = j * w + w := Nat.succ_mul j w
    have e' : (j + (n + 1)) * w = j * w + w + n * w := by rw [Nat.add_mul, Nat.succ_mul]; omega
    rw [loopW, snd_bind, h j hj]
    by_cases hw : j * w + w ≤ len
    · rw [within_le hw, inOrder_ok, inOrder_single, ih (j + 1) (by omega)]
      congr 1; rw [e', ← e, ← Nat.add_mul]
    · rw [within_lt (by omega), within_lt (by omega)]
      rfl

theorem snd_cells {len base : Nat} {cell : Nat → Wr Unit} (h : ∀ k, base + k ≤ len → (cell k).2 = within len (base + k + 1)) (n : Nat) :
    ∀ k, base + k ≤ len → (loopW cell n k).2 = within len (base + k + n) := by
  induction n with
  | zero => intro k hk; exact (within_le hk).symm
  | succ n ih =>
    intro k hk
    rw [loopW, snd_bind, h k hk]
    by_cases hw : base + k + 1 ≤ len
    · rw [within_le hw, inOrder_ok, inOrder_single, ih (k + 1) (by omega)]
      congr 1; omega
    · rw [within_lt (by omega), within_lt (by omega)]
      rfl

/-- A table read entry by entry. -/
theorem snd_table (v : List α) (hl : v.length < 2 ^ 60) {e : UInt64} {w : Nat} (hw : w = e.toNat) {f : Nat → Nat → α → Wr Unit} (hf : ∀ j k a, (f j k a).2 = .ok ()) (n : Nat) :
    (loopW (fun j => loopW (fun k => Wr.lift (vecGet v (UInt64.ofNat j * e + UInt64.ofNat k)) >>= f j k) w 0) n 0).2 = within v.length (n * w) := by
  rw [snd_rows (len := v.length) (w := w) (fun j hj => ?_) n 0 (by omega), Nat.zero_add]
  have hb := table_base (e := e) (j := j) (l := v.length) (by rw [← hw]; exact hj) hl
  rw [← hw] at hb
  rw [snd_cells (len := v.length) (base := j * w) (fun k hk => ?_) w 0 hj, Nat.add_zero]
  rw [snd_cell v (hf j k), cell_index (l := v.length) (by omega) hl, hb]

/-- A vector read entry by entry. -/
theorem snd_vector (v : List α) (hl : v.length < 2 ^ 60) {f : Nat → α → Wr Unit} (hf : ∀ j a, (f j a).2 = .ok ()) (n : Nat) :
    (loopW (fun j => Wr.lift (vecGet v (UInt64.ofNat j)) >>= f j) n 0).2 = within v.length n := by
  rw [snd_cells (len := v.length) (base := 0) (fun k hk => ?_) n 0 (by omega)]
  · congr 1; omega
  · rw [snd_cell v (hf k), UInt64.toNat_ofNat']
    congr 1; omega

theorem snd_writeN (enc : α → Bytes) (v : List α) (n : UInt64) : (writeN enc v n).2 = within v.length (n.toNat % 2 ^ 61) := by
  unfold writeN within
  split <;> rfl

theorem snd_blocks (v : List α) (hl : v.length < 2 ^ 60) (n : UInt64) (f : α → Wr Unit) : (loopBlocks v n f).2 = blocksEnd (fun b => (f b).2) v n.toNat := by
  unfold loopBlocks blocksEnd
  have key : ∀ n i, i ≤ v.length → (loopW (fun i => do let b ← Wr.lift (vecGet v (UInt64.ofNat i)); f b) n i).2 =
      inOrder (((v.drop i).take n).map (fun b => (f b).2) ++ [within (v.length - i) n]) := by
    intro n
    induction n with
    | zero => intro i _; rw [List.take_zero]; rfl
    | succ n ih =>
      intro i hi
      have hi' : (UInt64.ofNat i).toNat = i := by rw [UInt64.toNat_ofNat']; omega
      rw [loopW, snd_bind]
      by_cases h : i < v.length
      · have hg : vecGet v (UInt64.ofNat i) = .ok v[i] := vecGet_ok hi' h
        rw [snd_lift_ok hg, ih (i + 1) h, List.drop_eq_getElem_cons h, List.take_succ_cons, List.map_cons, List.cons_append, ← inOrder_cons]
        congr 4
        unfold within
        congr 1
        rw [eq_iff_iff]; omega
      · rw [snd_lift_ub (vecGet_out (by omega)), List.drop_eq_nil_of_le (by omega), within_lt (by omega)]
        rfl
  exact key n.toNat 0 (Nat.zero_le _)

theorem blocksEnd_congr {f g : α → Outcome Unit} {v : List α} (h : ∀ b ∈ v, f b = g b) (n : Nat) : blocksEnd f v n = blocksEnd g v n := by
  unfold blocksEnd
  rw [List.map_congr_left fun b hb => h b (List.mem_of_mem_take hb)]

/-! ## Nodes -/

theorem rowLength_none {b : NodeBlock} (h : b.rowLength = none) : entriesPerNode b.parametric b.entityDim = .ub := by
  unfold NodeBlock.rowLength at h
  unfold entriesPerNode
  split at h
  · split at h
    · rename_i h1 h2; rw [if_pos h1, if_pos h2]
    · cases h
  · cases h

theorem rowLength_some {b : NodeBlock} {w : Nat} (h : b.rowLength = some w) : ∃ e, entriesPerNode b.parametric b.entityDim = .ok e ∧ e.toNat = w := by
  unfold NodeBlock.rowLength at h
  have hn : ¬ (b.parametric = 1 ∧ 2 ^ 31 ≤ b.entityDim.toInt + 3) := by
    rintro ⟨h1, h2⟩
    rw [if_pos h1, if_pos h2] at h; cases h
  obtain ⟨e, he, hw⟩ := entries_width hn
  refine ⟨e, he, ?_⟩
  rw [hw]
  split at h
  · rename_i h1
    rw [if_neg (fun h2 => hn ⟨h1, h2⟩)] at h
    cases h; rw [if_pos h1]
  · rename_i h1
    cases h; rw [if_neg h1]; rfl

theorem snd_nodeAscii41 (cfg : Cfg) {f : MeshFormat} (hv : f.version = b! "4.1") (ht : f.fileType = 0) (b : NodeBlock) (h1 : b.tags.length < 2 ^ 60) (h2 : b.data.length < 2 ^ 60) :
    (saveNodeBlockAscii41 cfg b).2 = b.ends f := by
  unfold saveNodeBlockAscii41 NodeBlock.ends
  rw [snd_emit, snd_bind, snd_vector b.tags h1 (fun _ _ => rfl)]
  cases hw : b.rowLength with
  | none =>
    rw [snd_lift_ub (rowLength_none hw)]
    unfold within
    split <;> rfl
  | some w =>
    obtain ⟨e, he, hw⟩ := rowLength_some hw
    rw [snd_lift_ok he, hw, snd_table b.data h2 hw.symm fun _ _ _ => rfl]
    simp only
    rw [if_neg (by rw [hv]; decide), if_pos ht]

theorem snd_nodeBinary41 {f : MeshFormat} (hv : f.version = b! "4.1") (ht : f.fileType ≠ 0) (b : NodeBlock) :
    (saveNodeBlockBinary41 b).2 = b.ends f := by
  unfold saveNodeBlockBinary41 NodeBlock.ends
  rw [snd_emit, snd_bind, snd_writeN]
  cases hw : b.rowLength with
  | none =>
    rw [snd_lift_ub (rowLength_none hw)]
    unfold within
    split <;> rfl
  | some w =>
    obtain ⟨e, he, hw⟩ := rowLength_some hw
    rw [snd_lift_ok he, snd_writeN]
    simp only
    rw [if_neg (by rw [hv]; decide), if_neg ht, UInt64.toNat_mul, hw]
    congr 4
    omega

/-- Nodes of version 2.2: three coordinates each, from rows of `w`. -/
theorem snd_nodes22 {tags len w : Nat} {row : Nat → Wr Unit}
    (h : ∀ j, j ≤ tags → (j = 0 ∨ (j - 1) * w + 3 ≤ len) → (row j).2 = if j < tags ∧ j * w + 3 ≤ len then .ok () else .ub) (n : Nat) :
    (loopW row n 0).2 = inOrder [within tags n, if n = 0 then .ok () else within len ((n - 1) * w + 3)] := by
  have key : ∀ n j, j ≤ tags → (j = 0 ∨ (j - 1) * w + 3 ≤ len) →
      (loopW row n j).2 = if j + n ≤ tags ∧ (j + n = 0 ∨ (j + n - 1) * w + 3 ≤ len) then .ok () else .ub := by
    intro n
    induction n with
    | zero => intro j h1 h2; rw [Nat.add_zero, if_pos ⟨h1, h2⟩]; rfl
    | succ n ih =>
      intro j h1 h2
      rw [loopW, snd_bind, h j h1 h2]
      by_cases hj : j < tags ∧ j * w + 3 ≤ len
      · rw [if_pos hj, inOrder_ok, inOrder_single, ih (j + 1) hj.1 (Or.inr (by simpa using hj.2))]
        rw [show j + 1 + n = j + (n + 1) by omega]
      · rw [if_neg hj, if_neg]
        · rfl
        · rintro ⟨h3, h4⟩
          refine hj ⟨by omega, ?_⟩
          have h5 := h4.resolve_left (by omega)
          have : j * w ≤ (j + (n + 1) - 1) * w := Nat.mul_le_mul_right w (by omega)
          omega
  rw [key n 0 (by omega) (Or.inl rfl), Nat.zero_add]
  by_cases ht : n ≤ tags
  · rw [within_le ht, inOrder_ok, inOrder_single]
    by_cases h0 : n = 0
    · rw [if_pos h0, if_pos ⟨ht, Or.inl h0⟩]
    · rw [if_neg h0]
      unfold within
      congr 1
      rw [eq_iff_iff]
      exact ⟨fun h => h.2.resolve_left h0, fun h => ⟨ht, Or.inr h⟩⟩
  · rw [within_lt (by omega), if_neg (fun h => ht h.1)]
    rfl

theorem node_base {j w len : Nat} {e : UInt64} (hw : e.toNat = w) (hl : len < 2 ^ 60) (h : j = 0 ∨ (j - 1) * w + 3 ≤ len) : (UInt64.ofNat j * e).toNat = j * w := by
  have hlt := e.toNat_lt
  rw [UInt64.toNat_mul, UInt64.toNat_ofNat', Nat.mod_mul_mod, hw, Nat.mod_eq_of_lt]
  rcases h with rfl | h
  · omega
  · match j with
    | 0 => omega
    | 1 => omega
    | j + 2 =>
      have h1 : w ≤ (j + 1) * w := Nat.le_mul_of_pos_left w (by omega)
      have h2 : (j + 2) * w = (j + 1) * w + w := Nat.succ_mul (j + 1) w
      simp only [show j + 2 - 1 = j + 1 from rfl] at h
      omega

theorem snd_nodeAscii22 (cfg : Cfg) {f : MeshFormat} (hv : f.version = b! "2.2") (b : NodeBlock) (h1 : b.tags.length < 2 ^ 60) (h2 : b.data.length < 2 ^ 60) :
    (saveNodeBlockAscii22 cfg b).2 = b.ends f := by
  unfold saveNodeBlockAscii22 NodeBlock.ends
  cases hw : b.rowLength with
  | none => rw [snd_lift_ub (rowLength_none hw)]
  | some w =>
    obtain ⟨e, he, hw⟩ := rowLength_some hw
    rw [snd_lift_ok he]
    refine Eq.trans ?_ (if_pos hv).symm
    refine snd_nodes22 (fun j h3 h4 => ?_) _
    have hb := node_base hw h2 h4
    have hj : (UInt64.ofNat j).toNat = j := by rw [UInt64.toNat_ofNat']; omega
    simp only
    by_cases ht : j < b.tags.length
    swap
    · rw [snd_lift_ub (vecGet_out (by omega)), if_neg (fun h => ht h.1)]
    rw [snd_lift_ok (vecGet_ok hj ht), snd_emit]
    by_cases hx : j * w < b.data.length
    swap
    · rw [snd_lift_ub (vecGet_out (by omega)), if_neg (fun h => by omega)]
    have b1 : (UInt64.ofNat j * e + 1).toNat = j * w + 1 := by rw [UInt64.toNat_add, hb]; show (j * w + 1) % 2 ^ 64 = _; omega
    rw [snd_lift_ok (vecGet_ok hb hx), snd_emit]
    by_cases hy : j * w + 1 < b.data.length
    swap
    · rw [snd_lift_ub (vecGet_out (by omega)), if_neg (fun h => by omega)]
    have b2 : (UInt64.ofNat j * e + 2).toNat = j * w + 2 := by rw [UInt64.toNat_add, hb]; show (j * w + 2) % 2 ^ 64 = _; omega
    rw [snd_lift_ok (vecGet_ok b1 hy), snd_emit, snd_cell _ (fun _ => rfl), b2]
    unfold within
    congr 1
    rw [eq_iff_iff]
    exact ⟨fun h => ⟨ht, h⟩, fun h => h.2⟩

theorem snd_nodeBinary22 {f : MeshFormat} (hv : f.version = b! "2.2") (b : NodeBlock) (h1 : b.tags.length < 2 ^ 60) (h2 : b.data.length < 2 ^ 60) :
    (saveNodeBlockBinary22 b).2 = b.ends f := by
  unfold saveNodeBlockBinary22 NodeBlock.ends
  cases hw : b.rowLength with
  | none => rw [snd_lift_ub (rowLength_none hw)]
  | some w =>
    obtain ⟨e, he, hw⟩ := rowLength_some hw
    rw [snd_lift_ok he]
    refine Eq.trans ?_ (if_pos hv).symm
    refine snd_nodes22 (fun j h3 h4 => ?_) _
    have hb := node_base hw h2 h4
    have hj : (UInt64.ofNat j).toNat = j := by rw [UInt64.toNat_ofNat']; omega
    simp only
    by_cases ht : j < b.tags.length
    swap
    · rw [snd_lift_ub (vecGet_out (by omega)), if_neg (fun h => ht h.1)]
    rw [snd_lift_ok (vecGet_ok hj ht), snd_emit, hb]
    by_cases hx : j * w + 3 ≤ b.data.length
    · rw [if_pos hx, if_pos ⟨ht, hx⟩]; rfl
    · rw [if_neg hx, if_neg (fun h => hx h.2)]; rfl

/-! ## Elements -/

theorem snd_elementAscii41 {f : MeshFormat} (ht : f.fileType = 0) (b : ElementBlock) (h : b.data.length < 2 ^ 60) : (saveElementBlockAscii41 b).2 = b.ends f := by
  unfold saveElementBlockAscii41 ElementBlock.ends
  rw [snd_emit, if_neg (fun h => h.2 ht)]
  cases hk : mshNodes b.elementType with
  | none => exact lift_throw_bind (mshNodes_none hk) _
  | some k =>
    obtain ⟨hn, h56, -⟩ := nodesPerElement_of_mshNodes hk
    have hN : (UInt64.ofNat k).toNat = k := by rw [UInt64.toNat_ofNat']; omega
    have hN1 : (UInt64.ofNat k + 1).toNat = k + 1 := by rw [UInt64.toNat_add, hN]; show (k + 1) % 2 ^ 64 = _; omega
    rw [snd_lift_ok hn, hN, snd_table b.data h hN1.symm fun _ _ _ => rfl]

/-- A row of a version 2.2 table of elements: the tag, then the nodes. -/
theorem snd_row22 {v : List UInt64} (hl : v.length < 2 ^ 60) {k j : Nat} (hj : j * (k + 1) ≤ v.length) {e : UInt64} (he : (e + 1).toNat = k + 1) {head : UInt64 → Bytes}
    {cell : Nat → UInt64 → Wr Unit} (hc : ∀ k a, (cell k a).2 = .ok ()) :
    (Wr.lift (vecGet v (UInt64.ofNat j * (e + 1))) >>= fun num => emit (head num) >>= fun _ =>
      loopW (fun k => Wr.lift (vecGet v (UInt64.ofNat j * (e + 1) + UInt64.ofNat k + 1)) >>= cell k) k 0).2 = within v.length (j * (k + 1) + (k + 1)) := by
  have hb := table_base (e := e + 1) (j := j) (l := v.length) (by rw [he]; exact hj) hl
  rw [he] at hb
  by_cases h0 : j * (k + 1) < v.length
  · rw [snd_lift_ok (vecGet_ok hb h0), snd_emit, snd_cells (len := v.length) (base := j * (k + 1) + 1) (fun i hi => ?_) k 0 (by omega)]
    · congr 1; omega
    · rw [snd_cell v (hc i)]
      congr 1
      rw [UInt64.toNat_add, cell_index (l := v.length) (by omega) hl, hb]
      show (j * (k + 1) + i + 1) % 2 ^ 64 + 1 = _
      omega
  · rw [snd_lift_ub (vecGet_out (by omega)), within_lt (by omega)]

theorem snd_elementAscii22 {f : MeshFormat} (hv : f.version = b! "2.2") (b : ElementBlock) (h : b.data.length < 2 ^ 60) : (saveElementBlockAscii22 b).2 = b.ends f := by
  unfold saveElementBlockAscii22 ElementBlock.ends
  rw [if_neg (fun h => absurd h.1 (by rw [hv]; decide))]
  cases hk : mshNodes b.elementType with
  | none => exact lift_throw_bind (mshNodes_none hk) _
  | some k =>
    obtain ⟨hn, h56, -⟩ := nodesPerElement_of_mshNodes hk
    have hN : (UInt64.ofNat k).toNat = k := by rw [UInt64.toNat_ofNat']; omega
    have hN1 : (UInt64.ofNat k + 1).toNat = k + 1 := by rw [UInt64.toNat_add, hN]; show (k + 1) % 2 ^ 64 = _; omega
    rw [snd_lift_ok hn, hN]
    have := snd_rows (len := b.data.length) (w := k + 1) (fun j hj => snd_row22 h hj hN1 (head := fun num => decU64 num ++ [32] ++ decI32 b.elementType ++ [32] ++ decI32 1 ++ [32] ++
      decI32 b.entityTag ++ [32]) (cell := fun i t => do emit (decU64 t); emit (if UInt64.ofNat i = UInt64.ofNat k - 1 then endl else [32])) fun _ _ => rfl) b.numElementsInBlock.toNat 0 (by omega)
    rw [Nat.zero_add] at this
    exact this

theorem snd_elementBinary22 {f : MeshFormat} (hv : f.version = b! "2.2") (b : ElementBlock) (h : b.data.length < 2 ^ 60) : (saveElementBlockBinary22 b).2 = b.ends f := by
  unfold saveElementBlockBinary22 ElementBlock.ends
  rw [snd_emit, if_neg (fun h => absurd h.1 (by rw [hv]; decide))]
  cases hk : mshNodes b.elementType with
  | none => exact lift_throw_bind (mshNodes_none hk) _
  | some k =>
    obtain ⟨hn, h56, -⟩ := nodesPerElement_of_mshNodes hk
    have hN : (UInt64.ofNat k).toNat = k := by rw [UInt64.toNat_ofNat']; omega
    have hN1 : (UInt64.ofNat k + 1).toNat = k + 1 := by rw [UInt64.toNat_add, hN]; show (k + 1) % 2 ^ 64 = _; omega
    rw [snd_lift_ok hn, hN]
    have := snd_rows (len := b.data.length) (w := k + 1) (fun j hj => snd_row22 h hj hN1 (head := fun num => encI32 (intOfSize num) ++ encI32 b.entityTag)
      (cell := fun _ t => emit (encI32 (intOfSize t))) fun _ _ => rfl) b.numElementsInBlock.toNat 0 (by omega)
    rw [Nat.zero_add] at this
    exact this

/-! ## Sections -/

theorem versionEnds_known {f : MeshFormat} (h : f.version = b! "4.1" ∨ f.version = b! "2.2") : versionEnds f = .ok () := if_pos h

theorem snd_saveNodes (cfg : Cfg) (f : MeshFormat) (n : Nodes) (hl : n.entityBlocks.length < 2 ^ 60) (h : ∀ b ∈ n.entityBlocks, b.tags.length < 2 ^ 60 ∧ b.data.length < 2 ^ 60) :
    (saveNodes cfg f n).2 = inOrder [versionEnds f, blocksEnd (NodeBlock.ends f) n.entityBlocks n.numEntityBlocks.toNat] := by
  unfold saveNodes
  rw [snd_emit]
  by_cases h41 : f.version = b! "4.1"
  · rw [if_pos h41, versionEnds_known (Or.inl h41), inOrder_ok, inOrder_single]
    by_cases ht : f.fileType = 0
    · rw [if_pos ht, snd_last]
      unfold saveNodesAscii41
      rw [snd_emit, snd_blocks _ hl]
      exact blocksEnd_congr (fun b hb => snd_nodeAscii41 cfg h41 ht b (h b hb).1 (h b hb).2) _
    · rw [if_neg ht, snd_last]
      unfold saveNodesBinary41
      rw [snd_emit, snd_blocks _ hl]
      exact blocksEnd_congr (fun b hb => snd_nodeBinary41 h41 ht b) _
  · rw [if_neg h41]
    by_cases h22 : f.version = b! "2.2"
    · rw [if_pos h22, versionEnds_known (Or.inr h22), inOrder_ok, inOrder_single]
      by_cases ht : f.fileType = 0
      · rw [if_pos ht, snd_last]
        unfold saveNodesAscii22
        rw [snd_emit, snd_blocks _ hl]
        exact blocksEnd_congr (fun b hb => snd_nodeAscii22 cfg h22 b (h b hb).1 (h b hb).2) _
      · rw [if_neg ht, snd_last]
        unfold saveNodesBinary22
        rw [snd_emit, snd_blocks _ hl]
        exact blocksEnd_congr (fun b hb => snd_nodeBinary22 h22 b (h b hb).1 (h b hb).2) _
    · rw [if_neg h22, snd_last]
      unfold versionEnds
      rw [if_neg (by rintro (h | h) <;> contradiction)]
      rfl

theorem snd_saveElements (f : MeshFormat) (n : Elements) (hl : n.entityBlocks.length < 2 ^ 60) (h : ∀ b ∈ n.entityBlocks, b.data.length < 2 ^ 60) :
    (saveElements f n).2 = inOrder [versionEnds f, blocksEnd (ElementBlock.ends f) n.entityBlocks n.numEntityBlocks.toNat] := by
  unfold saveElements
  rw [snd_emit]
  by_cases h41 : f.version = b! "4.1"
  · rw [if_pos h41, versionEnds_known (Or.inl h41), inOrder_ok, inOrder_single]
    by_cases ht : f.fileType = 0
    · rw [if_pos ht, snd_last]
      unfold saveElementsAscii41
      rw [snd_emit, snd_blocks _ hl]
      exact blocksEnd_congr (fun b hb => snd_elementAscii41 ht b (h b hb)) _
    · rw [if_neg ht, snd_last]
      unfold saveElementsBinary41
      rw [snd_emit, snd_blocks _ hl]
      refine blocksEnd_congr (fun b hb => ?_) _
      unfold ElementBlock.ends
      rw [if_pos ⟨h41, ht⟩]
      rfl
  · rw [if_neg h41]
    by_cases h22 : f.version = b! "2.2"
    · rw [if_pos h22, versionEnds_known (Or.inr h22), inOrder_ok, inOrder_single]
      by_cases ht : f.fileType = 0
      · rw [if_pos ht, snd_last]
        unfold saveElementsAscii22
        rw [snd_emit, snd_blocks _ hl]
        exact blocksEnd_congr (fun b hb => snd_elementAscii22 h22 b (h b hb)) _
      · rw [if_neg ht, snd_last]
        unfold saveElementsBinary22
        rw [snd_emit, snd_blocks _ hl]
        exact blocksEnd_congr (fun b hb => snd_elementBinary22 h22 b (h b hb)) _
    · rw [if_neg h22, snd_last]
      unfold versionEnds
      rw [if_neg (by rintro (h | h) <;> contradiction)]
      rfl

theorem snd_saveData (cfg : Cfg) (f : MeshFormat) (name : Bytes) (i : Bool) (ds : List Data) :
    (whenW (decide (ds.length > 0)) (saveDataSections cfg f name i ds)).2 = dataEnds f ds := by
  have h := saveDataSections_okIff cfg f name i ds
  cases ds with
  | nil => unfold dataEnds; rw [if_neg (fun h => h.1 rfl)]; rfl
  | cons d ds =>
    show (saveDataSections cfg f name i (d :: ds)).2 = _
    unfold dataEnds
    have hz : 0 < f.fileType ↔ 0 < f.fileType.toInt := Int32.lt_iff_toInt_lt
    simp only [← hz]
    by_cases hk : 0 < f.fileType ∧ ¬ (f.version = b! "4.1" ∨ f.version = b! "2.2")
    · rw [if_pos ⟨by simp, hk⟩]
      exact h.2 fun hh => by
        rcases hh d List.mem_cons_self with h1 | h1
        · exact h1 hk.1
        · exact hk.2 h1
    · rw [if_neg (fun h => hk h.2)]
      refine h.1 fun d _ => ?_
      by_cases h1 : 0 < f.fileType
      · exact Or.inr (Classical.not_not.mp fun h2 => hk ⟨h1, h2⟩)
      · exact Or.inl h1

/-! ## Curves and patches -/

theorem snd_knots (cfg : Cfg) (data : List Double) (hl : data.length < 2 ^ 60) (ks : List UInt64) :
    ∀ {start : UInt64} {n : Nat}, start.toNat = n → n ≤ data.length → (saveControl.saveKnots cfg data start ks).2 = within data.length (n + (ks.map UInt64.toNat).sum) := by
  induction ks with
  | nil => intro start n h1 h2; exact (within_le (by simpa using h2)).symm
  | cons k ks ih =>
    intro start n h1 h2
    rw [saveControl.saveKnots, snd_bind, snd_cells (len := data.length) (base := n) (fun i hi => ?_) k.toNat 0 (by omega), Nat.add_zero, List.map_cons, List.sum_cons]
    · by_cases hk : n + k.toNat ≤ data.length
      · have : (start + k).toNat = n + k.toNat := by rw [UInt64.toNat_add, h1]; omega
        rw [within_le hk, inOrder_ok, inOrder_single, ih this hk, Nat.add_assoc]
      · rw [within_lt (by omega), within_lt (by omega)]
        rfl
    · rw [snd_cell data (fun _ => rfl), cell_index (l := data.length) (by omega) hl, h1]

theorem snd_control (cfg : Cfg) (data : List Double) (hl : data.length < 2 ^ 60) (points dim : UInt64) (ks : List UInt64) :
    (saveControl cfg data points dim ks).2 = within data.length (points.toNat * dim.toNat + (ks.map UInt64.toNat).sum) := by
  unfold saveControl
  rw [snd_bind, snd_table data hl rfl fun _ _ _ => rfl]
  by_cases h : points.toNat * dim.toNat ≤ data.length
  · have : (points * dim).toNat = points.toNat * dim.toNat := by rw [UInt64.toNat_mul]; omega
    rw [within_le h, inOrder_ok, inOrder_single, snd_knots cfg data hl ks this h]
  · rw [within_lt (by omega), within_lt (by omega)]
    rfl

theorem snd_assertW (cfg : Cfg) {c : Bool} {P : Prop} [Decidable P] (h : c = true ↔ ¬ P) : (assertW cfg c).2 = if cfg.asserts = true ∧ P then .abort else .ok () := by
  unfold assertW
  by_cases hp : P
  · have : c = false := by rw [← Bool.not_eq_true, h]; simpa using hp
    subst this
    cases cfg.asserts <;> simp [hp] <;> rfl
  · have : c = true := h.mpr hp
    subst this
    simp [hp]; rfl

theorem control_ends {asserts : Bool} {f : MeshFormat} {len points knots : Nat} {weights : Bool} {body : Outcome Unit}
    (hb : body = within len (if f.fileType = 0 then points * (if weights then 4 else 3) + knots else (points * (if weights then 4 else 3) + knots) % 2 ^ 61)) :
    inOrder [if asserts = true ∧ len ≠ (points * (if weights then 4 else 3) + knots) % 2 ^ 64 then .abort else .ok (), body] = controlEnds asserts f len points weights knots := by
  unfold controlEnds
  simp only
  rw [← hb]
  generalize points * (if weights then 4 else 3) + knots = t
  by_cases h : asserts = true ∧ len ≠ t % 2 ^ 64
  · rw [if_pos h, if_pos h]; rfl
  · rw [if_neg h, if_neg h, inOrder_ok, inOrder_single]

theorem size_eq_iff {v : List Double} (hl : v.length < 2 ^ 60) {n : UInt64} : n = sizeU v ↔ ¬ v.length ≠ n.toNat := by
  have : (sizeU v).toNat = v.length := by unfold sizeU; rw [UInt64.toNat_ofNat']; omega
  rw [Classical.not_not, ← this, ← UInt64.toNat_inj]
  exact eq_comm

theorem weights_toNat (w : UInt64) : ((if 0 < w then 4 else 3 : UInt64)).toNat = if decide (0 < w) = true then 4 else 3 := by
  by_cases h : 0 < w <;> simp [h]

theorem curve_total (c : Curve) : c.numEntries.toNat = (c.numControlPoints.toNat * (if decide (0 < c.withWeights) = true then 4 else 3) + c.numKnots.toNat) % 2 ^ 64 := by
  unfold Curve.numEntries
  rw [UInt64.toNat_add, UInt64.toNat_mul, weights_toNat]
  omega

theorem patch_total (p : Patch) :
    p.numEntries.toNat = (p.numControlPoints.toNat * (if decide (0 < p.withWeights) = true then 4 else 3) + (p.numUKnots.toNat + p.numVKnots.toNat)) % 2 ^ 64 := by
  unfold Patch.numEntries
  rw [UInt64.toNat_add, UInt64.toNat_add, UInt64.toNat_mul, weights_toNat]
  omega

theorem snd_curve (cfg : Cfg) (f : MeshFormat) (c : Curve) (hl : c.data.length < 2 ^ 60) :
    (if f.fileType = 0 then saveCurveAscii cfg c else saveCurveBinary cfg c).2 =
      controlEnds cfg.asserts f c.data.length c.numControlPoints.toNat (0 < c.withWeights) c.numKnots.toNat := by
  have ha : (assertW cfg (c.numEntries == sizeU c.data)).2 = if cfg.asserts = true ∧ c.data.length ≠ c.numEntries.toNat then .abort else .ok () :=
    snd_assertW cfg (by rw [beq_iff_eq]; exact size_eq_iff hl)
  rw [curve_total] at ha
  by_cases ht : f.fileType = 0
  · rw [if_pos ht]
    unfold saveCurveAscii
    rw [snd_emit, snd_bind, ha]
    refine control_ends ?_
    rw [if_pos ht, snd_control cfg _ hl, weights_toNat]
    simp
  · rw [if_neg ht]
    unfold saveCurveBinary
    rw [snd_emit, snd_bind, ha]
    refine control_ends ?_
    rw [if_neg ht, snd_writeN, curve_total]
    congr 1
    omega

theorem snd_patch (cfg : Cfg) (f : MeshFormat) (c : Patch) (hl : c.data.length < 2 ^ 60) :
    (if f.fileType = 0 then savePatchAscii cfg c else savePatchBinary cfg c).2 =
      controlEnds cfg.asserts f c.data.length c.numControlPoints.toNat (0 < c.withWeights) (c.numUKnots.toNat + c.numVKnots.toNat) := by
  have ha : (assertW cfg (sizeU c.data == c.numEntries)).2 = if cfg.asserts = true ∧ c.data.length ≠ c.numEntries.toNat then .abort else .ok () :=
    snd_assertW cfg (by rw [beq_iff_eq, eq_comm]; exact size_eq_iff hl)
  rw [patch_total] at ha
  by_cases ht : f.fileType = 0
  · rw [if_pos ht]
    unfold savePatchAscii
    rw [snd_emit, snd_bind, ha]
    refine control_ends ?_
    rw [if_pos ht, snd_control cfg _ hl, weights_toNat]
    simp
  · rw [if_neg ht]
    unfold savePatchBinary
    rw [snd_emit, snd_bind, ha]
    refine control_ends ?_
    rw [if_neg ht, snd_writeN, patch_total]
    congr 1
    omega

theorem snd_saveCurves (cfg : Cfg) (f : MeshFormat) (cs : List Curve) (h : ∀ c ∈ cs, c.data.length < 2 ^ 60) :
    (whenW (decide (cs.length > 0)) (saveCurves cfg f cs)).2 =
      inOrder (cs.map fun c => controlEnds cfg.asserts f c.data.length c.numControlPoints.toNat (0 < c.withWeights) c.numKnots.toNat) := by
  rw [snd_when, ← List.map_congr_left fun c hc => snd_curve cfg f c (h c hc)]
  cases cs with
  | nil => rfl
  | cons c cs =>
    rw [if_pos (by simp)]
    unfold saveCurves
    rw [snd_emit, snd_emit]
    split <;> rw [snd_last, snd_forW]

theorem snd_savePatches (cfg : Cfg) (f : MeshFormat) (cs : List Patch) (h : ∀ c ∈ cs, c.data.length < 2 ^ 60) :
    (whenW (decide (cs.length > 0)) (savePatches cfg f cs)).2 =
      inOrder (cs.map fun c => controlEnds cfg.asserts f c.data.length c.numControlPoints.toNat (0 < c.withWeights) (c.numUKnots.toNat + c.numVKnots.toNat)) := by
  rw [snd_when, ← List.map_congr_left fun c hc => snd_patch cfg f c (h c hc)]
  cases cs with
  | nil => rfl
  | cons c cs =>
    rw [if_pos (by simp)]
    unfold savePatches
    rw [snd_emit, snd_emit]
    split <;> rw [snd_last, snd_forW]

/-! ## The whole spec -/

theorem ite_not_eq {n : UInt64} {a b : Outcome Unit} : (if decide (n > 0) = true then a else b) = if n = 0 then b else a := by
  by_cases h : n = 0
  · rw [if_pos h, if_neg (by rw [pos_iff]; exact fun h2 => h2 h)]
  · rw [if_neg h, if_pos (by rw [pos_iff]; exact h)]

theorem saveMsh_ends (cfg : Cfg) (s : MshSpec) (hm : s.InMemory) : (saveMsh cfg s).2 = saveEnds cfg s := by
  have hnb : s.nodes.entityBlocks.length < 2 ^ 60 := hm _ (mem_sizes.mpr (Or.inl (by simp)))
  have heb : s.elements.entityBlocks.length < 2 ^ 60 := hm _ (mem_sizes.mpr (Or.inl (by simp)))
  have hn : ∀ b ∈ s.nodes.entityBlocks, b.tags.length < 2 ^ 60 ∧ b.data.length < 2 ^ 60 := fun b hb =>
    have : ∀ n ∈ [b.tags.length, b.data.length], n < 2 ^ 60 := fun n hn =>
      hm n (mem_sizes.mpr (Or.inr (Or.inr (Or.inr (Or.inl (List.mem_flatMap.mpr ⟨b, hb, hn⟩))))))
    ⟨this _ (by simp), this _ (by simp)⟩
  have he : ∀ b ∈ s.elements.entityBlocks, b.data.length < 2 ^ 60 := fun b hb =>
    hm _ (mem_sizes.mpr (Or.inr (Or.inr (Or.inr (Or.inr (Or.inl (List.mem_map.mpr ⟨b, hb, rfl⟩)))))))
  have hcs : ∀ c ∈ s.curves, c.data.length < 2 ^ 60 := fun c hc => hm _ (mem_sizes.mpr (Or.inr (Or.inr (Or.inr (Or.inr (Or.inr (Or.inr
    (Or.inl (List.mem_map.mpr ⟨c, hc, rfl⟩)))))))))
  have hps : ∀ c ∈ s.patches, c.data.length < 2 ^ 60 := fun c hc => hm _ (mem_sizes.mpr (Or.inr (Or.inr (Or.inr (Or.inr (Or.inr (Or.inr
    (Or.inr (List.mem_map.mpr ⟨c, hc, rfl⟩)))))))))
  have h1 : Goes (saveMeshFormat s.meshFormat) := Goes.bind (Goes.emit _) (Goes.bind (Goes.emit _)
    (Goes.bind (Goes.when fun _ => Goes.emit _) (Goes.emit _)))
  have h2 : Goes (savePhysicalGroups s.physicalGroups) := Goes.bind (Goes.emit _) (Goes.bind (Goes.emit _)
    (Goes.bind (Goes.forW _ fun _ _ => Goes.emit _) (Goes.emit _)))
  have h3 : (whenW (!s.entities.empty) (saveEntities cfg s.meshFormat s.entities)).2 =
      if s.entities.points = [] ∧ s.entities.curves = [] ∧ s.entities.surfaces = [] ∧ s.entities.volumes = [] then .ok () else versionEnds s.meshFormat := by
    rw [snd_when, (saveEntities_okIff cfg s.meshFormat s.entities).exact]
    by_cases hE : s.entities.empty = true
    · rw [if_pos ((Entities.empty_iff _).mp hE), if_neg (by simp [hE])]
    · rw [if_neg (fun h => hE ((Entities.empty_iff _).mpr h)), if_pos (by simpa using hE)]
      rfl
  have h4 : (whenW (decide (s.nodes.numNodes > 0)) (saveNodes cfg s.meshFormat s.nodes)).2 = if s.nodes.numNodes = 0 then .ok () else
      inOrder [versionEnds s.meshFormat, blocksEnd (NodeBlock.ends s.meshFormat) s.nodes.entityBlocks s.nodes.numEntityBlocks.toNat] := by
    rw [snd_when, snd_saveNodes cfg _ _ hnb hn, ite_not_eq]
  have h5 : (whenW (decide (s.elements.numElements > 0)) (saveElements s.meshFormat s.elements)).2 = if s.elements.numElements = 0 then .ok () else
      inOrder [versionEnds s.meshFormat, blocksEnd (ElementBlock.ends s.meshFormat) s.elements.entityBlocks s.elements.numEntityBlocks.toNat] := by
    rw [snd_when, snd_saveElements _ _ heb he, ite_not_eq]
  unfold saveMsh saveEnds
  rw [h1.bind_snd, (Goes.when fun _ => h2).bind_snd, snd_bind, h3, snd_bind, h4, snd_bind, h5, snd_bind, snd_saveData, snd_bind, snd_saveData, snd_bind, snd_saveData, snd_when]
  have h6 : (saveNanosplineFormat s.nanosplineVersion >>= fun _ => whenW (decide (s.curves.length > 0)) (saveCurves cfg s.meshFormat s.curves) >>= fun _ =>
      whenW (decide (s.patches.length > 0)) (savePatches cfg s.meshFormat s.patches)).2 = inOrder (
        s.curves.map (fun c => controlEnds cfg.asserts s.meshFormat c.data.length c.numControlPoints.toNat (0 < c.withWeights) c.numKnots.toNat) ++
        s.patches.map fun p => controlEnds cfg.asserts s.meshFormat p.data.length p.numControlPoints.toNat (0 < p.withWeights) (p.numUKnots.toNat + p.numVKnots.toNat)) := by
    have h0 : Goes (saveNanosplineFormat s.nanosplineVersion) := Goes.bind (Goes.emit _) (Goes.bind (Goes.emit _) (Goes.emit _))
    rw [h0.bind_snd, snd_bind, snd_saveCurves cfg _ _ hcs,
      snd_savePatches cfg _ _ hps, inOrder_append]
  simp only [List.cons_append, List.nil_append]
  rw [h6]
  have h7 : ∀ {c : Bool} {l : List (Outcome Unit)}, (if c = true then inOrder l else .ok ()) = inOrder (if c = true then l else []) := by
    intro c l; cases c <;> rfl
  rw [h7]
  simp only [← inOrder_cons]

end MshIO
