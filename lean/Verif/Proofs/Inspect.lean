import Verif.Proofs.FormatLines
import Verif.Proofs.Resave
import Verif.Proofs.DblRound
import Verif.Spec.Report
import Verif.Model.Inspect

/-!
# What `msh_inspect` prints
-/

namespace MshIO

theorem linesText_append (a b : List Bytes) : linesText (a ++ b) = linesText a ++ linesText b := by simp [linesText]

theorem linesText_cons (a : Bytes) (b : List Bytes) : linesText (a :: b) = a ++ b! "\n" ++ linesText b := rfl

theorem linesText_nil : linesText [] = [] := rfl

theorem linesText_flatMap {α : Type} (v : List α) (f : α → List Bytes) : linesText (v.flatMap f) = v.flatMap fun a => linesText (f a) := by
  simp [linesText, List.flatMap_assoc]

theorem linesText_map {α : Type} (v : List α) (f : α → Bytes) : linesText (v.map f) = v.flatMap fun a => f a ++ b! "\n" := by
  simp [linesText, List.flatMap_map]

theorem linesText_onlyIf (c : Prop) [Decidable c] (x : List Bytes) : linesText (onlyIf c x) = onlyIf c (linesText x) := by
  unfold onlyIf; split <;> rfl

/-- One line. -/
theorem writes_line (c t : Bytes) {x : Bytes} (h : x = t) : Writes (emit (c ++ x ++ endl)) (c ++ t ++ b! "\n") := by
  subst h; exact Writes.emit _

theorem writes_listed {α : Type} (v : List α) (f g : α → Bytes) (h : ∀ a ∈ v, f a = g a) :
    Writes (forW (fun a => emit (f a ++ [32])) v) (listed (v.map g)) := by
  unfold listed
  rw [List.flatMap_map]
  exact Writes.forW v fun a ha => Writes.cast (Writes.emit _) (by rw [h a ha])

theorem inspectTags_writes (caption : Bytes) {v : List Int32} (h : v.length < 2 ^ 60) :
    Writes (inspectTags caption v) (linesText (tagsReport caption v)) := by
  unfold inspectTags tagsReport
  rw [linesText_cons, linesText_onlyIf]
  refine Writes.bind (writes_line _ _ (decSize_eq h)) (writes_only ?_ fun _ => ?_)
  · rw [pos_iff, ← len_iff, decide_eq_true_iff]
    rw [Ne, ← UInt64.toNat_inj, sizeU_toNat (by omega)]
    show ¬ v.length = 0 ↔ _
    omega
  · rw [linesText_cons, linesText_nil, List.append_nil, List.append_assoc]
    exact Writes.bind (Writes.emit _) (Writes.bind (writes_listed v _ _ fun t _ => decI32_eq t) (Writes.emit _))

theorem triple_writes (caption : Bytes) (x y z : Double) :
    Writes (emit (caption ++ coutDouble x ++ [32] ++ coutDouble y ++ [32] ++ coutDouble z ++ endl))
      (tripleReport (.general 6) caption x y z ++ b! "\n") := Writes.emit _

theorem inspectPoint_writes {p : PointEntity} (h : p.physicalGroupTags.length < 2 ^ 60) :
    Writes (inspectPoint p) (linesText (pointReport (.general 6) p)) := by
  unfold inspectPoint pointReport
  rw [linesText_cons, linesText_cons]
  exact Writes.bind (writes_line _ _ (decI32_eq _)) (Writes.bind (triple_writes _ _ _ _) (inspectTags_writes _ h))

theorem inspectBox_writes {p : BoxEntity} (bounds : Bytes) (h : p.physicalGroupTags.length < 2 ^ 60) (h' : p.boundaryTags.length < 2 ^ 60) :
    Writes (inspectBox (b! "  Num boundary " ++ bounds ++ b! ": ") p) (linesText (boxReport (.general 6) bounds p)) := by
  unfold inspectBox boxReport
  rw [linesText_cons, linesText_cons, linesText_cons, linesText_append]
  exact Writes.bind (writes_line _ _ (decI32_eq _)) (Writes.bind (triple_writes _ _ _ _) (Writes.bind (triple_writes _ _ _ _)
    (Writes.bind (inspectTags_writes _ h) (inspectTags_writes _ h'))))

theorem inspectEntities_writes {e : Entities} (h : ∀ n ∈ e.sizes, n < 2 ^ 60) :
    Writes (inspectEntities e) (linesText (entitiesReport (.general 6) e)) := by
  have hb : ∀ p ∈ e.curves ++ e.surfaces ++ e.volumes, p.physicalGroupTags.length < 2 ^ 60 ∧ p.boundaryTags.length < 2 ^ 60 := fun p hp => by
    have : ∀ n ∈ [p.physicalGroupTags.length, p.boundaryTags.length], n < 2 ^ 60 := fun n hn => h n (by
      unfold Entities.sizes
      exact List.mem_append_right _ (List.mem_flatMap.mpr ⟨p, hp, hn⟩))
    exact ⟨this _ (by simp), this _ (by simp)⟩
  have hl : ∀ n ∈ [e.points.length, e.curves.length, e.surfaces.length, e.volumes.length], n < 2 ^ 60 := fun n hn => h n (by
    unfold Entities.sizes
    exact List.mem_append_left _ (List.mem_append_left _ hn))
  have hp : ∀ p ∈ e.points, p.physicalGroupTags.length < 2 ^ 60 := fun p hp => h _ (by
    unfold Entities.sizes
    exact List.mem_append_left _ (List.mem_append_right _ (List.mem_map.mpr ⟨p, hp, rfl⟩)))
  unfold inspectEntities entitiesReport
  have key : ∀ (v : List BoxEntity) (bounds cap : Bytes), cap = b! "  Num boundary " ++ bounds ++ b! ": " →
      (∀ p ∈ v, p ∈ e.curves ++ e.surfaces ++ e.volumes) →
      Writes (forW (inspectBox cap) v) (v.flatMap fun p => linesText (boxReport (.general 6) bounds p)) := by
    intro v bounds cap hc hv
    subst hc
    exact Writes.forW v fun p hp => inspectBox_writes bounds (hb p (hv p hp)).1 (hb p (hv p hp)).2
  have l : ∀ {α : Type} (c : Bytes) (v : List α), v.length < 2 ^ 60 → Writes (emit (c ++ decU64 (sizeU v) ++ endl)) (c ++ natText v.length ++ b! "\n") :=
    fun c v h => writes_line _ _ (decSize_eq h)
  refine (Writes.bind (l _ e.points (hl _ (by simp))) (Writes.bind (Writes.forW _ fun p h => inspectPoint_writes (hp p h))
    (Writes.bind (l _ e.curves (hl _ (by simp))) (Writes.bind (key e.curves (b! "points") (b! "  Num boundary points: ") rfl fun p h => by simp [h])
    (Writes.bind (l _ e.surfaces (hl _ (by simp))) (Writes.bind (key e.surfaces (b! "curves") (b! "  Num boundary curves: ") rfl fun p h => by simp [h])
    (Writes.bind (l _ e.volumes (hl _ (by simp))) (key e.volumes (b! "surfaces") (b! "  Num boundary surfaces: ") rfl fun p h => by simp [h])))))))).cast ?_
  simp only [List.cons_append, linesText_cons, linesText_append, linesText_flatMap, List.append_assoc]

theorem inspectGroups_writes {gs : List PhysicalGroup} (h : gs.length < 2 ^ 60) :
    Writes (inspectGroups gs) (linesText (groupsReport gs)) := by
  unfold inspectGroups groupsReport
  rw [linesText_cons, linesText_flatMap]
  refine Writes.bind (writes_line _ _ (decSize_eq h)) (Writes.forW _ fun g _ => ?_)
  refine (Writes.bind (writes_line _ _ (decI32_eq _)) (Writes.bind (writes_line _ _ (decI32_eq _)) (writes_line _ _ (quoted_eq _).symm))).cast ?_
  simp [linesText]

/-- A loop over the values of a row. -/
theorem writes_values {α : Type} (d : α) (f : α → Bytes) {v : List α} {a k i₀ : Nat} (hb : a + i₀ + k ≤ v.length) {g : Nat → Wr Unit}
    (h : ∀ i, i < i₀ + k → (hb : a + i < v.length) → Writes (g i) (f v[a + i] ++ [32])) :
    Writes (loopW g k i₀) (listed (((v.drop (a + i₀)).take k).map f)) := by
  rw [row_get d hb]
  unfold listed
  rw [List.map_map, List.flatMap_map]
  refine (Writes.loopW _ i₀ (enc := fun i => f (v.getD (a + i) d) ++ [32]) fun i _ hi => ?_).cast ?_
  · have hg : v.getD (a + i) d = v[a + i] := by simp [show a + i < v.length by omega]
    rw [hg]
    exact h i hi (by omega)
  · rw [show List.range' i₀ k = (List.range' 0 k).map (i₀ + ·) by simp [List.map_add_range'], List.flatMap_map]
    simp [Nat.add_assoc]

/-! ## Nodes -/

theorem inspectStride_ok {p : Int32} (h1 : 0 ≤ 3 + p.toInt) (h2 : 3 + p.toInt < 2 ^ 31) :
    ∃ w, inspectStride p = .ok w ∧ w.toNat = (3 + p.toInt).toNat := by
  refine ⟨sizeOfInt (3 + p), ?_, ?_⟩
  · unfold inspectStride
    rw [if_neg (by omega)]
  · have e : (3 + p).toInt = 3 + p.toInt := by
      rw [Int32.toInt_add]
      have : (3 : Int32).toInt = 3 := rfl
      rw [this]
      have := Int32.le_toInt p
      rw [Int.bmod_def]
      omega
    rw [sizeOfInt_toNat (by omega), e]

theorem inspectNodeBlock_head (b : NodeBlock) (ht : b.tags.length = b.numNodesInBlock.toNat) {w : Wr Unit} {x : Bytes} (h : Writes w x) :
    Writes (do
      emit (b! "  entity dim: " ++ decI32 b.entityDim ++ endl)
      emit (b! "  entity tag: " ++ decI32 b.entityTag ++ endl)
      emit (b! "  parametric: " ++ decI32 b.parametric ++ endl)
      emit (b! "  num nodes in block: " ++ decU64 b.numNodesInBlock ++ endl)
      w) (linesText (nodeBlockHead b) ++ x) := by
  refine (Writes.bind (writes_line _ _ (decI32_eq _)) (Writes.bind (writes_line _ _ (decI32_eq _)) (Writes.bind (writes_line _ _ (decI32_eq _))
    (Writes.bind (writes_line _ _ (decU64_eq _)) h)))).cast ?_
  rw [← ht]
  simp [linesText, nodeBlockHead]

theorem inspectNodeBlock_writes {b : NodeBlock} (ht : b.tags.length = b.numNodesInBlock.toNat) (hm : b.data.length < 2 ^ 60)
    (hlo : 0 ≤ 3 + b.parametric.toInt) (hhi : 3 + b.parametric.toInt < 2 ^ 31)
    (hd : b.tags.length * shownColumns b ≤ b.data.length) :
    Writes (inspectNodeBlock b) (linesText (nodeBlockReport (.general 6) (shownColumns b) b)) := by
  obtain ⟨w, hw, hwn⟩ := inspectStride_ok hlo hhi
  have hwn : w.toNat = shownColumns b := hwn
  unfold inspectNodeBlock nodeBlockReport
  rw [linesText_append]
  refine inspectNodeBlock_head b ht ?_
  have hz : List.zipWith (fun (t : UInt64) (r : List Double) => b! "    " ++ natText t.toNat ++ b! ": " ++ listed (r.map (fmtDouble (.general 6))))
      b.tags (rows (shownColumns b) b.tags.length b.data) = (List.range' 0 b.tags.length).map fun j =>
        b! "    " ++ natText (b.tags.getD j 0).toNat ++ b! ": " ++
          listed (((b.data.drop (j * shownColumns b)).take (shownColumns b)).map (fmtDouble (.general 6))) := by
    apply List.ext_getElem
    · simp [rows]
    · intro i h1 h2
      have hi : i < b.tags.length := by simpa using h2
      simp [rows, hi]
  rw [hz, linesText_map, ← ht]
  refine Writes.loopW _ 0 fun j _ hj => ?_
  have hj : j < b.tags.length := by omega
  have hlt : b.tags.length < 2 ^ 64 := by rw [ht]; exact b.numNodesInBlock.toNat_lt
  have hbd : j * shownColumns b + shownColumns b ≤ b.data.length := by
    calc j * shownColumns b + shownColumns b = (j + 1) * shownColumns b := by rw [Nat.add_mul, Nat.one_mul]
      _ ≤ b.tags.length * shownColumns b := Nat.mul_le_mul_right _ hj
      _ ≤ _ := hd
  refine Writes.lift (vecGet_ok (ofNat_toNat_lt (by omega)) hj) ?_
  have hg : b.tags.getD j 0 = b.tags[j] := by simp [hj]
  rw [hg]
  have hrow : Writes (loopW (fun k => do
      let d ← Wr.lift (vecGet b.data (UInt64.ofNat j * w + UInt64.ofNat k))
      emit (coutDouble d ++ [32])) w.toNat 0)
      (listed (((b.data.drop (j * shownColumns b + 0)).take (shownColumns b)).map (fmtDouble (.general 6)))) := by
    rw [hwn]
    refine writes_values Double.zero _ (by omega) fun k hk hb => ?_
    refine Writes.lift (vecGet_ok ?_ hb) (Writes.emit _)
    rw [idx_toNat (by rw [hwn]; omega), hwn]
  refine (Writes.bind (Writes.emit _) (Writes.lift hw (Writes.bind hrow (Writes.emit _)))).cast ?_
  rw [decU64_eq]
  simp [endl]

/-! ## Elements -/

theorem inspectElementBlock_writes {b : ElementBlock} (h : b.Ok) (hm : b.data.length < 2 ^ 60) :
    Writes (inspectElementBlock b) (linesText (elementBlockReport b)) := by
  obtain ⟨n, hn, hl⟩ := h.data
  obtain ⟨hn1, hn2, _⟩ := nodesPerElement_of_mshNodes hn
  obtain ⟨e1, e2⟩ := nodes_succ hn2
  unfold inspectElementBlock elementBlockReport
  rw [linesText_append, b.list_eq hn, List.map_map, linesText_map]
  have hd : ∀ {w : Wr Unit} {x : Bytes}, Writes w x → Writes (do
      emit (b! "  entity dim: " ++ decI32 b.entityDim ++ endl)
      emit (b! "  entity tag: " ++ decI32 b.entityTag ++ endl)
      emit (b! "  entity type: " ++ decI32 b.elementType ++ endl)
      emit (b! "  num elements in block: " ++ decU64 b.numElementsInBlock ++ endl)
      w) (linesText [b! "  entity dim: " ++ intText b.entityDim.toInt, b! "  entity tag: " ++ intText b.entityTag.toInt,
   b! "  entity type: " ++ intText b.elementType.toInt, b! "  num elements in block: " ++ natText b.numElementsInBlock.toNat] ++ x) := by
    intro w x h
    refine (Writes.bind (writes_line _ _ (decI32_eq _)) (Writes.bind (writes_line _ _ (decI32_eq _)) (Writes.bind (writes_line _ _ (decI32_eq _))
      (Writes.bind (writes_line _ _ (decU64_eq _)) h)))).cast ?_
    simp [linesText]
  refine hd (Writes.lift hn1 (Writes.loopW _ 0 fun j _ hj => ?_))
  have hj : j < b.numElementsInBlock.toNat := by omega
  have hbd := elem_bound hl hj
  have i0 : ∀ k, k ≤ n → (UInt64.ofNat j * (UInt64.ofNat n + 1) + UInt64.ofNat k).toNat = j * (n + 1) + k := fun k hk => by
    rw [idx_toNat (by rw [e1]; omega), e1]
  have i1 : (UInt64.ofNat j * (UInt64.ofNat n + 1)).toNat = j * (n + 1) := by
    have := i0 0 (by omega)
    simpa using this
  refine Writes.lift (vecGet_ok i1 (by omega)) ?_
  have hg : b.data.getD (j * (n + 1)) 0 = b.data[j * (n + 1)]'(by omega) := by
    rw [List.getD_eq_getElem?_getD, List.getElem?_eq_getElem (by omega)]; rfl
  have hrow : Writes (loopW (fun k => do
      let t ← Wr.lift (vecGet b.data (UInt64.ofNat j * (UInt64.ofNat n + 1) + UInt64.ofNat k))
      emit (decU64 t ++ [32])) (UInt64.ofNat n).toNat 1)
      (listed (((b.data.drop (j * (n + 1) + 1)).take n).map fun t => natText t.toNat)) := by
    rw [e2]
    refine writes_values 0 _ (by omega) fun k hk hb => ?_
    refine Writes.lift (vecGet_ok (i0 k (by omega)) hb) ?_
    rw [← decU64_eq]
    exact Writes.emit _
  refine (Writes.bind (Writes.emit _) (Writes.bind hrow (Writes.emit _))).cast ?_
  show _ = b! "    " ++ natText (b.data.getD (j * (n + 1)) 0).toNat ++ b! ": " ++ _ ++ _
  rw [decU64_eq, hg]
  simp [endl]

theorem inspectElements_writes {e : Elements} (hb : e.entityBlocks.length = e.numEntityBlocks.toNat)
    (h : ∀ b ∈ e.entityBlocks, b.Ok ∧ b.data.length < 2 ^ 60) : Writes (inspectElements e) (linesText (elementsReport e)) := by
  unfold inspectElements elementsReport
  rw [loopBlocks_eq _ _ _ hb.symm, linesText_append, linesText_flatMap]
  refine (Writes.bind (writes_line _ _ (decU64_eq _)) (Writes.bind (writes_line _ _ (decU64_eq _)) (Writes.bind (writes_line _ _ (decU64_eq _))
    (Writes.bind (writes_line _ _ (decU64_eq _)) (Writes.forW _ fun b hb => inspectElementBlock_writes (h b hb).1 (h b hb).2))))).cast ?_
  rw [hb]
  simp [linesText]

/-! ## Data -/

theorem inspectData_writes {d : Data} (h : d.Loaded false) (hm : ∀ n ∈ d.sizes, n < 2 ^ 60) :
    Writes (inspectData d) (linesText (dataReport (.general 6) (fun t => coutDouble (doubleOfInt t)) d)) := by
  obtain ⟨t0, fields, num, more, h1, h2, h3⟩ := h
  unfold inspectData dataReport
  rw [linesText_append, linesText_map]
  have s1 := hm d.header.stringTags.length (by simp [Data.sizes])
  have s2 := hm d.header.realTags.length (by simp [Data.sizes])
  have s3 := hm d.header.intTags.length (by simp [Data.sizes])
  have hn : (sizeOfInt num).toNat = d.entries.length := by rw [sizeOfInt_toNat (by omega)]; omega
  have hlen := hm d.entries.length (by simp [Data.sizes])
  have hrows : Writes (loopW (fun i => do
      let e ← Wr.lift (vecGet d.entries (UInt64.ofNat i))
      emit (b! "  " ++ decU64 e.tag ++ b! ": ")
      loopW (fun j => do
        let x ← Wr.lift (vecGet e.data (UInt64.ofNat j))
        emit (coutDouble x ++ [32])) (sizeOfInt fields).toNat 0
      emit endl) (sizeOfInt num).toNat 0)
      (d.entries.flatMap fun e => b! "  " ++ natText e.tag.toNat ++ b! ": " ++ listed (e.data.map (fmtDouble (.general 6))) ++ b! "\n") := by
    rw [hn]
    have hloop : (List.range' 0 d.entries.length).map (fun i => d.entries.getD i {}) = d.entries := range'_map_get _ _
    conv => rhs; rw [← hloop, List.flatMap_map]
    refine Writes.loopW _ 0 fun i _ hi => ?_
    have hi : i < d.entries.length := by omega
    have hg : d.entries.getD i {} = d.entries[i] := by simp [hi]
    rw [hg]
    refine Writes.lift (vecGet_ok (ofNat_toNat_lt (by omega)) hi) ?_
    have hmem : d.entries[i] ∈ d.entries := List.getElem_mem hi
    have hf := h3 _ hmem
    simp only [Bool.false_eq_true, if_false] at hf
    have hsz := hm d.entries[i].data.length (by
      unfold Data.sizes
      simp only [List.mem_cons, List.mem_map]
      exact Or.inr (Or.inr (Or.inr (Or.inr ⟨_, hmem, rfl⟩))))
    have hfl : (sizeOfInt fields).toNat = d.entries[i].data.length := by rw [sizeOfInt_toNat (by omega)]; omega
    have hrow : Writes (loopW (fun j => do
        let x ← Wr.lift (vecGet d.entries[i].data (UInt64.ofNat j))
        emit (coutDouble x ++ [32])) (sizeOfInt fields).toNat 0)
        (listed (((d.entries[i].data.drop (0 + 0)).take d.entries[i].data.length).map (fmtDouble (.general 6)))) := by
      rw [hfl]
      refine writes_values Double.zero _ (by omega) fun k hk hb => ?_
      refine Writes.lift (vecGet_ok (k := 0 + k) ?_ hb) (Writes.emit _)
      rw [ofNat_toNat_lt (by omega)]; omega
    refine (Writes.bind (Writes.emit _) (Writes.bind hrow (Writes.emit _))).cast ?_
    rw [decU64_eq]
    simp [endl]
  refine (Writes.bind (writes_line _ _ (decSize_eq s1)) (Writes.bind (writes_listed _ _ quoted fun t _ => (quoted_eq t).symm) (Writes.bind (Writes.emit _)
    (Writes.bind (writes_line _ _ (decSize_eq s2)) (Writes.bind (writes_listed _ _ _ fun t _ => rfl) (Writes.bind (Writes.emit _)
    (Writes.bind (writes_line _ _ (decSize_eq s3)) (Writes.bind (writes_listed _ _ _ fun t _ => rfl) (Writes.bind (Writes.emit _)
    (Writes.lift (a := fields) (by rw [h1]; rfl) (Writes.lift (a := num) (by rw [h1]; rfl) hrows))))))))))).cast ?_
  simp [linesText, endl]
  rfl

/-! ## Undefined behaviour -/

theorem Wr.ub_bind {α β : Type} {a : Wr α} (f : α → Wr β) (ha : a.2 = .ub) : (a >>= f).2 = .ub := by
  rcases a with ⟨x, o⟩
  simp only at ha
  subst ha
  rfl

theorem Wr.lift_ub {α β : Type} {x : Outcome α} (f : α → Wr β) (hx : x = .ub) : (Wr.lift x >>= f).2 = .ub := by
  subst hx; rfl

theorem loopW_ub {f : Nat → Wr Unit} : ∀ (n i j : Nat), i ≤ j → j < i + n → (∀ k, i ≤ k → k < j → Goes (f k)) → (f j).2 = .ub →
    (loopW f n i).2 = .ub := by
  intro n
  induction n with
  | zero => intro i j h1 h2; omega
  | succ n ih =>
    intro i j h1 h2 h h'
    by_cases e : i = j
    · subst e
      exact Wr.ub_bind _ h'
    · show (f i >>= fun _ => loopW f n (i + 1)).2 = .ub
      rw [(h i le_rfl (by omega)).bind_snd]
      exact ih (i + 1) j (by omega) (by omega) (fun k h1 h2 => h k (by omega) h2) h'

theorem forW_ub {α : Type} {f : α → Wr Unit} (v : List α) (h : ∀ a ∈ v, Goes (f a) ∨ (f a).2 = .ub) (hx : ∃ a ∈ v, (f a).2 = .ub) :
    (forW f v).2 = .ub := by
  induction v with
  | nil => simp at hx
  | cons a v ih =>
    show (f a >>= fun _ => forW f v).2 = .ub
    rcases h a List.mem_cons_self with ha | ha
    · rw [ha.bind_snd]
      refine ih (fun b hb => h b (List.mem_cons_of_mem _ hb)) ?_
      obtain ⟨b, hb, hu⟩ := hx
      rcases List.mem_cons.mp hb with rfl | hb
      · rw [Goes, hu] at ha; cases ha
      · exact ⟨b, hb, hu⟩
    · exact Wr.ub_bind _ ha

theorem vecGet_end {α : Type} {v : List α} {i : UInt64} (h : i.toNat = v.length) : vecGet v i = .ub := by
  unfold vecGet
  rw [h, List.getElem?_eq_none le_rfl]

theorem inspectNodeBlock_ub {b : NodeBlock} (ht : b.tags.length = b.numNodesInBlock.toNat) (h0 : b.tags ≠ []) (hm : b.data.length < 2 ^ 60)
    (h : ∀ w, inspectStride b.parametric = .ok w → b.data.length < b.tags.length * w.toNat) : (inspectNodeBlock b).2 = .ub := by
  have h0 : 0 < b.tags.length := by cases hb : b.tags with
    | nil => exact absurd hb h0
    | cons _ _ => simp
  have hlt : b.tags.length < 2 ^ 64 := by rw [ht]; exact b.numNodesInBlock.toNat_lt
  unfold inspectNodeBlock
  rw [(Goes.emit _).bind_snd, (Goes.emit _).bind_snd, (Goes.emit _).bind_snd, (Goes.emit _).bind_snd, ← ht]
  rcases hs : inspectStride b.parametric with w | e | _ | _ | _
  · have hw := h w hs
    have hw0 : 0 < w.toNat := by
      rcases Nat.eq_zero_or_pos w.toNat with h | h
      · rw [h] at hw; omega
      · exact h
    set W := w.toNat with hW
    have hdiv := Nat.div_add_mod b.data.length W
    have hmod := Nat.mod_lt b.data.length hw0
    have hj : b.data.length / W < b.tags.length := Nat.div_lt_of_lt_mul (by rw [Nat.mul_comm]; exact hw)
    set J := b.data.length / W
    set K := b.data.length % W
    have row : ∀ j k, j * W + k < b.data.length → Goes (do
        let d ← Wr.lift (vecGet b.data (UInt64.ofNat j * w + UInt64.ofNat k))
        emit (coutDouble d ++ [32])) := fun j k hk =>
      Goes.lift (vecGet_ok (by rw [idx_toNat (by rw [← hW]; omega)]) hk) (Goes.emit _)
    refine loopW_ub _ 0 J (Nat.zero_le _) (by rw [Nat.zero_add]; exact hj) (fun j _ hjJ => ?_) ?_
    · refine Goes.lift (vecGet_ok (ofNat_toNat_lt (by omega)) (by omega)) (Goes.bind (Goes.emit _) (Goes.lift rfl
        (Goes.bind (Goes.loopW _ 0 fun k _ hk => row j k ?_) (Goes.emit _))))
      have : (j + 1) * W ≤ J * W := Nat.mul_le_mul_right _ hjJ
      rw [Nat.add_mul, Nat.one_mul] at this
      rw [Nat.mul_comm W J] at hdiv
      omega
    · rw [vecGet_ok (ofNat_toNat_lt (by omega)) hj, Wr.lift_ok_bind, (Goes.emit _).bind_snd, Wr.lift_ok_bind]
      refine Wr.ub_bind _ (loopW_ub _ 0 K (by omega) (by omega) (fun k _ hk => row J k ?_) (Wr.lift_ub _ (vecGet_end ?_)))
      · rw [Nat.mul_comm W J] at hdiv; omega
      · rw [Nat.mul_comm W J] at hdiv
        rw [idx_toNat (by rw [← hW]; omega), ← hW, hdiv]
  all_goals first
    | (unfold inspectStride at hs; split at hs <;> cases hs; done)
    | (refine loopW_ub _ 0 0 le_rfl (by omega) (fun j _ hjJ => by omega) ?_
       rw [vecGet_ok (ofNat_toNat_lt (by omega)) h0, Wr.lift_ok_bind, (Goes.emit _).bind_snd]
       exact Wr.lift_ub _ rfl)

theorem NodeBlock.perNode_eq {b : NodeBlock} (h : b.Loaded) (hw : b.numNodesInBlock.toNat * b.perNode < 2 ^ 64) :
    b.data.length = b.tags.length * b.perNode := by
  rw [h.data, Nat.mod_eq_of_lt hw, h.tags]

theorem inspectNodeBlock_iff {b : NodeBlock} (h : b.Loaded) (hw : b.numNodesInBlock.toNat * b.perNode < 2 ^ 64) (hm : b.data.length < 2 ^ 60) :
    (b.Printed → Writes (inspectNodeBlock b) (linesText (nodeBlockReport (.general 6) (shownColumns b) b))) ∧
    (¬ b.Printed → (inspectNodeBlock b).2 = .ub) := by
  have hl := NodeBlock.perNode_eq h hw
  have hlo := b.parametric.le_toInt
  have hhi := b.parametric.toInt_lt
  have p1 : b.parametric = 1 ↔ b.parametric.toInt = 1 := by
    rw [← Int32.toInt_inj]; rfl
  have hdlo := b.entityDim.le_toInt
  refine ⟨fun hp => ?_, fun hp => ?_⟩
  · by_cases h0 : b.tags = []
    · unfold inspectNodeBlock nodeBlockReport
      rw [linesText_append]
      refine inspectNodeBlock_head b h.tags ?_
      have : b.numNodesInBlock.toNat = 0 := by rw [← h.tags, h0]; rfl
      rw [this, h0]
      exact Writes.pure
    · obtain ⟨c1, c2, c3⟩ := hp.resolve_left h0
      refine inspectNodeBlock_writes h.tags hm (by omega) (by omega) ?_
      rw [hl]
      refine Nat.mul_le_mul_left _ ?_
      unfold shownColumns NodeBlock.perNode
      split
      · have := c3 ‹_›
        have := h.dim ‹_›
        have := p1.mp ‹_›
        omega
      · have : b.parametric.toInt ≠ 1 := fun e => ‹¬ b.parametric = 1› (p1.mpr e)
        omega
  · have h0 : b.tags ≠ [] := fun e => hp (Or.inl e)
    have hpos : 0 < b.tags.length := by cases hb : b.tags with
      | nil => exact absurd hb h0
      | cons _ _ => simp
    refine inspectNodeBlock_ub h.tags h0 hm fun w hs => ?_
    rw [hl]
    refine Nat.mul_lt_mul_of_pos_left ?_ hpos
    have hper : b.perNode < 2 ^ 60 := by
      have : 1 * b.perNode ≤ b.tags.length * b.perNode := Nat.mul_le_mul_right _ hpos
      omega
    unfold inspectStride at hs
    split at hs
    · cases hs
    · cases hs
      have hin : ¬ (-3 ≤ b.parametric.toInt ∧ b.parametric.toInt ≤ 1 ∧ (b.parametric = 1 → 1 ≤ b.entityDim.toInt)) := fun h => hp (Or.inr h)
      have e : (3 + b.parametric).toInt = 3 + b.parametric.toInt := by
        rw [Int32.toInt_add, show (3 : Int32).toInt = 3 from rfl, Int.bmod_def]
        omega
      have := toNat_sizeOfInt (3 + b.parametric)
      rw [e] at this
      unfold NodeBlock.perNode at hper ⊢
      by_cases c : b.parametric = 1
      · rw [if_pos c] at hper ⊢
        have c' := p1.mp c
        have hd := h.dim c
        have : b.entityDim.toInt < 1 := by
          by_contra hc
          exact hin ⟨by omega, by omega, fun _ => by omega⟩
        split at * <;> omega
      · rw [if_neg c]
        have c' : b.parametric.toInt ≠ 1 := fun e => c (p1.mpr e)
        have : ¬ (-3 ≤ b.parametric.toInt ∧ b.parametric.toInt ≤ 1) := fun hc => hin ⟨hc.1, hc.2, fun h => absurd h c⟩
        split at * <;> omega

theorem inspectNodes_iff {n : Nodes} (hb : n.entityBlocks.length = n.numEntityBlocks.toNat)
    (h : ∀ b ∈ n.entityBlocks, b.Loaded ∧ b.numNodesInBlock.toNat * b.perNode < 2 ^ 64 ∧ b.data.length < 2 ^ 60) :
    ((∀ b ∈ n.entityBlocks, b.Printed) → Writes (inspectNodes n) (linesText (nodesReport (.general 6) shownColumns n))) ∧
    (¬ (∀ b ∈ n.entityBlocks, b.Printed) → (inspectNodes n).2 = .ub) := by
  have key := fun b hb => inspectNodeBlock_iff (h b hb).1 (h b hb).2.1 (h b hb).2.2
  unfold inspectNodes nodesReport
  rw [loopBlocks_eq _ _ _ hb.symm]
  refine ⟨fun hp => ?_, fun hp => ?_⟩
  · rw [linesText_append, linesText_flatMap]
    refine (Writes.bind (writes_line _ _ (decU64_eq _)) (Writes.bind (writes_line _ _ (decU64_eq _)) (Writes.bind (writes_line _ _ (decU64_eq _))
      (Writes.bind (writes_line _ _ (decU64_eq _)) (Writes.forW _ fun b hb => (key b hb).1 (hp b hb)))))).cast ?_
    rw [hb]
    simp [linesText]
  · rw [(Goes.emit _).bind_snd, (Goes.emit _).bind_snd, (Goes.emit _).bind_snd, (Goes.emit _).bind_snd]
    refine forW_ub _ (fun b hb => ?_) ?_
    · by_cases c : b.Printed
      · exact Or.inl ((key b hb).1 c).goes
      · exact Or.inr ((key b hb).2 c)
    · push Not at hp
      obtain ⟨b, hb, c⟩ := hp
      exact ⟨b, hb, (key b hb).2 c⟩

/-! ## The report -/

theorem inspectReport_iff (cfg : Cfg) {s : MshSpec} (l : s.Loaded) (hf : s.Fits cfg) (hw : s.NoWrap) :
    ((∀ b ∈ s.nodes.entityBlocks, b.Printed) →
      Writes (inspectReport s) (linesText (reportLines (.general 6) (fun t => coutDouble (doubleOfInt t)) shownColumns s))) ∧
    (¬ (∀ b ∈ s.nodes.entityBlocks, b.Printed) → (inspectReport s).2 = .ub) := by
  have hlt := cfg.maxCount_lt
  have hsz : ∀ n ∈ s.sizes, n < 2 ^ 60 := fun n hn => lt_of_le_of_lt (hf.all n hn) hlt
  have he := inspectEntities_writes (e := s.entities) fun n hn => lt_of_le_of_lt (hf.entities n hn) hlt
  have hg := inspectGroups_writes (gs := s.physicalGroups) (by have := hf.groups; omega)
  have hn := inspectNodes_iff l.nodeBlocks fun b hb => ⟨l.node b hb, hw.node b hb, hsz _ (mem_sizes.mpr (Or.inr (Or.inr (Or.inr (Or.inl
    (List.mem_flatMap.mpr ⟨b, hb, by simp⟩))))))⟩
  have hel := inspectElements_writes l.elementBlocks fun b hb => (⟨by
    obtain ⟨n, h1, h2⟩ := l.element b hb
    exact ⟨n, h1, by rw [h2, Nat.mod_eq_of_lt (hw.element b hb n h1)]⟩, hsz _ (mem_sizes.mpr (Or.inr (Or.inr (Or.inr (Or.inr (Or.inl
    (List.mem_map.mpr ⟨b, hb, rfl⟩)))))))⟩ : b.Ok ∧ b.data.length < 2 ^ 60)
  have hd : ∀ (c : Bytes) (v : List Data), (∀ d ∈ v, d ∈ s.nodeData ++ s.elementData ++ s.elementNodeData ∧ d.Loaded false) →
      Writes (whenW (v.length > 0) (do emit (c ++ endl); forW inspectData v))
        (linesText (onlyIf (v ≠ []) (c :: v.flatMap (dataReport (.general 6) fun t => coutDouble (doubleOfInt t))))) := by
    intro c v hv
    rw [linesText_onlyIf, linesText_cons, linesText_flatMap]
    refine writes_only (len_iff v) fun _ => Writes.bind (Writes.emit _) (Writes.forW _ fun d hd => inspectData_writes (hv d hd).2 fun n hn => ?_)
    exact lt_of_le_of_lt (hf.data (hv d hd).1 n hn) hlt
  have hnd := hd (b! "Node data: ") s.nodeData fun d h => ⟨by simp [h], l.nodeData d h⟩
  have hed := hd (b! "Element data: ") s.elementData fun d h => ⟨by simp [h], l.elementData d h⟩
  refine ⟨fun hp => ?_, fun hp => ?_⟩
  · have hnode := hn.1 hp
    unfold inspectReport reportLines
    refine (Writes.bind (Writes.emit _) (Writes.bind (Writes.emit _) (Writes.bind (Writes.emit _) (Writes.bind he (Writes.bind hg
      (Writes.bind hnode (Writes.bind hel (Writes.bind hnd hed)))))))).cast ?_
    simp only [linesText_append, List.append_assoc, linesText_cons, linesText_nil]
    rfl
  · unfold inspectReport
    rw [(Goes.emit _).bind_snd, (Goes.emit _).bind_snd, (Goes.emit _).bind_snd, he.goes.bind_snd, hg.goes.bind_snd]
    exact Wr.ub_bind _ (hn.2 hp)

/-! ## Integers as doubles -/

/-- Natural numbers below `2^53` are doubles. -/
theorem units_magOfRat {n : Nat} (h : n < 2 ^ 53) : Double.unitsOfMag (magOfRat n 1) = n * 2 ^ 1074 := by
  have hm := isMag_magOfRat n (den := 1) (by norm_num)
  obtain ⟨k, r, e, hr, h1, h2⟩ := hm.ex
  rw [Nat.cast_one, div_one] at hr h1 h2
  obtain ⟨b1, b2⟩ := IsMag.r_bounds hr h1 h2
  rw [e, unitsOfMag_add b1 b2]
  have hk : k ≤ 1074 := by
    rcases h2 with h2 | h2
    · omega
    · by_contra hc
      have e1 : (n : ℚ) * 2 ^ 1074 < 2 ^ 53 * 2 ^ 1074 := by
        refine mul_lt_mul_of_pos_right ?_ (by positivity)
        exact_mod_cast h
      have e2 : (2 : ℚ) ^ (52 + 1075) ≤ 2 ^ (52 + k) := pow_le_pow_right₀ (by norm_num) (by omega)
      rw [← pow_add] at e1
      exact absurd (lt_of_le_of_lt (le_trans e2 h2) e1) (by simp)
  have ex : (n : ℚ) * 2 ^ 1074 / 2 ^ k = ((n * 2 ^ (1074 - k) : ℕ) : ℚ) := by
    rw [Nat.cast_mul, Nat.cast_pow, Nat.cast_ofNat, ← pow_sub_mul_pow (2 : ℚ) hk, ← mul_assoc, mul_div_assoc, div_self (by positivity), mul_one]
  rw [ex] at hr
  rw [hr.unique (isRne_nat _), Nat.mul_assoc, ← pow_add, Nat.sub_add_cancel hk]

theorem doubleOfInt_spec (i : Int32) : (doubleOfInt i).isFinite = true ∧ (doubleOfInt i).val = i.toInt ∧
    (doubleOfInt i).neg = decide (i.toInt < 0) := by
  have hlo := i.le_toInt
  have hhi := i.toInt_lt
  have hn : i.toInt.natAbs < 2 ^ 53 := by omega
  have hu := units_magOfRat hn
  have hlt : magOfRat i.toInt.natAbs 1 < Double.infMag := by
    by_contra hc
    have h1 : Double.unitsOfMag Double.infMag ≤ Double.unitsOfMag (magOfRat i.toInt.natAbs 1) := units_le_iff.mpr (by omega)
    rw [hu] at h1
    have h2 : Double.unitsOfMag Double.infMag = 2 ^ 1024 * 2 ^ 1074 := by decide +kernel
    rw [h2] at h1
    have h3 := Nat.le_of_mul_le_mul_right h1 (Nat.two_pow_pos _)
    have h4 : (2 : ℕ) ^ 53 ≤ 2 ^ 1024 := Nat.pow_le_pow_right (by norm_num) (by norm_num)
    exact absurd (lt_of_le_of_lt (le_trans h4 h3) hn) (lt_irrefl _)
  have hlt' : magOfRat i.toInt.natAbs 1 < 2 ^ 63 := lt_trans hlt (by decide)
  have h1 : (doubleOfInt i).mag = magOfRat i.toInt.natAbs 1 := Double.mag_ofSignMag _ hlt'
  have h2 : (doubleOfInt i).neg = decide (i.toInt < 0) := Double.neg_ofSignMag _ hlt'
  refine ⟨?_, ?_, h2⟩
  · unfold Double.isFinite
    rw [h1]; simpa using hlt
  · unfold Double.val Double.units
    rw [h1, hu, h2, Nat.cast_mul, Nat.cast_pow, Nat.cast_ofNat, ← mul_assoc, mul_div_assoc, div_self (by positivity), mul_one]
    by_cases c : i.toInt < 0
    · rw [if_pos (by simpa using c)]
      have : ((i.toInt.natAbs : ℕ) : ℚ) = ((-i.toInt : ℤ) : ℚ) := by
        rw [← Int.cast_natCast]; congr 1; omega
      rw [this]; push_cast; ring
    · rw [if_neg (by simpa using c), one_mul, ← Int.cast_natCast]
      congr 1
      omega

end MshIO
