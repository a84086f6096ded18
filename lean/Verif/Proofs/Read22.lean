import Verif.Proofs.Entities22
import Verif.Spec.File22
import Verif.Proofs.Mesh41
import Verif.Proofs.Data41

/-!
# Reading version 2.2 `$Nodes` and `$Elements`
-/

namespace MshIO

/-! ## Loops -/

theorem readsT_loopN {σ γ : Type} {f : Nat → σ → Rd σ} {toks : γ → List Bytes} (Inv : List γ → σ → Prop) :
    ∀ (cs pre : List γ) (st : σ),
    (∀ pre' c post st, pre ++ cs = pre' ++ c :: post → Inv pre' st →
      ∃ st', ReadsT (f pre'.length st) (toks c) st' ∧ Inv (pre' ++ [c]) st') →
    Inv pre st → ∃ st', ReadsT (loopN f cs.length pre.length st) (cs.flatMap toks) st' ∧ Inv (pre ++ cs) st' := by
  intro cs
  induction cs with
  | nil =>
    intro pre st _ h0
    exact ⟨st, ReadsT.pure _, by simpa using h0⟩
  | cons c cs ih =>
    intro pre st h h0
    obtain ⟨st1, h1, i1⟩ := h pre c cs st rfl h0
    obtain ⟨st2, h2, i2⟩ := ih (pre ++ [c]) st1 (by simpa using h) i1
    refine ⟨st2, ?_, by simpa using i2⟩
    rw [List.length_append, List.length_singleton] at h2
    exact ReadsT.bind h1 h2

theorem readsT_loopN_bind {σ γ β : Type} {f : Nat → σ → Rd σ} {k : σ → Rd β} {toks : γ → List Bytes} {b : β} {ts : List Bytes}
    (cs : List γ) (st : σ) (Inv : List γ → σ → Prop) (h0 : Inv [] st)
    (h : ∀ pre c post st, cs = pre ++ c :: post → Inv pre st →
      ∃ st', ReadsT (f pre.length st) (toks c) st' ∧ Inv (pre ++ [c]) st')
    (hk : ∀ st, Inv cs st → ReadsT (k st) ts b) :
    ReadsT (loopN f cs.length 0 st >>= k) (cs.flatMap toks ++ ts) b := by
  obtain ⟨st', h1, h2⟩ := readsT_loopN Inv cs [] st h h0
  exact ReadsT.bind h1 (hk st' h2)

theorem readsB_loopN {σ γ : Type} {f : Nat → σ → Rd σ} {enc : γ → Bytes} (Inv : List γ → σ → Prop) :
    ∀ (cs pre : List γ) (st : σ),
    (∀ pre' c post st, pre ++ cs = pre' ++ c :: post → Inv pre' st →
      ∃ st', ReadsB (f pre'.length st) (enc c) st' ∧ Inv (pre' ++ [c]) st') →
    Inv pre st → ∃ st', ReadsB (loopN f cs.length pre.length st) (cs.flatMap enc) st' ∧ Inv (pre ++ cs) st' := by
  intro cs
  induction cs with
  | nil =>
    intro pre st _ h0
    exact ⟨st, ReadsB.pure _, by simpa using h0⟩
  | cons c cs ih =>
    intro pre st h h0
    obtain ⟨st1, h1, i1⟩ := h pre c cs st rfl h0
    obtain ⟨st2, h2, i2⟩ := ih (pre ++ [c]) st1 (by simpa using h) i1
    refine ⟨st2, ?_, by simpa using i2⟩
    rw [List.length_append, List.length_singleton] at h2
    exact ReadsB.bind h1 h2

theorem readsT_ints' (cs old : List Int32) (h : old.length = cs.length) :
    ReadsT (forEach inInt old) (cs.map decI32) cs := by
  induction cs generalizing old with
  | nil =>
    have : old = [] := List.length_eq_zero_iff.mp h
    subst this
    exact ReadsT.pure _
  | cons c cs ih =>
    cases old with
    | nil => simp at h
    | cons o old =>
      exact ReadsT.cons (inInt_tok o c) (ReadsT.map (ih old (by simpa using h)) rfl)

/-- The vector `resize` leaves. -/
theorem silent_resize {α : Type} (cfg : Cfg) (v : List α) (n : UInt64) (d : α) (h : n.toNat ≤ cfg.maxCount) :
    ∃ v', Silent (resize cfg v n d) v' ∧ v'.length = n.toNat := by
  refine ⟨v.take n.toNat ++ List.replicate (n.toNat - v.length) d, ?_, ?_⟩
  · apply silent_lift
    unfold vecResize
    rw [if_pos h]
  · simp only [List.length_append, List.length_take, List.length_replicate]
    omega

theorem set_replicate {α : Type} (a : List α) (z v : α) {k i : Nat} (hi : i = a.length) (hk : 0 < k) :
    (a ++ List.replicate k z).set i v = (a ++ [v]) ++ List.replicate (k - 1) z := by
  subst hi
  cases k with
  | zero => omega
  | succ k => simp [List.replicate_succ]

theorem fold_min (ts : List UInt64) (a : UInt64) : ts.foldl (fun a b => if b < a then b else a) a = ts.foldl min a := by
  induction ts generalizing a with
  | nil => rfl
  | cons t ts ih =>
    rw [List.foldl_cons, List.foldl_cons, ih]
    congr 1
    show _ = if a ≤ t then a else t
    by_cases h : t < a
    · rw [if_pos h, if_neg]
      rw [UInt64.lt_iff_toNat_lt] at h
      rw [UInt64.le_iff_toNat_le]; omega
    · rw [if_neg h, if_pos]
      rw [UInt64.lt_iff_toNat_lt] at h
      rw [UInt64.le_iff_toNat_le]; omega

theorem fold_max (ts : List UInt64) (a : UInt64) : ts.foldl (fun a b => if a < b then b else a) a = ts.foldl max a := by
  induction ts generalizing a with
  | nil => rfl
  | cons t ts ih =>
    rw [List.foldl_cons, List.foldl_cons, ih]
    congr 1
    show _ = if a ≤ t then t else a
    by_cases h : a < t
    · rw [if_pos h, if_pos]
      rw [UInt64.lt_iff_toNat_lt] at h
      rw [UInt64.le_iff_toNat_le]; omega
    · rw [if_neg h]
      by_cases e : a = t
      · subst e; simp
      · rw [if_neg]
        rw [UInt64.lt_iff_toNat_lt] at h
        rw [UInt64.le_iff_toNat_le]
        intro h'
        exact e (UInt64.toNat_inj.mp (by omega))

/-! ## Nodes -/

/-- What the `$Nodes` sections of version 2.2 leave before the post-processing. -/
def rawNodes (ns : List MeshNode) : Nodes where
  numEntityBlocks := 1
  numNodes := UInt64.ofNat ns.length
  minNodeTag := (tagRange (ns.map (·.tag))).1
  maxNodeTag := (tagRange (ns.map (·.tag))).2
  entityBlocks := [rawNodeBlock ns]

/-- The vectors while the nodes are being read. -/
def NodeInv (n : Nat) (g : MeshNode → MeshNode) (pre : List MeshNode) (st : List UInt64 × List Double) : Prop :=
  st.1 = (pre.map g).map (·.tag) ++ List.replicate (n - pre.length) 0 ∧
  st.2 = ((pre.map g).flatMap fun n => [n.x, n.y, n.z]) ++ List.replicate (3 * (n - pre.length)) Double.zero

theorem coords_length (ns : List MeshNode) : (ns.flatMap fun n => [n.x, n.y, n.z]).length = 3 * ns.length := by
  induction ns with
  | nil => rfl
  | cons n ns ih => simp only [List.flatMap_cons, List.length_append, ih, List.length_cons, List.length_nil]; omega

theorem tok_at3 (i : Nat) (h : 3 * i + 3 < 2 ^ 64) : (UInt64.ofNat i * 3).toNat = 3 * i ∧
    (UInt64.ofNat i * 3 + 1).toNat = 3 * i + 1 ∧ (UInt64.ofNat i * 3 + 2).toNat = 3 * i + 2 := by
  have h0 : (UInt64.ofNat i).toNat = i := ofNat_toNat_lt (by omega)
  have e3 : (3 : UInt64).toNat = 3 := rfl
  have e1 : (1 : UInt64).toNat = 1 := rfl
  have e2 : (2 : UInt64).toNat = 2 := rfl
  have h1 : (UInt64.ofNat i * 3).toNat = 3 * i := by
    rw [mul_toNat (by rw [h0, e3]; omega), h0, e3]; omega
  refine ⟨h1, ?_, ?_⟩
  · rw [add_toNat (by rw [h1, e1]; omega), h1, e1]
  · rw [add_toNat (by rw [h1, e2]; omega), h1, e2]

theorem rawNodes_of_inv (ns : List MeshNode) (g : MeshNode → MeshNode) (st : List UInt64 × List Double)
    (h : NodeInv ns.length g ns st) :
    Nodes.mk (0 + 1) (0 + UInt64.ofNat ns.length) (updateTagRange { minNodeTag := sizeMax, maxNodeTag := 0 } st.1).1
      (updateTagRange { minNodeTag := sizeMax, maxNodeTag := 0 } st.1).2
      (([] ++ [({} : NodeBlock)]).dropLast ++ [{ numNodesInBlock := UInt64.ofNat ns.length, tags := st.1, data := st.2 }]) =
      rawNodes (ns.map g) := by
  obtain ⟨h1, h2⟩ := h
  rw [Nat.sub_self] at h1 h2
  simp only [List.replicate_zero, List.append_nil, Nat.mul_zero] at h1 h2
  unfold updateTagRange rawNodes
  simp only [fold_min, fold_max, h1, h2, tagRange, rawNodeBlock, List.length_map]
  simp [sizeMax]

theorem loadNodesAscii22_reads (cfg : Cfg) (P : Fmt) (rd : Double → Double) (ns : List MeshNode)
    (hd : ∀ n ∈ ns, DTok P rd n.x ∧ DTok P rd n.y ∧ DTok P rd n.z)
    (h3 : 3 * ns.length ≤ cfg.maxCount) (h1 : 1 ≤ cfg.maxCount) (n0 : Nodes)
    (hn0 : n0 = { minNodeTag := sizeMax, maxNodeTag := 0 }) :
    ReadsT (loadNodesAscii22 cfg n0) (decU64 (UInt64.ofNat ns.length) :: ns.flatMap (nodeWords P))
      (rawNodes (ns.map (MeshNode.convert rd))) := by
  have hlt := cfg.maxCount_lt
  have hnum : (UInt64.ofNat ns.length).toNat = ns.length := ofNat_toNat_lt (by omega)
  have hnum3 : (UInt64.ofNat ns.length * 3).toNat = 3 * ns.length := by
    have e3 : (3 : UInt64).toNat = 3 := rfl
    rw [mul_toNat (by rw [hnum, e3]; omega), hnum, e3]; omega
  subst hn0
  unfold loadNodesAscii22
  refine ReadsT.silent (silent_pushBack cfg _ _ (by simp; omega)) (ReadsT.cons (inSize_tok _ _) ?_)
  refine ReadsT.silent (silent_assertGood cfg) (ReadsT.silent (silent_resize_nil cfg _ _ (by omega))
    (ReadsT.silent (silent_resize_nil cfg _ _ (by omega)) ?_))
  rw [hnum, hnum3]
  refine ReadsT.cast (t1 := ns.flatMap (nodeWords P) ++ []) (readsT_loopN_bind ns _
    (NodeInv ns.length (MeshNode.convert rd)) ⟨by simp, by simp⟩ ?_ ?_) (List.append_nil _) rfl
  rotate_left
  · rintro st hi
    exact (ReadsT.pure _).cast rfl (rawNodes_of_inv ns _ st hi)
  rintro pre c post ⟨tags, data⟩ e ⟨i1, i2⟩
  simp only at i1 i2
  have hl : ns.length = pre.length + (post.length + 1) := by
    have := congrArg List.length e
    simpa using this
  obtain ⟨a0, a1, a2⟩ := tok_at3 pre.length (by omega)
  have hp : (UInt64.ofNat pre.length).toNat = pre.length := ofNat_toNat_lt (by omega)
  obtain ⟨d0, d1, d2⟩ := hd c (by rw [e]; simp)
  have l1 : tags.length = ns.length := by rw [i1]; simp; omega
  have l2 : data.length = 3 * ns.length := by rw [i2, List.length_append, coords_length]; simp; omega
  refine ⟨(((tags.set pre.length c.tag)), ((data.set (3 * pre.length) (rd c.x)).set (3 * pre.length + 1) (rd c.y)).set (3 * pre.length + 2) (rd c.z)), ?_, ?_, ?_⟩
  · have t1 := inSizeAt_reads c.tag (UInt64.ofNat pre.length) tags (by omega)
    have t2 := inDoubleAt_reads d0 (UInt64.ofNat pre.length * 3) data (by omega)
    have t3 := inDoubleAt_reads d1 (UInt64.ofNat pre.length * 3 + 1) (data.set (3 * pre.length) (rd c.x)) (by rw [List.length_set]; omega)
    have t4 := inDoubleAt_reads d2 (UInt64.ofNat pre.length * 3 + 2) ((data.set (3 * pre.length) (rd c.x)).set (3 * pre.length + 1) (rd c.y)) (by rw [List.length_set, List.length_set]; omega)
    rw [hp] at t1
    rw [a0] at t2
    rw [a1] at t3
    rw [a2] at t4
    exact ReadsT.bind t1 (ReadsT.bind t2 (ReadsT.bind t3 (ReadsT.last t4 (ReadsT.silent (silent_assertGood cfg) (ReadsT.pure _)))))
  · show tags.set pre.length c.tag = _
    rw [i1, set_replicate _ _ _ (by simp) (by omega)]
    simp only [List.map_append, List.map_cons, List.map_nil, List.length_append, List.length_singleton, MeshNode.convert]
    rw [Nat.sub_sub]
  · show ((data.set (3 * pre.length) (rd c.x)).set (3 * pre.length + 1) (rd c.y)).set (3 * pre.length + 2) (rd c.z) = _
    have lc := coords_length (pre.map (MeshNode.convert rd))
    rw [List.length_map] at lc
    rw [i2, set_replicate _ _ _ lc.symm (by omega), set_replicate _ _ _ (by simp only [List.length_append, List.length_singleton]; omega) (by omega),
      set_replicate _ _ _ (by simp only [List.length_append, List.length_singleton]; omega) (by omega)]
    have e4 : 3 * (ns.length - pre.length) - 1 - 1 - 1 = 3 * (ns.length - (pre ++ [c]).length) := by
      simp only [List.length_append, List.length_singleton]; omega
    rw [e4]
    simp [MeshNode.convert]

theorem loadNodesBinary22_reads (cfg : Cfg) (ns : List MeshNode)
    (h3 : 3 * ns.length ≤ cfg.maxCount) (h1 : 1 ≤ cfg.maxCount) (n0 : Nodes)
    (hn0 : n0 = { minNodeTag := sizeMax, maxNodeTag := 0 }) (sep : Bytes) (hsep : One sep) :
    ReadsM (loadNodesBinary22 cfg n0) (decU64 (UInt64.ofNat ns.length) ++ sep ++ ns.flatMap nodeBytes)
      (rawNodes (ns.map MeshNode.wrap)) := by
  have hlt := cfg.maxCount_lt
  have hnum : (UInt64.ofNat ns.length).toNat = ns.length := ofNat_toNat_lt (by omega)
  have hnum3 : (UInt64.ofNat ns.length * 3).toNat = 3 * ns.length := by
    have e3 : (3 : UInt64).toNat = 3 := rfl
    rw [mul_toNat (by rw [hnum, e3]; omega), hnum, e3]; omega
  subst hn0
  intro w rest hw hr
  unfold loadNodesBinary22
  rw [Rd.bind_ok (silent_pushBack cfg _ _ (by simp; omega) _)]
  have ee : w ++ (decU64 (UInt64.ofNat ns.length) ++ sep ++ ns.flatMap nodeBytes) ++ rest =
    w ++ decU64 (UInt64.ofNat ns.length) ++ (sep ++ (ns.flatMap nodeBytes ++ rest)) := by simp
  rw [ee, Rd.bind_ok (inSize_tok 0 _ w _ hw (wsHead_append hsep.sep.head)), Rd.bind_ok (silent_assertGood cfg _),
    Rd.bind_ok (silent_resize_nil cfg _ _ (by omega) _), Rd.bind_ok (silent_resize_nil cfg _ _ (by omega) _),
    Rd.bind_ok (eat_one hsep (by simp [hr])), hnum, hnum3]
  refine Exists.elim (readsB_loopN (f := loadNodeBinary22 cfg) (enc := nodeBytes) (NodeInv ns.length MeshNode.wrap) ns []
    (List.replicate ns.length (0 : UInt64), List.replicate (3 * ns.length) Double.zero) ?_ ⟨by simp, by simp⟩) ?_
  rotate_left
  · rintro st ⟨hr, hi⟩
    have hr' := hr rest
    simp only [List.length_nil] at hr'
    rw [Rd.bind_ok hr']
    have := rawNodes_of_inv ns _ st hi
    exact congrArg (fun x => Outcome.ok (x, gs rest)) this
  rintro pre c post ⟨tags, data⟩ e ⟨i1, i2⟩
  simp only at i1 i2
  have hl : ns.length = pre.length + (post.length + 1) := by
    have := congrArg List.length e
    simpa using this
  obtain ⟨a0, a1, a2⟩ := tok_at3 pre.length (by omega)
  have hp : (UInt64.ofNat pre.length).toNat = pre.length := ofNat_toNat_lt (by omega)
  have l1 : tags.length = ns.length := by rw [i1]; simp; omega
  have l2 : data.length = 3 * ns.length := by rw [i2, List.length_append, coords_length]; simp; omega
  refine ⟨(tags.set pre.length (wrap32 c.tag), data.take (3 * pre.length) ++ [c.x, c.y, c.z] ++ data.drop (3 * pre.length + 3)), ?_, ?_, ?_⟩
  · unfold loadNodeBinary22 nodeBytes
    refine ReadsB.silent (silent_assertGood cfg) (ReadsB.bind (readIntVar_reads _) (ReadsB.silent (silent_useVar _) ?_))
    have s1 : vecSet tags (UInt64.ofNat pre.length) (sizeOfInt (intOfSize c.tag)) = .ok (tags.set pre.length (wrap32 c.tag)) := by
      unfold vecSet
      rw [hp, if_pos (by omega), wrap32_eq]
    have s2 : vecGet data (UInt64.ofNat pre.length * 3) = .ok (data[3 * pre.length]'(by omega)) := by
      unfold vecGet
      rw [a0, List.getElem?_eq_getElem (by omega)]
    have s3 : vecGet data (UInt64.ofNat pre.length * 3 + 1) = .ok (data[3 * pre.length + 1]'(by omega)) := by
      unfold vecGet
      rw [a1, List.getElem?_eq_getElem (by omega)]
    have s4 : vecGet data (UInt64.ofNat pre.length * 3 + 2) = .ok (data[3 * pre.length + 2]'(by omega)) := by
      unfold vecGet
      rw [a2, List.getElem?_eq_getElem (by omega)]
    refine ReadsB.silent (silent_lift s1) (ReadsB.silent (silent_lift s2) (ReadsB.silent (silent_lift s3) (ReadsB.silent (silent_lift s4) ?_)))
    exact ReadsB.map (readDoubles_reads _ [c.x, c.y, c.z] rfl) rfl
  · show tags.set pre.length (wrap32 c.tag) = _
    rw [i1, set_replicate _ _ _ (by simp) (by omega)]
    simp only [List.map_append, List.map_cons, List.map_nil, List.length_append, List.length_singleton, MeshNode.wrap]
    rw [Nat.sub_sub]
  · show data.take (3 * pre.length) ++ [c.x, c.y, c.z] ++ data.drop (3 * pre.length + 3) = _
    have lc := coords_length (pre.map MeshNode.wrap)
    rw [List.length_map] at lc
    have e4 : 3 * (ns.length - pre.length) = 3 + 3 * (ns.length - (pre ++ [c]).length) := by
      simp only [List.length_append, List.length_singleton]; omega
    rw [i2, List.take_left' lc, e4, List.replicate_add]
    have : ∀ (A B C : List Double), A.length = 3 * pre.length → B.length = 3 → (A ++ (B ++ C)).drop (3 * pre.length + 3) = C := by
      intro A B C hA hB
      rw [← List.append_assoc]
      exact List.drop_left' (by simp [hA, hB])
    rw [this _ _ _ lc (by simp)]
    simp [MeshNode.wrap]

/-! ## Elements, ASCII -/

/-- What the `$Elements` sections of version 2.2 leave before the post-processing. -/
def rawElements (es : List MeshElem) : Elements where
  numEntityBlocks := UInt64.ofNat es.length
  numElements := UInt64.ofNat es.length
  minElementTag := (tagRange (es.map (·.tag))).1
  maxElementTag := (tagRange (es.map (·.tag))).2
  entityBlocks := es.map MeshElem.block

theorem elemEntries_mem {es : List MeshElem} {e : MeshElem} (h : e ∈ es) : e.nodes.length + 1 ≤ elemEntries es := by
  unfold elemEntries
  obtain ⟨a, b, rfl⟩ := List.append_of_mem h
  simp only [List.flatMap_append, List.flatMap_cons, List.length_append, List.length_cons]
  omega

theorem elemEntries_length (es : List MeshElem) : es.length ≤ elemEntries es := by
  unfold elemEntries
  induction es with
  | nil => simp
  | cons e es ih =>
    simp only [List.flatMap_cons, List.length_append, List.length_cons]
    omega

/-- The state while the elements are being read. -/
def AsciiInv (pre : List FileElem) (st : Ascii22) : Prop :=
  st.blocks = pre.map (fun e => e.elem.block) ∧ st.maps = physMaps pre ∧
  st.lo = (tagRange ((pre.map FileElem.elem).map (·.tag))).1 ∧ st.hi = (tagRange ((pre.map FileElem.elem).map (·.tag))).2

theorem tagRange_snoc (ts : List UInt64) (t : UInt64) :
    tagRange (ts ++ [t]) = (if t < (tagRange ts).1 then t else (tagRange ts).1, if (tagRange ts).2 < t then t else (tagRange ts).2) := by
  have h1 := fold_min (ts ++ [t]) (UInt64.ofNat (2 ^ 64 - 1))
  have h2 := fold_max (ts ++ [t]) 0
  have h3 := fold_min ts (UInt64.ofNat (2 ^ 64 - 1))
  have h4 := fold_max ts 0
  unfold tagRange
  simp only [← h1, ← h2, ← h3, ← h4]
  simp only [List.foldl_append, List.foldl_cons, List.foldl_nil]

theorem loadElementAscii22_reads (cfg : Cfg) (pre : List FileElem) (e : FileElem) (st : Ascii22) (ho : e.Ok)
    (hs : e.Small cfg) (hpre : pre.length < cfg.maxCount) (hn : e.nodes.length + 1 ≤ cfg.maxCount) (hi : AsciiInv pre st) :
    ∃ st', ReadsT (loadElementAscii22 cfg st) (elemWords e) st' ∧ AsciiInv (pre ++ [e]) st' := by
  have hlt := cfg.maxCount_lt
  obtain ⟨hnp, hn56, _⟩ := nodesPerElement_of_mshNodes ho
  have hnt := sizeOfInt_ofNat hs.2
  obtain ⟨v1, r1, l1⟩ := silent_resize cfg st.tags (sizeOfInt (Int32.ofNat e.tags.length)) 0 (by rw [hnt]; exact hs.1)
  have hnn : (UInt64.ofNat e.nodes.length).toNat = e.nodes.length := ofNat_toNat_lt (by omega)
  obtain ⟨v2, r2, l2⟩ := silent_resize cfg st.nodeIds (UInt64.ofNat e.nodes.length) 0 (by rw [hnn]; omega)
  rw [hnt] at l1
  rw [hnn] at l2
  obtain ⟨i1, i2, i3, i4⟩ := hi
  have hm := makeElement22_ok cfg pre e ho hpre hn
  rw [← i1, ← i2] at hm
  refine ⟨Ascii22.mk (some e.num) (some e.type) (some (Int32.ofNat e.tags.length)) e.tags e.nodes
    (if sizeOfInt e.num < st.lo then sizeOfInt e.num else st.lo) (if st.hi < sizeOfInt e.num then sizeOfInt e.num else st.hi)
    ((pre ++ [e]).map fun e => e.elem.block) (physMaps (pre ++ [e])), ?_, ?_⟩
  · unfold loadElementAscii22 elemWords
    refine ReadsT.cons (inIntVar_tok _ _) (ReadsT.cons (inIntVar_tok _ _) (ReadsT.cons (inIntVar_tok _ _)
      (ReadsT.silent (silent_useVar _) (ReadsT.silent r1 (ReadsT.bind (readsT_ints' e.tags v1 l1)
      (ReadsT.silent (silent_useVar _) (ReadsT.silent (silent_lift hnp) (ReadsT.silent r2
      (ReadsT.last (readsT_ints' e.nodes v2 l2) (ReadsT.silent (silent_useVar _) (ReadsT.silent (silent_lift hm) (ReadsT.pure _))))))))))))
  · refine ⟨rfl, rfl, ?_, ?_⟩
    · simp only [List.map_append, List.map_cons, List.map_nil, tagRange_snoc, i3]
      rfl
    · simp only [List.map_append, List.map_cons, List.map_nil, tagRange_snoc, i4]
      rfl

theorem loadElementsAscii22_reads (cfg : Cfg) (fs : List FileElem) (ho : ∀ f ∈ fs, f.Ok) (hs : ∀ f ∈ fs, f.Small cfg)
    (hfit : elemEntries (fs.map FileElem.elem) ≤ cfg.maxCount) (e0 : Elements) (he0 : e0 = { minElementTag := sizeMax, maxElementTag := 0 }) :
    ReadsT (loadElementsAscii22 cfg e0 {}) (decU64 (UInt64.ofNat fs.length) :: fs.flatMap elemWords)
      (rawElements (fs.map FileElem.elem), entitiesFrom (physOf fs)) := by
  have hlt := cfg.maxCount_lt
  have hlen : fs.length ≤ cfg.maxCount := by
    have := elemEntries_length (fs.map FileElem.elem)
    rw [List.length_map] at this
    omega
  have hnum : (UInt64.ofNat fs.length).toNat = fs.length := ofNat_toNat_lt (by omega)
  subst he0
  unfold loadElementsAscii22
  refine ReadsT.cons (extractSize_tok _) (ReadsT.silent (silent_useVar _) ?_)
  rw [hnum]
  refine ReadsT.cast (t1 := fs.flatMap elemWords ++ []) (readsT_loopN_bind fs _
    AsciiInv ⟨rfl, rfl, rfl, rfl⟩ ?_ ?_) (List.append_nil _) rfl
  · intro pre c post st e hi
    have hl : fs.length = pre.length + (post.length + 1) := by
      have := congrArg List.length e
      simpa using this
    have hc : c ∈ fs := by rw [e]; simp
    have hn := elemEntries_mem (List.mem_map_of_mem (f := FileElem.elem) hc)
    simp only [FileElem.elem, List.length_map] at hn
    exact loadElementAscii22_reads cfg pre c st (ho c hc) (hs c hc) (by omega) (by omega) hi
  · intro st ⟨i1, i2, i3, i4⟩
    refine ReadsT.silent (a := entitiesFrom (physOf fs)) ?_ ((ReadsT.pure _).cast rfl ?_)
    · apply silent_lift
      rw [i2]
      exact createAllEntities_ok cfg fs hlen
    · rw [i1, i3, i4]
      simp [rawElements, List.map_map, Function.comp_def]

/-! ## Elements, binary -/

/-- The smallest number as the binary reader computes it. -/
def minNum (es : List FileElem) : Int32 := es.foldl (fun m e => if e.num < m then e.num else m) 2147483647

/-- The largest number as the binary reader computes it. -/
def maxNum (es : List FileElem) : Int32 := es.foldl (fun m e => if m < e.num then e.num else m) 0

/-- The state between two elements; `nt` and `nn` are the lengths of the scratch vectors. -/
structure BinaryInv (pre : List FileElem) (st : Binary22) : Prop where
  lo : st.minTag = minNum pre
  hi : st.maxTag = maxNum pre
  processed : st.processed = UInt64.ofNat pre.length
  blocks : st.blocks = pre.map (fun e => e.elem.block)
  maps : st.maps = physMaps pre

theorem ofNat_succ (n : Nat) : UInt64.ofNat n + 1 = UInt64.ofNat (n + 1) := by
  apply UInt64.toNat_inj.mp
  simp [UInt64.toNat_add]

theorem loadElementBinary22_reads (cfg : Cfg) (N : Nat) (hN : N < 2 ^ 64) (pre : List FileElem) (e : FileElem) (ho : e.Ok)
    (hs : 4 * e.tags.length < 2 ^ 31) (hpre : pre.length < cfg.maxCount) (hpN : pre.length < N)
    (hn : e.nodes.length + 1 ≤ cfg.maxCount) (st : Option Int32 × Binary22)
    (hi : BinaryInv pre st.2 ∧ st.2.tags.length = e.tags.length ∧ st.2.nodeIds.length = e.nodes.length) :
    ∃ st', ReadsB (loadElementBinary22 cfg (UInt64.ofNat N) e.type (Int32.ofNat e.tags.length) st) (elemBytes e) st' ∧
      (BinaryInv (pre ++ [e]) st'.2 ∧ st'.2.tags.length = e.tags.length ∧ st'.2.nodeIds.length = e.nodes.length) := by
  obtain ⟨hi, l1, l2⟩ := hi
  have hm := makeElement22_ok cfg pre e ho hpre hn
  rw [← hi.blocks, ← hi.maps] at hm
  refine ⟨(some e.num, Binary22.mk e.tags e.nodes (if e.num < st.2.minTag then e.num else st.2.minTag)
    (if st.2.maxTag < e.num then e.num else st.2.maxTag) (st.2.processed + 1)
    ((pre ++ [e]).map fun e => e.elem.block) (physMaps (pre ++ [e]))), ?_, ⟨?_, ?_, ?_, rfl, rfl⟩, rfl, rfl⟩
  · have e1 : (Int32.ofNat e.tags.length).toInt = e.tags.length := Int32.toInt_ofNat_of_lt (by omega)
    unfold loadElementBinary22 elemBytes
    refine ReadsB.bind (readIntVar_reads' _ _) ?_
    rw [if_neg (by rw [e1]; omega)]
    refine ReadsB.bind (readInts_reads _ _ l1) (ReadsB.last (readInts_reads _ _ l2) (ReadsB.silent (silent_useVar _)
      (ReadsB.silent (silent_lift hm) ?_)))
    simp only
    rw [if_neg]
    · exact ReadsB.pure _
    · rw [hi.processed, ofNat_succ, UInt64.lt_iff_toNat_lt, ofNat_toNat_lt hN, ofNat_toNat_lt (by omega)]
      omega
  · simp only [minNum, List.foldl_append, List.foldl_cons, List.foldl_nil, hi.lo]
  · simp only [maxNum, List.foldl_append, List.foldl_cons, List.foldl_nil, hi.hi]
  · rw [List.length_append, List.length_singleton, ← ofNat_succ, hi.processed]

theorem loadElementGroupBinary22_reads (cfg : Cfg) (N : Nat) (hN : N ≤ cfg.maxCount) (pre : List FileElem) (g : FileGroup)
    (hg : g.Ok cfg) (hpN : pre.length + g.elems.length ≤ N)
    (hn : ∀ e ∈ g.elems, e.nodes.length + 1 ≤ cfg.maxCount) (st : Binary22) (hi : BinaryInv pre st) :
    ∃ st', ReadsB (loadElementGroupBinary22 cfg (UInt64.ofNat N) st) g.bytes st' ∧ BinaryInv (pre ++ g.elems) st' := by
  have hlt := cfg.maxCount_lt
  obtain ⟨e0, more, he0⟩ := List.exists_cons_of_ne_nil hg.ne
  have hmem : e0 ∈ g.elems := by rw [he0]; simp
  have hty : mshNodes g.type = some e0.nodes.length := by rw [← (hg.same e0 hmem).1]; exact hg.elems e0 hmem
  obtain ⟨hnp, hn56, _⟩ := nodesPerElement_of_mshNodes hty
  have hnl : ∀ e ∈ g.elems, e.nodes.length = e0.nodes.length := by
    intro e he
    have h1 := hg.elems e he
    unfold FileElem.Ok at h1
    rw [(hg.same e he).1, hty] at h1
    exact (Option.some.inj h1).symm
  have hnt := sizeOfInt_ofNat (n := g.ntags) (by have := hg.tags.2; omega)
  obtain ⟨v1, r1, l1⟩ := silent_resize cfg st.tags (sizeOfInt (Int32.ofNat g.ntags)) 0 (by rw [hnt]; exact hg.tags.1)
  have hnn : (UInt64.ofNat e0.nodes.length).toNat = e0.nodes.length := ofNat_toNat_lt (by omega)
  obtain ⟨v2, r2, l2⟩ := silent_resize cfg st.nodeIds (UInt64.ofNat e0.nodes.length) 0 (by rw [hnn]; have := hn e0 hmem; omega)
  rw [hnt] at l1
  rw [hnn] at l2
  have hc := sizeOfInt_ofNat hg.count
  obtain ⟨st', h1, h2⟩ := readsB_loopN (f := fun _ st => loadElementBinary22 cfg (UInt64.ofNat N) g.type (Int32.ofNat g.ntags) st)
    (enc := elemBytes)
    (fun p st => BinaryInv (pre ++ p) st.2 ∧ st.2.tags.length = g.ntags ∧ st.2.nodeIds.length = e0.nodes.length)
    g.elems [] (none, { st with tags := v1, nodeIds := v2 })
    (by
      intro p c post st1 e hi1
      have hl : g.elems.length = p.length + (post.length + 1) := by
        have := congrArg List.length e
        simpa using this
      have hce : c ∈ g.elems := by
        have e' : g.elems = p ++ c :: post := e
        rw [e']; simp
      obtain ⟨t1, t2⟩ := hg.same c hce
      have := loadElementBinary22_reads cfg N (by omega) (pre ++ p) c (hg.elems c hce) (by have := hg.tags.2; omega)
        (by rw [List.length_append]; omega) (by rw [List.length_append]; omega) (hn c hce) st1
        (by rw [t2, hnl c hce]; exact hi1)
      rw [t1, t2, hnl c hce, List.append_assoc] at this
      exact this)
    (by rw [List.append_nil]; exact ⟨⟨hi.lo, hi.hi, hi.processed, hi.blocks, hi.maps⟩, l1, l2⟩)
  refine ⟨st'.2, ?_, h2.1⟩
  unfold loadElementGroupBinary22 FileGroup.bytes
  refine ReadsB.bind (readIntVar_reads _) (ReadsB.bind (readIntVar_reads _) (ReadsB.bind (readIntVar_reads _) ?_))
  refine ReadsB.silent (silent_useVar _) (ReadsB.silent r1 (ReadsB.silent (silent_useVar _) (ReadsB.silent (silent_lift hnp)
    (ReadsB.silent r2 (ReadsB.silent (silent_useVar _) ?_)))))
  rw [hc]
  exact ReadsB.last h1 (ReadsB.pure _)

theorem loadElementGroups22_reads (cfg : Cfg) (N : Nat) (hN : N ≤ cfg.maxCount) (gs' : List FileGroup) (hg : ∀ g ∈ gs', g.Ok cfg)
    (hn : ∀ g ∈ gs', ∀ e ∈ g.elems, e.nodes.length + 1 ≤ cfg.maxCount) :
    ∀ (fuel : Nat) (pre : List FileElem) (st : Binary22), gs'.length < fuel →
      pre.length + (gs'.flatMap FileGroup.elems).length = N → BinaryInv pre st →
      ∃ st', ReadsB (loadElementGroups22 cfg (UInt64.ofNat N) fuel st) (gs'.flatMap FileGroup.bytes) st' ∧
        BinaryInv (pre ++ gs'.flatMap FileGroup.elems) st' := by
  have hlt := cfg.maxCount_lt
  induction gs' with
  | nil =>
    intro fuel pre st hf hpN hi
    obtain ⟨fuel, rfl⟩ : ∃ k, fuel = k + 1 := ⟨fuel - 1, by simp at hf; omega⟩
    refine ⟨st, ?_, by simpa using hi⟩
    simp only [List.flatMap_nil, List.length_nil, Nat.add_zero] at hpN
    unfold loadElementGroups22
    rw [if_pos (by rw [hi.processed, hpN])]
    exact ReadsB.pure _
  | cons g gs' ih =>
    intro fuel pre st hf hpN hi
    obtain ⟨fuel, rfl⟩ : ∃ k, fuel = k + 1 := ⟨fuel - 1, by simp at hf; omega⟩
    have hgo := hg g (by simp)
    have hpos := List.length_pos_iff.mpr hgo.ne
    simp only [List.flatMap_cons, List.length_append, List.length_cons] at hpN hf
    obtain ⟨st1, h1, i1⟩ := loadElementGroupBinary22_reads cfg N hN pre g hgo (by omega) (hn g (by simp)) st hi
    obtain ⟨st2, h2, i2⟩ := ih (fun g h => hg g (by simp [h])) (fun g h => hn g (by simp [h])) fuel (pre ++ g.elems) st1
      (by omega) (by rw [List.length_append]; omega) i1
    refine ⟨st2, ?_, by simpa using i2⟩
    unfold loadElementGroups22
    rw [if_neg]
    · rw [List.flatMap_cons]
      exact ReadsB.bind h1 h2
    · rw [hi.processed]
      intro h
      have h := congrArg UInt64.toNat h
      rw [ofNat_toNat_lt (by omega), ofNat_toNat_lt (by omega)] at h
      omega

theorem groups_length (gs' : List FileGroup) : gs'.length ≤ (gs'.flatMap FileGroup.bytes).length := by
  induction gs' with
  | nil => simp
  | cons g gs' ih =>
    simp only [List.flatMap_cons, List.length_append, List.length_cons, FileGroup.bytes, encI32_length]
    omega

/-- The element range after a binary section. -/
def binaryRange (es : List FileElem) : UInt64 × UInt64 :=
  (if sizeOfInt (minNum es) < sizeMax then sizeOfInt (minNum es) else sizeMax,
   if 0 < sizeOfInt (maxNum es) then sizeOfInt (maxNum es) else 0)

theorem loadElementsBinary22_reads (cfg : Cfg) (gs' : List FileGroup) (hg : ∀ g ∈ gs', g.Ok cfg)
    (hfit : elemEntries ((gs'.flatMap FileGroup.elems).map FileElem.elem) ≤ cfg.maxCount)
    (e0 : Elements) (he0 : e0 = { minElementTag := sizeMax, maxElementTag := 0 }) (sep : Bytes) (hsep : One sep) :
    ReadsM (loadElementsBinary22 cfg e0 {})
      (decU64 (UInt64.ofNat (gs'.flatMap FileGroup.elems).length) ++ sep ++ gs'.flatMap FileGroup.bytes)
      ({ rawElements ((gs'.flatMap FileGroup.elems).map FileElem.elem) with
          minElementTag := (binaryRange (gs'.flatMap FileGroup.elems)).1
          maxElementTag := (binaryRange (gs'.flatMap FileGroup.elems)).2 },
        entitiesFrom (physOf (gs'.flatMap FileGroup.elems))) := by
  have hlt := cfg.maxCount_lt
  have hlen : (gs'.flatMap FileGroup.elems).length ≤ cfg.maxCount := by
    have := elemEntries_length ((gs'.flatMap FileGroup.elems).map FileElem.elem)
    rw [List.length_map] at this
    omega
  have hnum := ofNat_toNat_lt (n := (gs'.flatMap FileGroup.elems).length) (by omega)
  subst he0
  intro w rest hw hr
  have hgl := groups_length gs'
  obtain ⟨st', h1, i1⟩ := loadElementGroups22_reads cfg _ hlen gs' hg
    (by
      intro g hgm e he
      have hm : e ∈ gs'.flatMap FileGroup.elems := List.mem_flatMap.mpr ⟨g, hgm, he⟩
      have hn := elemEntries_mem (List.mem_map_of_mem (f := FileElem.elem) hm)
      simp only [FileElem.elem, List.length_map] at hn
      have : elemEntries ((gs'.flatMap FileGroup.elems).map FileElem.elem) ≤ cfg.maxCount := hfit
      exact Nat.le_trans hn this)
    ((gs'.flatMap FileGroup.bytes ++ rest).length + 2) [] { blocks := [] } (by rw [List.length_append]; omega) (by simp)
    ⟨rfl, rfl, rfl, rfl, rfl⟩
  unfold loadElementsBinary22
  have ee : w ++ (decU64 (UInt64.ofNat (gs'.flatMap FileGroup.elems).length) ++ sep ++ gs'.flatMap FileGroup.bytes) ++ rest =
    w ++ decU64 (UInt64.ofNat (gs'.flatMap FileGroup.elems).length) ++ (sep ++ (gs'.flatMap FileGroup.bytes ++ rest)) := by simp
  have hres : vecReserve cfg (UInt64.ofNat (gs'.flatMap FileGroup.elems).length) = .ok () := by
    unfold vecReserve
    rw [hnum, if_pos hlen]
  rw [ee, Rd.bind_ok (inSize_tok _ _ w _ hw (wsHead_append hsep.sep.head)), Rd.bind_ok (Rd.lift_ok hres _),
    Rd.bind_ok (eat_one hsep (by simp [hr]))]
  refine Eq.trans (Rd.bind_ok (s' := gs rest) (a := st') ?_) ?_
  · exact h1 rest
  have hcr := createAllEntities_ok cfg (gs'.flatMap FileGroup.elems) hlen
  have i1' : BinaryInv (gs'.flatMap FileGroup.elems) st' := i1
  rw [← i1'.maps] at hcr
  rw [Rd.bind_ok (Rd.lift_ok hcr _)]
  refine congrArg (fun x => Outcome.ok (x, gs rest)) (Prod.ext ?_ rfl)
  simp only [rawElements, binaryRange, i1'.lo, i1'.hi, i1'.blocks, sizeU, List.length_map, List.map_map, Function.comp_def]

end MshIO
