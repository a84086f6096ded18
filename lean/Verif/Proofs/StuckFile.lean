import Verif.Proofs.Stuck
import Verif.Proofs.RoundTrip22

/-!
# Sections that cannot be read
-/

namespace MshIO

/-! ## `$Nodes` -/

theorem loadNodeBlockAscii41_stuck (cfg : Cfg) (ha : cfg.asserts = false) {s : Stream} (hs : Stuck s) :
    loadNodeBlockAscii41 cfg {} s = .ok ({}, s) := by
  have h1 : assertGood cfg s = .ok ((), s) := by simp [assertGood, ha]
  have hr : ∀ {α : Type} (d : α), resize cfg [] 0 d s = .ok ([], s) := fun d => Rd.lift_ok (by simp [vecResize]) s
  unfold loadNodeBlockAscii41
  rw [Rd.bind_ok (hs.inInt _), Rd.bind_ok (hs.inInt _), Rd.bind_ok (hs.inInt _), Rd.bind_ok (hs.inSize _), Rd.bind_ok h1]
  show ((resize cfg ([] : List UInt64) 0 0) >>= _) s = _
  rw [Rd.bind_ok (hr _), Rd.bind_ok (Stuck.forEach [] (by simp)), Rd.bind_ok h1]
  rw [Rd.bind_ok (show assertC cfg _ s = .ok ((), s) by simp [assertC, ha])]
  rw [Rd.bind_ok (show Rd.lift (entriesPerNode 0 _) s = .ok (3, s) from Rd.lift_ok (by simp [entriesPerNode]) s)]
  show ((resize cfg ([] : List Double) 0 Double.zero) >>= _) s = _
  rw [Rd.bind_ok (hr _)]
  show (pure [] >>= _ : Rd NodeBlock) s = _
  rw [Rd.bind_ok (rfl : (pure [] : Rd (List Double)) s = .ok ([], s)), Rd.bind_ok h1]
  rfl

theorem loadNodeBlockAscii41_dead (cfg : Cfg) (b : NodeBlock) (hb : b.Ok) (hbad : ∃ d ∈ b.data, ¬ Printable cfg.fmt d)
    (hc1 : b.tags.length ≤ cfg.maxCount) (hc2 : b.data.length ≤ cfg.maxCount)
    (hpar : cfg.asserts = true → 0 ≤ b.parametric.toInt ∧ b.parametric.toInt ≤ 3) :
    EndsT (loadNodeBlockAscii41 cfg {}) (nodeBlockToks cfg.fmt b) (Dead cfg) := by
  have hlt := cfg.maxCount_lt
  obtain ⟨e, he, he2, he3⟩ := entriesPerNode_ok hb.dim
  have hmul : (b.numNodesInBlock * e).toNat = b.data.length := by
    rw [mul_toNat (by rw [he2, ← hb.data]; omega), he2, hb.data]
  unfold loadNodeBlockAscii41
  refine EndsT.cons (inInt_tok _ _) (EndsT.cons (inInt_tok _ _) (EndsT.cons (inInt_tok _ _)
    (EndsT.cons (inSize_tok _ _) (EndsT.silent (silent_assertGood cfg) ?_))))
  refine EndsT.silent (silent_resize_nil _ _ _ (by rw [← hb.tags]; exact hc1)) ?_
  rw [← hb.tags]
  refine EndsT.bind (readsT_sizes b.tags) (EndsT.silent (silent_assertGood cfg)
    (EndsT.silent (p := assertC cfg _) (a := ()) ?_ ?_))
  · intro bs
    unfold assertC
    cases ha : cfg.asserts with
    | false => simp
    | true =>
      obtain ⟨h1, h2⟩ := hpar ha
      have e1 : (0 : Int32) ≤ b.parametric := by rw [Int32.le_iff_toInt_le]; exact h1
      have e2 : b.parametric ≤ 3 := by rw [Int32.le_iff_toInt_le]; exact h2
      simp [e1, e2]
  refine EndsT.silent (silent_lift he) (EndsT.silent (silent_resize_nil _ _ _ (by omega)) ?_)
  have hfill := EndsT.fill (P := cfg.fmt) b.data (List.replicate (b.numNodesInBlock * e).toNat Double.zero) hbad
    (by simp [hmul]) (by omega)
  rw [show b.data.length = b.tags.length * e.toNat by rw [he2, hb.data, hb.tags], ← loopN_flat] at hfill
  refine EndsT.first hfill fun s hs => hs.bind fun a s' hs' => ?_
  exact Dead.bind hs'.assertGood fun _ _ s'' h'' => ⟨_, _, rfl, h''⟩

theorem loadNodesAscii41_dead (cfg : Cfg) (n old : Nodes) (h : n.Good cfg) (h0 : old.entityBlocks = [])
    (hbad : ∃ b ∈ n.entityBlocks, ∃ d ∈ b.data, ¬ Printable cfg.fmt d)
    (hpar : cfg.asserts = true → ∀ b ∈ n.entityBlocks, 0 ≤ b.parametric.toInt ∧ b.parametric.toInt ≤ 3) :
    EndsT (loadNodesAscii41 cfg old) (nodesToks cfg.fmt n) (Dead cfg) := by
  classical
  obtain ⟨good, b, post, e, hgood, hb⟩ : ∃ good b post, n.entityBlocks = good ++ b :: post ∧
      (∀ c ∈ good, ∀ d ∈ c.data, Printable cfg.fmt d) ∧ ∃ d ∈ b.data, ¬ Printable cfg.fmt d := by
    generalize n.entityBlocks = l at hbad
    induction l with
    | nil => obtain ⟨b, hb, _⟩ := hbad; cases hb
    | cons c l ih =>
      by_cases hc : ∃ d ∈ c.data, ¬ Printable cfg.fmt d
      · exact ⟨[], c, l, rfl, by simp, hc⟩
      · have : ∃ b ∈ l, ∃ d ∈ b.data, ¬ Printable cfg.fmt d := by
          obtain ⟨b, hb, hd⟩ := hbad
          rcases List.mem_cons.mp hb with rfl | hb
          · exact absurd hd hc
          · exact ⟨b, hb, hd⟩
        obtain ⟨good, b, post, e, h1, h2⟩ := ih this
        refine ⟨c :: good, b, post, by rw [e]; rfl, ?_, h2⟩
        intro x hx
        rcases List.mem_cons.mp hx with rfl | hx
        · intro d hd
          by_contra hnp
          exact hc ⟨d, hd, hnp⟩
        · exact h1 x hx
  have mem : ∀ c, c ∈ good ∨ c = b → c ∈ n.entityBlocks := by
    rintro c (hc | rfl) <;> rw [e] <;> simp_all
  unfold loadNodesAscii41
  refine EndsT.cast (t1 := decU64 n.numEntityBlocks :: decU64 n.numNodes :: decU64 n.minNodeTag :: decU64 n.maxNodeTag ::
    ((good.flatMap (nodeBlockToks cfg.fmt) ++ nodeBlockToks cfg.fmt b) ++ post.flatMap (nodeBlockToks cfg.fmt)))
    ?_ (by rw [nodesToks, e]; simp)
  refine EndsT.cons (inSize_tok _ _) (EndsT.cons (inSize_tok _ _) (EndsT.cons (inSize_tok _ _)
    (EndsT.cons (inSize_tok _ _) (EndsT.silent (silent_assertGood cfg) ?_))))
  rw [h0]
  refine EndsT.silent (silent_resize_nil _ _ _ (by rw [← h.blocks]; exact h.fits)) (EndsT.more ?_ _)
  rw [← h.blocks, show n.entityBlocks.length = good.length + 1 + post.length by rw [e]; simp; omega]
  refine EndsT.first (EndsT.forEach_dead good post.length (g := NodeBlock.convert (reread cfg.fmt)) ?_ ?_
    fun ha s hs => loadNodeBlockAscii41_stuck cfg ha hs) ?_
  · intro c hc
    have hm := mem c (Or.inl hc)
    exact loadNodeBlockAscii41_reads cfg c (h.ok c hm) (fun d hd => (hgood c hc d hd).dtok) (h.fitsB c hm).1 (h.fitsB c hm).2
      (fun ha => hpar ha c hm)
  · have hm := mem b (Or.inr rfl)
    exact loadNodeBlockAscii41_dead cfg b (h.ok b hm) hb (h.fitsB b hm).1 (h.fitsB b hm).2 (fun ha => hpar ha b hm)
  · intro s hs
    exact Dead.bind hs fun _ _ s' hs' => ⟨_, _, rfl, hs'⟩

/-! ## `$Nodes`, version 2.2 -/

/-- Vector sizes while the nodes are read. -/
def SizeInv (n : Nat) (st : List UInt64 × List Double) : Prop := st.1.length = n ∧ st.2.length = 3 * n

/-- Loop body of the version 2.2 reader. -/
def nodeBody22 (cfg : Cfg) (i : Nat) (st : List UInt64 × List Double) : Rd (List UInt64 × List Double) := do
  let tags ← inSizeAt (UInt64.ofNat i) st.1
  let data ← inDoubleAt (UInt64.ofNat i * 3) st.2
  let data ← inDoubleAt (UInt64.ofNat i * 3 + 1) data
  let data ← inDoubleAt (UInt64.ofNat i * 3 + 2) data
  assertGood cfg
  return (tags, data)

/-- As `Dead`, keeping the vector sizes. -/
def DeadI (cfg : Cfg) (N : Nat) (o : Outcome ((List UInt64 × List Double) × Stream)) : Prop :=
  (cfg.asserts = true → o = .abort) ∧ (cfg.asserts = false → ∃ a s, o = .ok (a, s) ∧ Stuck s ∧ SizeInv N a)

section
variable {cfg : Cfg} {N i : Nat}

theorem deadI_3 {tags : List UInt64} {data : List Double} (h : SizeInv N (tags, data)) {s : Stream} (hs : Stuck s) :
    DeadI cfg N ((do assertGood cfg; return (tags, data) : Rd (List UInt64 × List Double)) s) := by
  obtain ⟨h1, h2⟩ := hs.assertGood (cfg := cfg)
  refine ⟨fun ha => Rd.bind_abort (h1 ha), fun ha => ?_⟩
  obtain ⟨_, s', e, hs'⟩ := h2 ha
  exact ⟨(tags, data), s', by rw [Rd.bind_ok e]; rfl, hs', h⟩

theorem deadI_2 {tags : List UInt64} {data : List Double} (h : SizeInv N (tags, data)) (hi : i < N) (hN : 3 * N < 2 ^ 62) {s : Stream} (hs : Stuck s) :
    DeadI cfg N ((do
      let data ← inDoubleAt (UInt64.ofNat i * 3 + 2) data
      assertGood cfg
      return (tags, data) : Rd (List UInt64 × List Double)) s) := by
  obtain ⟨a0, a1, a2⟩ := tok_at3 i (by omega)
  have := h.2
  rw [Rd.bind_ok (hs.inDoubleAt _ _ (by simp only at this; omega))]
  exact deadI_3 h hs

theorem deadI_1 {tags : List UInt64} {data : List Double} (h : SizeInv N (tags, data)) (hi : i < N) (hN : 3 * N < 2 ^ 62) {s : Stream} (hs : Stuck s) :
    DeadI cfg N ((do
      let data ← inDoubleAt (UInt64.ofNat i * 3 + 1) data
      let data ← inDoubleAt (UInt64.ofNat i * 3 + 2) data
      assertGood cfg
      return (tags, data) : Rd (List UInt64 × List Double)) s) := by
  obtain ⟨a0, a1, a2⟩ := tok_at3 i (by omega)
  have := h.2
  rw [Rd.bind_ok (hs.inDoubleAt _ _ (by simp only at this; omega))]
  exact deadI_2 h hi hN hs

theorem nodeBody22_stuck {st : List UInt64 × List Double} (ha : cfg.asserts = false) (h : SizeInv N st) (hi : i < N) (hN : 3 * N < 2 ^ 62)
    {s : Stream} (hs : Stuck s) : nodeBody22 cfg i st s = .ok (st, s) := by
  obtain ⟨a0, a1, a2⟩ := tok_at3 i (by omega)
  obtain ⟨h1, h2⟩ := h
  have hp : (UInt64.ofNat i).toNat = i := ofNat_toNat_lt (by omega)
  unfold nodeBody22
  rw [Rd.bind_ok (hs.inSizeAt _ _ (by omega)), Rd.bind_ok (hs.inDoubleAt _ _ (by omega)), Rd.bind_ok (hs.inDoubleAt _ _ (by omega)),
    Rd.bind_ok (hs.inDoubleAt _ _ (by omega)), Rd.bind_ok (show assertGood cfg s = .ok ((), s) by simp [assertGood, ha])]
  rfl

theorem nodeBody22_dead {P : Fmt} {st : List UInt64 × List Double} {c : MeshNode} (h : SizeInv N st) (hi : i < N) (hN : 3 * N < 2 ^ 62)
    (hbad : ¬ (Printable P c.x ∧ Printable P c.y ∧ Printable P c.z)) :
    EndsT (nodeBody22 cfg i st) (nodeWords P c) (DeadI cfg N) := by
  obtain ⟨a0, a1, a2⟩ := tok_at3 i (by omega)
  obtain ⟨h1, h2⟩ := h
  have hp : (UInt64.ofNat i).toNat = i := ofNat_toNat_lt (by omega)
  unfold nodeBody22
  have t0 := inSizeAt_reads c.tag (UInt64.ofNat i) st.1 (by omega)
  refine EndsT.bind (t1 := [decU64 c.tag]) t0 (t2 := [fmtDouble P c.x, fmtDouble P c.y, fmtDouble P c.z]) ?_
  have l0 : (st.1.set (UInt64.ofNat i).toNat c.tag).length = N := by simp [h1]
  by_cases hx : Printable P c.x
  · have t1 := inDoubleAt_reads hx.dtok (UInt64.ofNat i * 3) st.2 (by omega)
    have l1 : (st.2.set (UInt64.ofNat i * 3).toNat (reread P c.x)).length = 3 * N := by simp [h2]
    refine EndsT.bind (t1 := [fmtDouble P c.x]) t1 (t2 := [fmtDouble P c.y, fmtDouble P c.z]) ?_
    by_cases hy : Printable P c.y
    · have t2 := inDoubleAt_reads hy.dtok (UInt64.ofNat i * 3 + 1) (st.2.set (UInt64.ofNat i * 3).toNat (reread P c.x)) (by omega)
      have l2 : ((st.2.set (UInt64.ofNat i * 3).toNat (reread P c.x)).set (UInt64.ofNat i * 3 + 1).toNat (reread P c.y)).length = 3 * N := by
        simp [h2]
      refine EndsT.bind (t1 := [fmtDouble P c.y]) t2 (t2 := [fmtDouble P c.z]) ?_
      have hz : ¬ Printable P c.z := fun hz => hbad ⟨hx, hy, hz⟩
      refine EndsT.first (EndsT.doubleAt hz (UInt64.ofNat i * 3 + 2) _ (by omega)) ?_
      rintro s ⟨v, s', e, hs, hv⟩
      rw [Rd.bind_ok e]
      exact deadI_3 ⟨l0, by rw [hv]; exact l2⟩ hs
    · refine EndsT.more (ts := [fmtDouble P c.y]) (EndsT.first (EndsT.doubleAt hy (UInt64.ofNat i * 3 + 1) _ (by omega)) ?_) [fmtDouble P c.z]
      rintro s ⟨v, s', e, hs, hv⟩
      rw [Rd.bind_ok e]
      exact deadI_2 ⟨l0, by rw [hv]; exact l1⟩ hi hN hs
  · refine EndsT.more (ts := [fmtDouble P c.x]) (EndsT.first (EndsT.doubleAt hx (UInt64.ofNat i * 3) _ (by omega)) ?_) [fmtDouble P c.y, fmtDouble P c.z]
    rintro s ⟨v, s', e, hs, hv⟩
    rw [Rd.bind_ok e]
    exact deadI_1 ⟨l0, by rw [hv]; exact h2⟩ hi hN hs

theorem nodeBody22_reads {P : Fmt} {st : List UInt64 × List Double} {c : MeshNode} (h : SizeInv N st) (hi : i < N) (hN : 3 * N < 2 ^ 62)
    (hd : Printable P c.x ∧ Printable P c.y ∧ Printable P c.z) :
    ∃ st', ReadsT (nodeBody22 cfg i st) (nodeWords P c) st' ∧ SizeInv N st' := by
  obtain ⟨a0, a1, a2⟩ := tok_at3 i (by omega)
  obtain ⟨h1, h2⟩ := h
  have hp : (UInt64.ofNat i).toNat = i := ofNat_toNat_lt (by omega)
  obtain ⟨hx, hy, hz⟩ := hd
  unfold nodeBody22
  have t0 := inSizeAt_reads c.tag (UInt64.ofNat i) st.1 (by omega)
  have t1 := inDoubleAt_reads hx.dtok (UInt64.ofNat i * 3) st.2 (by omega)
  have t2 := inDoubleAt_reads hy.dtok (UInt64.ofNat i * 3 + 1) (st.2.set (UInt64.ofNat i * 3).toNat (reread P c.x)) (by rw [List.length_set]; omega)
  have t3 := inDoubleAt_reads hz.dtok (UInt64.ofNat i * 3 + 2) ((st.2.set (UInt64.ofNat i * 3).toNat (reread P c.x)).set (UInt64.ofNat i * 3 + 1).toNat (reread P c.y))
    (by rw [List.length_set, List.length_set]; omega)
  refine ⟨_, ReadsT.bind t0 (ReadsT.bind t1 (ReadsT.bind t2 (ReadsT.last t3 (ReadsT.silent (silent_assertGood cfg) (ReadsT.pure _))))), ?_⟩
  exact ⟨by simp [h1], by simp [h2]⟩

theorem loop22_dead {P : Fmt} (hN : 3 * N < 2 ^ 62) : ∀ (cs : List MeshNode) (i : Nat) (st : List UInt64 × List Double),
    (∃ n ∈ cs, ¬ (Printable P n.x ∧ Printable P n.y ∧ Printable P n.z)) → SizeInv N st → i + cs.length = N →
    EndsT (loopN (nodeBody22 cfg) cs.length i st) (cs.flatMap (nodeWords P)) (Dead cfg) := by
  intro cs
  induction cs with
  | nil => intro i st hb; obtain ⟨d, hd, _⟩ := hb; cases hd
  | cons c cs ih =>
    intro i st hb h hi
    simp only [List.length_cons] at hi
    rw [List.flatMap_cons]
    by_cases hc : Printable P c.x ∧ Printable P c.y ∧ Printable P c.z
    · obtain ⟨st', r, h'⟩ := nodeBody22_reads (cfg := cfg) h (i := i) (by omega) hN hc
      refine EndsT.bind r (ih (i + 1) st' ?_ h' (by omega))
      obtain ⟨n, hn, hp⟩ := hb
      rcases List.mem_cons.mp hn with rfl | hn
      · exact absurd hc hp
      · exact ⟨n, hn, hp⟩
    · refine EndsT.more (EndsT.first (nodeBody22_dead h (i := i) (by omega) hN hc) ?_) _
      rintro s ⟨d1, d2⟩
      refine ⟨fun ha => Rd.bind_abort (d1 ha), fun ha => ?_⟩
      obtain ⟨st', s', e, hs, h'⟩ := d2 ha
      refine ⟨st', s', ?_, hs⟩
      rw [Rd.bind_ok e]
      exact Stuck.loopN _ _ fun j h1 h2 => nodeBody22_stuck ha h' (by omega) hN hs

end

theorem loadNodesAscii22_dead (cfg : Cfg) (P : Fmt) (ns : List MeshNode)
    (hbad : ∃ n ∈ ns, ¬ (Printable P n.x ∧ Printable P n.y ∧ Printable P n.z))
    (h3 : 3 * ns.length ≤ cfg.maxCount) (h1 : 1 ≤ cfg.maxCount) (n0 : Nodes) (hn0 : n0.entityBlocks = []) :
    EndsT (loadNodesAscii22 cfg n0) (decU64 (UInt64.ofNat ns.length) :: ns.flatMap (nodeWords P)) (Dead cfg) := by
  have hlt := cfg.maxCount_lt
  have hnum : (UInt64.ofNat ns.length).toNat = ns.length := ofNat_toNat_lt (by omega)
  have hnum3 : (UInt64.ofNat ns.length * 3).toNat = 3 * ns.length := by
    have e3 : (3 : UInt64).toNat = 3 := rfl
    rw [mul_toNat (by rw [hnum, e3]; omega), hnum, e3]; omega
  unfold loadNodesAscii22
  refine EndsT.silent (silent_pushBack cfg _ _ (by rw [hn0]; simp; omega)) (EndsT.cons (inSize_tok _ _) ?_)
  refine EndsT.silent (silent_assertGood cfg) (EndsT.silent (silent_resize_nil cfg _ _ (by omega))
    (EndsT.silent (silent_resize_nil cfg _ _ (by omega)) ?_))
  rw [hnum, hnum3]
  refine EndsT.first (Q := Dead cfg) ?_ fun s hs => Dead.bind hs fun _ _ s' hs' => ⟨_, _, rfl, hs'⟩
  exact loop22_dead (N := ns.length) (by omega) ns 0 (List.replicate ns.length 0, List.replicate (3 * ns.length) Double.zero) hbad
    ⟨by simp, by simp⟩ (by omega)

end MshIO
