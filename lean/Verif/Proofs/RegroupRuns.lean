import Verif.Proofs.Regroup

/-! # Regrouping, with exactly enough memory -/

namespace MshIO

section
variable {α κ : Type} [DecidableEq κ]

/-- There is room for the runs of `l`: at most `M`, and the size `c` of each of them is at most `M`. -/
structure RunsRoom (key : α → κ) (c : List α → Nat) (M : Nat) (l : List α) : Prop where
  count : (runs key l).length ≤ M
  size : ∀ r ∈ runs key l, c r ≤ M

theorem runsRoom_new {key : α → κ} {c : List α → Nat} {M : Nat} {l : List α} {a : α} (h : ∀ b ∈ l.getLast?, key b ≠ key a) :
    RunsRoom key c M (l ++ [a]) ↔ RunsRoom key c M l ∧ (runs key l).length < M ∧ c [a] ≤ M := by
  constructor
  · rintro ⟨h1, h2⟩
    rw [runs_snoc_new h] at h1 h2
    simp only [List.length_append, List.length_singleton] at h1
    exact ⟨⟨by omega, fun r hr => h2 r (by simp [hr])⟩, by omega, h2 [a] (by simp)⟩
  · rintro ⟨⟨h1, h2⟩, h3, h4⟩
    constructor
    · rw [runs_snoc_new h]; simp; omega
    · rw [runs_snoc_new h]
      intro r hr
      rcases List.mem_append.mp hr with hr | hr
      · exact h2 r hr
      · rw [List.mem_singleton.mp hr]; exact h4

theorem runsRoom_old {key : α → κ} {c : List α → Nat} {M : Nat} {l : List α} {a : α} {rs : List (List α)} {r : List α} (e : runs key l = rs ++ [r])
    (e' : runs key (l ++ [a]) = rs ++ [r ++ [a]]) (h : RunsRoom key c M l) : RunsRoom key c M (l ++ [a]) ↔ c (r ++ [a]) ≤ M := by
  constructor
  · rintro ⟨_, h2⟩
    exact h2 _ (by rw [e']; simp)
  · intro hc
    constructor
    · have := h.count
      rw [e] at this
      rw [e']
      simpa using this
    · rw [e']
      intro x hx
      rcases List.mem_append.mp hx with hx | hx
      · exact h.size x (by rw [e]; simp [hx])
      · rw [List.mem_singleton.mp hx]; exact hc

theorem runsRoom_mono {key : α → κ} {c : List α → Nat} {M : Nat} (hc : ∀ r a, c r ≤ c (r ++ [a])) (l m : List α) (h : RunsRoom key c M (l ++ m)) : RunsRoom key c M l := by
  induction m using List.reverseRecOn with
  | nil => simpa using h
  | append_singleton m a ih =>
    refine ih ?_
    rw [← List.append_assoc] at h
    cases hl : (l ++ m).getLast? with
    | none => exact ((runsRoom_new (by rw [hl]; simp)).mp h).1
    | some b =>
      by_cases hk : key b = key a
      · obtain ⟨rs, r, e1, _, e2⟩ := runs_snoc_old hl hk
        obtain ⟨h1, h2⟩ := h
        rw [e2] at h1 h2
        constructor
        · rw [e1]; simpa using h1
        · rw [e1]
          intro x hx
          rcases List.mem_append.mp hx with hx | hx
          · exact h2 x (by simp [hx])
          · rw [List.mem_singleton.mp hx]; exact (hc r a).trans (h2 _ (by simp))
      · exact ((runsRoom_new (by rw [hl]; simpa using hk)).mp h).1

/-- `runBlocks_snoc_old` together with the runs. -/
theorem runBlocks_runs_old {β : Type} {key : α → κ} {mk : κ → List α → β} {l : List α} {a b : α} (hb : l.getLast? = some b) (h : key b = key a) :
    ∃ bs rs r, runBlocks key mk l = bs ++ [mk (key a) r] ∧ runBlocks key mk (l ++ [a]) = bs ++ [mk (key a) (r ++ [a])] ∧
      runs key l = rs ++ [r] ∧ runs key (l ++ [a]) = rs ++ [r ++ [a]] := by
  obtain ⟨rs, r, e1, e2, e3⟩ := runs_snoc_old hb h
  obtain ⟨c, r', rfl⟩ : ∃ c r', r = c :: r' := by
    cases r with
    | nil => simp at e2
    | cons c r' => exact ⟨c, r', rfl⟩
  have hk : key c = key a := by
    rw [← h]
    exact runs_key (l := l) (r := c :: r') (by rw [e1]; simp) (by simp) (List.mem_of_getLast? e2)
  refine ⟨rs.flatMap (runBlock key mk), rs, c :: r', ?_, ?_, e1, e3⟩
  · unfold runBlocks; rw [e1, List.flatMap_append]; simp [hk, runBlock]
  · unfold runBlocks; rw [e3, List.flatMap_append]; simp [hk, runBlock]

end

theorem vecModifyBack_eq {α : Type} (v : List α) (a : α) (f : α → Outcome α) : vecModifyBack (v ++ [a]) f = (f a >>= fun b => .ok (v ++ [b])) := by
  unfold vecModifyBack
  simp only [List.getLast?_append, List.getLast?_singleton, Option.some_or, List.dropLast_concat]
  rfl

theorem bind_ok_bind {α β γ : Type} (x : Outcome α) (f : α → β) (g : β → Outcome γ) : ((x >>= fun a => .ok (f a)) >>= g) = (x >>= fun a => g (f a)) := by
  cases x <;> rfl

/-! ## The tables -/

/-- The two tables hold what `f` says, for every tag that has a place in them. -/
structure Noted (m : UInt64) (sz : Nat) (f : UInt64 → Int32 × Int32) (st : List UInt64 × List UInt64) : Prop where
  len1 : st.1.length = sz
  len2 : st.2.length = sz
  get1 : ∀ t, (t - m).toNat < sz → st.1[(t - m).toNat]? = some (sizeOfInt (f t).1)
  get2 : ∀ t, (t - m).toNat < sz → st.2[(t - m).toNat]? = some (sizeOfInt (f t).2)

theorem sub_inj {m t u : UInt64} (h : (t - m).toNat = (u - m).toNat) : t = u := by
  rw [UInt64.toNat_sub, UInt64.toNat_sub] at h
  have h1 := t.toNat_lt
  have h2 := u.toNat_lt
  have h3 := m.toNat_lt
  apply UInt64.toNat_inj.mp
  omega

theorem noted_set {m : UInt64} {sz : Nat} {f : UInt64 → Int32 × Int32} {st : List UInt64 × List UInt64} (hst : Noted m sz f st) {u : UInt64} (hlt : (u - m).toNat < sz) (d g : Int32) :
    ∃ st', (do
      let dims ← vecSet st.1 (u - m) (sizeOfInt d)
      let tags ← vecSet st.2 (u - m) (sizeOfInt g)
      return (dims, tags) : Outcome (List UInt64 × List UInt64)) = .ok st' ∧
      Noted m sz (fun t => if t = u then (d, g) else f t) st' := by
  refine ⟨(st.1.set (u - m).toNat (sizeOfInt d), st.2.set (u - m).toNat (sizeOfInt g)), ?_, ?_⟩
  · unfold vecSet
    rw [if_pos (by rw [hst.len1]; exact hlt), if_pos (by rw [hst.len2]; exact hlt)]
    rfl
  · constructor
    · simp [hst.len1]
    · simp [hst.len2]
    · intro t ht
      by_cases e : t = u
      · subst e; simp [hst.len1, hlt]
      · have : (u - m).toNat ≠ (t - m).toNat := fun h => e (sub_inj h.symm)
        rw [List.getElem?_set_ne this, hst.get1 t ht, if_neg e]
    · intro t ht
      by_cases e : t = u
      · subst e; simp [hst.len2, hlt]
      · have : (u - m).toNat ≠ (t - m).toNat := fun h => e (sub_inj h.symm)
        rw [List.getElem?_set_ne this, hst.get2 t ht, if_neg e]

theorem markBlock_noted {m : UInt64} {sz : Nat} {f : UInt64 → Int32 × Int32} {st : List UInt64 × List UInt64} (hst : Noted m sz f st) (e : MeshElem)
    (ho : mshNodes e.type = some e.nodes.length) (hr : ∀ t ∈ e.nodes, (t - m).toNat < sz) :
    ∃ st', markBlock m e.block st = .ok st' ∧ Noted m sz (fun t => if t ∈ e.nodes then (e.dim, e.entity) else f t) st' := by
  obtain ⟨hn, hle, -⟩ := nodesPerElement_of_mshNodes ho
  have hnn : (UInt64.ofNat e.nodes.length).toNat = e.nodes.length := ofNat_toNat_lt (by omega)
  unfold markBlock
  rw [Outcome.bind_ok _ (show nodesPerElement e.block.elementType = _ from hn)]
  rw [hnn]
  refine Exists.elim (loopO_inv (f := fun j st => do
      let t ← vecGet e.block.data (UInt64.ofNat 0 * (UInt64.ofNat e.nodes.length + 1) + UInt64.ofNat j + 1)
      let idx := t - m
      let dims ← vecSet st.1 idx (sizeOfInt e.block.entityDim)
      let tags ← vecSet st.2 idx (sizeOfInt e.block.entityTag)
      return (dims, tags)) e.nodes.length
    (fun j st => Noted m sz (fun t => if t ∈ e.nodes.take j then (e.dim, e.entity) else f t) st) ?_ (st := st)
    (by simpa using hst)) ?_
  rotate_left
  · rintro st' ⟨h1, h2⟩
    refine ⟨st', ?_, by simpa using h2⟩
    show (_ >>= fun st => Outcome.ok st) = _
    rw [Outcome.bind_ok _ h1]
  · intro j st hj hs
    have hmem : e.nodes[j] ∈ e.nodes := List.getElem_mem hj
    obtain ⟨st', k1, k2⟩ := noted_set hs (hr _ hmem) e.dim e.entity
    refine ⟨st', ?_, ?_⟩
    · have hv : vecGet e.block.data (UInt64.ofNat 0 * (UInt64.ofNat e.nodes.length + 1) + UInt64.ofNat j + 1) =
          .ok (e.nodes[j]) := by
        have : UInt64.ofNat 0 * (UInt64.ofNat e.nodes.length + 1) + UInt64.ofNat j + 1 = UInt64.ofNat (j + 1) := by
          simp
        rw [this, vecGet_ok (k := j + 1) (ofNat_toNat_lt (by omega)) (by simp [MeshElem.block]; omega)]
        simp [MeshElem.block]
      rw [Outcome.bind_ok _ hv]
      exact k1
    · have he : (fun t => if t = e.nodes[j] then (e.dim, e.entity) else
          if t ∈ e.nodes.take j then (e.dim, e.entity) else f t) =
          fun t => if t ∈ e.nodes.take (j + 1) then (e.dim, e.entity) else f t := by
        funext t
        have hin : t ∈ e.nodes.take (j + 1) ↔ t ∈ e.nodes.take j ∨ t = e.nodes[j] := by
          rw [List.take_add_one, List.getElem?_eq_getElem hj, Option.toList_some, List.mem_append, List.mem_singleton]
        by_cases q : t = e.nodes[j]
        · rw [if_pos q, if_pos (hin.mpr (Or.inr q))]
        · rw [if_neg q]
          by_cases w : t ∈ e.nodes.take j
          · rw [if_pos w, if_pos (hin.mpr (Or.inl w))]
          · rw [if_neg w, if_neg (fun h => (hin.mp h).elim w q)]
      rw [he] at k2
      exact k2

/-! ## Nodes -/

theorem joinNode_fits {cfg : Cfg} {ns : List MeshNode} {i : Nat} (hi : i < ns.length) (h3 : 3 * ns.length ≤ cfg.maxCount) (k : Int32 × Int32) (r : List MeshNode) :
    Fitting (joinNode cfg (rawNodeBlock ns) ns[i].tag (UInt64.ofNat i) (openBlockOf k r)) (· = openBlockOf k (r ++ [ns[i]])) (3 * (r.length + 1) ≤ cfg.maxCount) := by
  have hlt := cfg.maxCount_lt
  have hin : (UInt64.ofNat i).toNat = i := ofNat_toNat_lt (by omega)
  have m3 : (UInt64.ofNat i * 3).toNat = 3 * i := by
    rw [mul_toNat] <;> rw [hin] <;> simp <;> omega
  obtain ⟨c0, c1, c2⟩ := coords_get ns hi
  have d0 : vecGet (rawNodeBlock ns).data (UInt64.ofNat i * 3) = .ok ns[i].x := by
    unfold vecGet rawNodeBlock; simp only [m3, c0]
  have d1 : vecGet (rawNodeBlock ns).data (UInt64.ofNat i * 3 + 1) = .ok ns[i].y := by
    have : (UInt64.ofNat i * 3 + 1).toNat = 3 * i + 1 := by rw [add_toNat (by rw [m3]; simp; omega), m3]; rfl
    unfold vecGet rawNodeBlock; simp only [this, c1]
  have d2 : vecGet (rawNodeBlock ns).data (UInt64.ofNat i * 3 + 2) = .ok ns[i].z := by
    have : (UInt64.ofNat i * 3 + 2).toNat = 3 * i + 2 := by rw [add_toNat (by rw [m3]; simp; omega), m3]; rfl
    unfold vecGet rawNodeBlock; simp only [this, c2]
  have hdl : (openBlockOf k r).data.length = 3 * r.length := by
    simp [openBlockOf, nodeBlockOf, List.length_flatMap]; omega
  have htl : (openBlockOf k r).tags.length = r.length := by simp [openBlockOf, nodeBlockOf]
  have p : ∀ {α : Type} (v : List α) (x : α), v.length < cfg.maxCount → vecPush cfg v x = .ok (v ++ [x]) := fun v x h => if_pos h
  have q : ∀ {α : Type} (v : List α) (x : α), ¬ v.length < cfg.maxCount → vecPush cfg v x = .throw .alloc := fun v x h => if_neg h
  unfold joinNode
  by_cases hfit : 3 * (r.length + 1) ≤ cfg.maxCount
  · refine Or.inl ⟨hfit, _, ?_, rfl⟩
    rw [Outcome.bind_ok _ (p _ _ (by omega)), Outcome.bind_ok _ d0, Outcome.bind_ok _ (p _ _ (by omega)), Outcome.bind_ok _ d1,
      Outcome.bind_ok _ (p _ _ (by simp; omega)), Outcome.bind_ok _ d2, Outcome.bind_ok _ (p _ _ (by simp; omega))]
    show Outcome.ok _ = _
    simp [openBlockOf, nodeBlockOf]
  · refine Or.inr ⟨hfit, ?_⟩
    by_cases f1 : r.length < cfg.maxCount
    · rw [Outcome.bind_ok _ (p _ _ (by omega)), Outcome.bind_ok _ d0]
      by_cases f2 : 3 * r.length < cfg.maxCount
      · rw [Outcome.bind_ok _ (p _ _ (by omega)), Outcome.bind_ok _ d1]
        by_cases f3 : 3 * r.length + 1 < cfg.maxCount
        · rw [Outcome.bind_ok _ (p _ _ (by simp; omega)), Outcome.bind_ok _ d2, q _ _ (by simp; omega)]; rfl
        · rw [q _ _ (by simp; omega)]; rfl
      · rw [q _ _ (by omega)]; rfl
    · rw [q _ _ (by omega)]; rfl

theorem regroupNode_opens {cfg : Cfg} {m : UInt64} {dims tags : List UInt64} {b : NodeBlock} {i : Nat} {st : Regroup}
    {t : UInt64} {d g : Int32}
    (g1 : vecGet b.tags (UInt64.ofNat i) = .ok t) (g2 : vecGet dims (t - m) = .ok (sizeOfInt d))
    (g3 : vecGet tags (t - m) = .ok (sizeOfInt g)) (h : sizeOfInt d ≠ st.dim ∨ sizeOfInt g ≠ st.tag)
    (q1 : vecReserve cfg b.numNodesInBlock = .ok ()) (q2 : vecReserve cfg (b.numNodesInBlock * 3) = .ok ()) :
    regroupNode cfg m dims tags b i st = if st.blocks.length < cfg.maxCount then
      joinNode cfg b t (UInt64.ofNat i) (openBlockOf (d, g) []) >>= fun b' => .ok { blocks := st.blocks ++ [b'], dim := sizeOfInt d, tag := sizeOfInt g }
      else .throw .alloc := by
  unfold regroupNode
  simp only
  rw [Outcome.bind_ok _ g1, Outcome.bind_ok _ g2, Outcome.bind_ok _ g3, if_pos h, Outcome.bind_ok _ q1, Outcome.bind_ok _ q2]
  split
  · rename_i q3
    rw [Outcome.bind_ok _ (show vecPush cfg st.blocks _ = _ from if_pos q3), Outcome.bind_ok (x := pure _) _ rfl]
    simp only
    rw [if_neg (by simp), intOfSize_sizeOfInt, intOfSize_sizeOfInt, vecModifyBack_eq]
    exact bind_ok_bind _ _ _
  · rename_i q3
    rw [show vecPush cfg st.blocks { entityDim := intOfSize (sizeOfInt d), entityTag := intOfSize (sizeOfInt g) } = .throw .alloc from if_neg q3]
    rfl

theorem regroupNode_joins {cfg : Cfg} {m : UInt64} {dims tags : List UInt64} {b : NodeBlock} {i : Nat} {st : Regroup}
    {t : UInt64} {bs : List NodeBlock} {c : NodeBlock}
    (g1 : vecGet b.tags (UInt64.ofNat i) = .ok t) (g2 : vecGet dims (t - m) = .ok st.dim)
    (g3 : vecGet tags (t - m) = .ok st.tag) (hb : st.blocks = bs ++ [c]) :
    regroupNode cfg m dims tags b i st = (joinNode cfg b t (UInt64.ofNat i) c >>= fun b' => .ok { st with blocks := bs ++ [b'] }) := by
  unfold regroupNode
  simp only
  rw [Outcome.bind_ok _ g1, Outcome.bind_ok _ g2, Outcome.bind_ok _ g3, if_neg (by simp), Outcome.bind_ok (x := pure _) _ rfl,
    hb, if_neg (by simp), vecModifyBack_eq]
  exact bind_ok_bind _ _ _

/-- The node loop after the nodes `pre`. -/
def NodesDone (key : MeshNode → Int32 × Int32) (pre : List MeshNode) (st : Regroup) : Prop :=
  st.blocks = runBlocks key openBlockOf pre ∧
    match pre.getLast? with
    | none => st.dim = sizeMax
    | some b => st.dim = sizeOfInt (key b).1 ∧ st.tag = sizeOfInt (key b).2

theorem nodesDone_snoc {key : MeshNode → Int32 × Int32} {pre : List MeshNode} {n : MeshNode} {st : Regroup} (h1 : st.blocks = runBlocks key openBlockOf (pre ++ [n]))
    (h2 : st.dim = sizeOfInt (key n).1) (h3 : st.tag = sizeOfInt (key n).2) : NodesDone key (pre ++ [n]) st := by
  refine ⟨h1, ?_⟩
  simp only [List.getLast?_append, List.getLast?_singleton, Option.some_or]
  exact ⟨h2, h3⟩

theorem regroupNode_fits {cfg : Cfg} {m : UInt64} {sz : Nat} {f : UInt64 → Int32 × Int32} {dims tags : List UInt64} (hT : Noted m sz f (dims, tags)) (hdim : ∀ t, 0 ≤ (f t).1.toInt)
    {ns : List MeshNode} (h3 : 3 * ns.length ≤ cfg.maxCount) {i : Nat} (hi : i < ns.length) (hin : (ns[i].tag - m).toNat < sz) {pre : List MeshNode} {st : Regroup}
    (hst : NodesDone (fun n => f n.tag) pre st) (hfit : RunsRoom (fun n => f n.tag) (3 * ·.length) cfg.maxCount pre) :
    Fitting (regroupNode cfg m dims tags (rawNodeBlock ns) i st) (NodesDone (fun n => f n.tag) (pre ++ [ns[i]]))
      (RunsRoom (fun n => f n.tag) (3 * ·.length) cfg.maxCount (pre ++ [ns[i]])) := by
  have hlt := cfg.maxCount_lt
  obtain ⟨i1, i2⟩ := hst
  have hiN : (UInt64.ofNat i).toNat = i := ofNat_toNat_lt (by omega)
  have hnum : (rawNodeBlock ns).numNodesInBlock.toNat = ns.length := ofNat_toNat_lt (by omega)
  have g1 : vecGet (rawNodeBlock ns).tags (UInt64.ofNat i) = .ok ns[i].tag := by
    unfold vecGet; rw [hiN]; simp [rawNodeBlock, hi]
  have g2 : vecGet dims (ns[i].tag - m) = .ok (sizeOfInt (f ns[i].tag).1) := by unfold vecGet; rw [hT.get1 _ hin]
  have g3 : vecGet tags (ns[i].tag - m) = .ok (sizeOfInt (f ns[i].tag).2) := by unfold vecGet; rw [hT.get2 _ hin]
  have q1 : vecReserve cfg (rawNodeBlock ns).numNodesInBlock = .ok () := by
    unfold vecReserve; rw [hnum, if_pos (by omega)]
  have q2 : vecReserve cfg ((rawNodeBlock ns).numNodesInBlock * 3) = .ok () := by
    unfold vecReserve; rw [mul_toNat (by rw [hnum]; simp; omega), hnum, if_pos (by simp; omega)]
  have hnew : (sizeOfInt (f ns[i].tag).1 ≠ st.dim ∨ sizeOfInt (f ns[i].tag).2 ≠ st.tag) → (∀ b ∈ pre.getLast?, f b.tag ≠ f ns[i].tag) →
      Fitting (regroupNode cfg m dims tags (rawNodeBlock ns) i st) (NodesDone (fun n => f n.tag) (pre ++ [ns[i]]))
        (RunsRoom (fun n => f n.tag) (3 * ·.length) cfg.maxCount (pre ++ [ns[i]])) := by
    intro hc hl
    rw [regroupNode_opens g1 g2 g3 hc q1 q2]
    refine Fitting.iff ?_ (runsRoom_new (key := fun n : MeshNode => f n.tag) hl).symm
    have hlen : st.blocks.length = (runs (fun n : MeshNode => f n.tag) pre).length := by rw [i1, runBlocks_length]
    by_cases hb : st.blocks.length < cfg.maxCount
    · rw [if_pos hb]
      have hj := joinNode_fits (cfg := cfg) hi h3 (f ns[i].tag) []
      rcases hj with ⟨_, b', e1, e2⟩ | ⟨h, _⟩
      · refine Or.inl ⟨⟨hfit, by omega, by simp; omega⟩, _, Outcome.bind_ok _ e1, nodesDone_snoc ?_ rfl rfl⟩
        rw [runBlocks_snoc_new hl, i1, e2]
        rfl
      · simp at h; omega
    · rw [if_neg hb]
      exact Or.inr ⟨fun h => by omega, rfl⟩
  cases hlast : pre.getLast? with
  | none =>
    rw [hlast] at i2 hnew
    refine hnew (Or.inl ?_) (by simp)
    rw [i2]
    exact dim_valid (hdim _)
  | some b =>
    rw [hlast] at i2 hnew
    obtain ⟨j1, j2⟩ := i2
    by_cases hk : f b.tag = f ns[i].tag
    · obtain ⟨bs, rs, r, r1, r2, r3, r4⟩ := runBlocks_runs_old (key := fun n : MeshNode => f n.tag) (mk := openBlockOf) hlast hk
      simp only at j1 j2
      rw [hk] at j1 j2
      rw [regroupNode_joins g1 (by rw [g2, j1]) (by rw [g3, j2]) (i1.trans r1)]
      refine Fitting.iff ?_ (runsRoom_old r3 r4 hfit).symm
      rcases joinNode_fits (cfg := cfg) hi h3 (f ns[i].tag) r with ⟨h, b', e1, e2⟩ | ⟨h, e1⟩
      · refine Or.inl ⟨by simpa using h, _, Outcome.bind_ok _ e1, nodesDone_snoc ?_ j1 j2⟩
        rw [r2, e2]
      · refine Or.inr ⟨by simpa using h, ?_⟩
        rw [e1]; rfl
    · refine hnew ?_ (by simpa using hk)
      simp only at j1 j2
      rw [j1, j2]
      by_contra hc
      push Not at hc
      exact hk (Prod.ext (sizeOfInt_inj hc.1).symm (sizeOfInt_inj hc.2).symm)

theorem lastEntity_dim {es : List MeshElem} (h : ∀ e ∈ es, 0 ≤ e.dim.toInt) (t : UInt64) : 0 ≤ (lastEntity es t).1.toInt := by
  unfold lastEntity
  split
  · rename_i e he
    exact h e (by simpa using List.mem_of_find?_eq_some he)
  · decide

/-- Regrouping the nodes, when there is a table and all tags are in it. -/
theorem regroupNodes_fits (cfg : Cfg) {n0 : Nodes} {e0 : Elements} (hn : n0.Raw) (hp : n0.Plain) (hl : n0.LoadedIn cfg) (he : e0.Raw) {sz : Nat}
    (hsz : (n0.maxNodeTag - n0.minNodeTag + 1).toNat = sz) (hmax : sz ≤ cfg.maxCount)
    (hin : ∀ b ∈ n0.entityBlocks, ∀ t ∈ b.tags, (t - n0.minNodeTag).toNat < sz) (hie : ∀ e ∈ e0.list, ∀ t ∈ e.nodes, (t - n0.minNodeTag).toNat < sz) :
    Fitting (regroupNodes cfg n0 e0)
      (· = { n0 with
        numEntityBlocks := UInt64.ofNat (runs (fun n => lastEntity e0.list n.tag) n0.list).length
        entityBlocks := runBlocks (fun n => lastEntity e0.list n.tag) nodeBlockOf n0.list })
      (RunsRoom (fun n : MeshNode => lastEntity e0.list n.tag) (3 * ·.length) cfg.maxCount n0.list) := by
  obtain ⟨heq, hel⟩ := he.eq
  have hres : vecResize cfg ([] : List UInt64) (n0.maxNodeTag - n0.minNodeTag + 1) 0 = .ok (List.replicate sz 0) := by
    unfold vecResize
    rw [hsz, if_pos hmax]
    simp
  unfold regroupNodes
  simp only
  rw [Outcome.bind_ok _ hres, Outcome.bind_ok _ hres, heq, foldO_map]
  obtain ⟨⟨dims, tags⟩, h1, h2⟩ := foldO_inv (f := fun e st => markBlock n0.minNodeTag e.block st) e0.list
    (fun pre st => Noted n0.minNodeTag sz (lastEntity pre) st)
    (by
      intro pre a post st e hst
      have ha : a ∈ e0.list := by rw [e]; simp
      obtain ⟨st', k1, k2⟩ := markBlock_noted hst a (hel a ha).1 (hie a ha)
      refine ⟨st', k1, ?_⟩
      have : lastEntity (pre ++ [a]) = fun t => if t ∈ a.nodes then (a.dim, a.entity) else lastEntity pre t := by
        funext t; exact lastEntity_snoc pre a t
      rw [this]
      exact k2)
    (st := (List.replicate sz 0, List.replicate sz 0))
    (by
      constructor
      · simp
      · simp
      · intro t ht
        rw [List.getElem?_replicate, if_pos ht]; rfl
      · intro t ht
        rw [List.getElem?_replicate, if_pos ht]; rfl)
  rw [Outcome.bind_ok _ h1]
  have hmono := runsRoom_mono (key := fun n : MeshNode => lastEntity e0.list n.tag) (c := (3 * ·.length)) (M := cfg.maxCount) (fun r a => by simp)
  have hstart : NodesDone (fun n => lastEntity e0.list n.tag) [] {} := ⟨rfl, rfl⟩
  have hroom : RunsRoom (fun n : MeshNode => lastEntity e0.list n.tag) (3 * ·.length) cfg.maxCount [] := ⟨Nat.zero_le _, fun r hr => by cases hr⟩
  have hfold := Fitting.foldO (f := fun b st => loopO (regroupNode cfg n0.minNodeTag dims tags b) b.numNodesInBlock.toNat 0 st) NodeBlock.list
    (Inv := NodesDone (fun n => lastEntity e0.list n.tag)) hmono n0.entityBlocks
    (by
      intro b hb pre st hst hf
      have hbr := hn.block b hb
      have e := hbr.eq (hp b hb)
      have h3 : 3 * b.list.length ≤ cfg.maxCount := by
        have := (hl.block b hb).data
        rw [hbr.data, ← hbr.tags] at this
        rw [NodeBlock.list_length]
        exact this
      have hnum : b.numNodesInBlock.toNat = b.list.length := by rw [NodeBlock.list_length, hbr.tags]
      have hib := hin b hb
      rw [hnum]
      generalize b.list = ns at e h3 hnum ⊢
      subst e
      refine Fitting.loopO hmono ns (fun i st hi hs hf => ?_) ns.length 0 st (by simp) (by simpa using hst) (by simpa using hf)
      refine regroupNode_fits h2 (lastEntity_dim fun e he => (hel e he).2) h3 hi (hib _ ?_) hs hf
      exact List.mem_map.mpr ⟨_, List.getElem_mem hi, rfl⟩)
    [] {} hstart hroom
  refine Fitting.bind hfold (fun st hst hf => Or.inl ⟨hf, _, rfl, ?_⟩) id
  have hb := hst.1
  rw [List.nil_append] at hb
  have hclose : (runBlocks (fun n => lastEntity e0.list n.tag) openBlockOf n0.list).map (fun c => { c with numNodesInBlock := sizeU c.tags }) =
      runBlocks (fun n => lastEntity e0.list n.tag) nodeBlockOf n0.list := by
    rw [runBlocks_map]
    congr 1
    funext k r
    simp [openBlockOf, nodeBlockOf, sizeU]
  have hb' : st.blocks = runBlocks (fun n => lastEntity e0.list n.tag) openBlockOf n0.list := hb
  rw [hb', hclose]
  simp only [sizeU, runBlocks_length]

/-! ## Elements -/

/-- The element loop after the elements `pre`. -/
def ElementsDone (pre : List MeshElem) (st : RegroupE) : Prop :=
  st.blocks = runBlocks MeshElem.key elementBlockOf pre ∧
    match pre.getLast? with
    | none => st.type = 0
    | some b => st.dim = sizeOfInt b.dim ∧ st.tag = sizeOfInt b.entity ∧ st.type = sizeOfInt b.type

theorem elementsDone_snoc {pre : List MeshElem} {e : MeshElem} {st : RegroupE} (h1 : st.blocks = runBlocks MeshElem.key elementBlockOf (pre ++ [e]))
    (h2 : st.dim = sizeOfInt e.dim) (h3 : st.tag = sizeOfInt e.entity) (h4 : st.type = sizeOfInt e.type) : ElementsDone (pre ++ [e]) st := by
  refine ⟨h1, ?_⟩
  simp only [List.getLast?_append, List.getLast?_singleton, Option.some_or]
  exact ⟨h2, h3, h4⟩

theorem regroupElement_opens {cfg : Cfg} {e : MeshElem} {st : RegroupE} (h : sizeOfInt e.dim ≠ st.dim ∨ sizeOfInt e.entity ≠ st.tag ∨ sizeOfInt e.type ≠ st.type) :
    regroupElement cfg e.block st = if st.blocks.length < cfg.maxCount then
      joinElement cfg e.block { entityDim := e.dim, entityTag := e.entity, elementType := e.type } >>= fun b' =>
        .ok { blocks := st.blocks ++ [b'], dim := sizeOfInt e.dim, tag := sizeOfInt e.entity, type := sizeOfInt e.type }
      else .throw .alloc := by
  unfold regroupElement
  simp only
  rw [if_pos (show sizeOfInt e.block.entityDim ≠ st.dim ∨ sizeOfInt e.block.entityTag ≠ st.tag ∨ sizeOfInt e.block.elementType ≠ st.type from h)]
  split
  · rename_i hc
    rw [Outcome.bind_ok _ (show vecPush cfg st.blocks _ = _ from if_pos hc), Outcome.bind_ok (x := pure _) _ rfl]
    simp only
    rw [vecModifyBack_eq]
    exact bind_ok_bind _ _ _
  · rename_i hc
    rw [show vecPush cfg st.blocks { entityDim := e.block.entityDim, entityTag := e.block.entityTag, elementType := e.block.elementType } = .throw .alloc from if_neg hc]
    rfl

theorem regroupElement_joins {cfg : Cfg} {e : MeshElem} {st : RegroupE} {bs : List ElementBlock} {b : ElementBlock}
    (h1 : sizeOfInt e.dim = st.dim) (h2 : sizeOfInt e.entity = st.tag) (h3 : sizeOfInt e.type = st.type) (hb : st.blocks = bs ++ [b]) :
    regroupElement cfg e.block st = (joinElement cfg e.block b >>= fun b' => .ok { st with blocks := bs ++ [b'] }) := by
  unfold regroupElement
  simp only
  rw [if_neg (show ¬ (sizeOfInt e.block.entityDim ≠ st.dim ∨ sizeOfInt e.block.entityTag ≠ st.tag ∨
      sizeOfInt e.block.elementType ≠ st.type) from by
    show ¬ (sizeOfInt e.dim ≠ st.dim ∨ sizeOfInt e.entity ≠ st.tag ∨ sizeOfInt e.type ≠ st.type)
    rw [h1, h2, h3]; simp)]
  rw [Outcome.bind_ok (x := pure _) _ rfl, hb, vecModifyBack_eq]
  exact bind_ok_bind _ _ _

theorem joinElement_fits (cfg : Cfg) (e : MeshElem) (r : List MeshElem) :
    Fitting (joinElement cfg e.block (elementBlockOf e.key r)) (· = elementBlockOf e.key (r ++ [e])) (elemEntries (r ++ [e]) ≤ cfg.maxCount) := by
  have hh : elemEntries (r ++ [e]) = elemEntries r + (e.tag :: e.nodes).length := by simp [elemEntries]
  by_cases h : elemEntries (r ++ [e]) ≤ cfg.maxCount
  · refine Or.inl ⟨h, _, if_pos (hh ▸ h), ?_⟩
    simp [elementBlockOf, MeshElem.block]
  · exact Or.inr ⟨h, if_neg (hh ▸ h)⟩

theorem regroupElement_fits {cfg : Cfg} {e : MeshElem} (hty : e.type ≠ 0) {pre : List MeshElem} {st : RegroupE} (hst : ElementsDone pre st)
    (hfit : RunsRoom MeshElem.key elemEntries cfg.maxCount pre) :
    Fitting (regroupElement cfg e.block st) (ElementsDone (pre ++ [e])) (RunsRoom MeshElem.key elemEntries cfg.maxCount (pre ++ [e])) := by
  obtain ⟨i1, i2⟩ := hst
  have hnew : (sizeOfInt e.dim ≠ st.dim ∨ sizeOfInt e.entity ≠ st.tag ∨ sizeOfInt e.type ≠ st.type) → (∀ b ∈ pre.getLast?, b.key ≠ e.key) →
      Fitting (regroupElement cfg e.block st) (ElementsDone (pre ++ [e])) (RunsRoom MeshElem.key elemEntries cfg.maxCount (pre ++ [e])) := by
    intro hc hl
    rw [regroupElement_opens hc]
    refine Fitting.iff ?_ (runsRoom_new hl).symm
    have hlen : st.blocks.length = (runs MeshElem.key pre).length := by rw [i1, runBlocks_length]
    by_cases hb : st.blocks.length < cfg.maxCount
    · rw [if_pos hb]
      rcases joinElement_fits cfg e [] with ⟨h, b', e1, e2⟩ | ⟨h, e1⟩
      · refine Or.inl ⟨⟨hfit, by omega, h⟩, _, Outcome.bind_ok _ e1, elementsDone_snoc ?_ rfl rfl rfl⟩
        rw [runBlocks_snoc_new hl, i1, e2]
        rfl
      · refine Or.inr ⟨fun hh => h hh.2.2, ?_⟩
        change joinElement cfg e.block { entityDim := e.dim, entityTag := e.entity, elementType := e.type } = _ at e1
        rw [e1]; rfl
    · rw [if_neg hb]
      exact Or.inr ⟨fun h => by omega, rfl⟩
  cases hlast : pre.getLast? with
  | none =>
    rw [hlast] at i2 hnew
    refine hnew (Or.inr (Or.inr ?_)) (by simp)
    rw [i2]; intro h
    exact hty (sizeOfInt_inj h)
  | some b =>
    rw [hlast] at i2 hnew
    obtain ⟨j1, j2, j3⟩ := i2
    by_cases hk : b.key = e.key
    · have hk' : b.dim = e.dim ∧ b.entity = e.entity ∧ b.type = e.type := by simpa [MeshElem.key] using hk
      rw [hk'.1] at j1; rw [hk'.2.1] at j2; rw [hk'.2.2] at j3
      obtain ⟨bs, rs, r, r1, r2, r3, r4⟩ := runBlocks_runs_old (mk := elementBlockOf) hlast hk
      rw [regroupElement_joins j1.symm j2.symm j3.symm (i1.trans r1)]
      refine Fitting.iff ?_ (runsRoom_old r3 r4 hfit).symm
      rcases joinElement_fits cfg e r with ⟨h, b', e1, e2⟩ | ⟨h, e1⟩
      · refine Or.inl ⟨h, _, Outcome.bind_ok _ e1, elementsDone_snoc ?_ j1 j2 j3⟩
        rw [r2, e2]
      · refine Or.inr ⟨h, ?_⟩
        rw [e1]; rfl
    · refine hnew ?_ (by simpa using hk)
      rw [j1, j2, j3]
      by_contra hc
      push Not at hc
      apply hk
      unfold MeshElem.key
      rw [sizeOfInt_inj hc.1, sizeOfInt_inj hc.2.1, sizeOfInt_inj hc.2.2]

theorem regroupElements_fits (cfg : Cfg) {e0 : Elements} (he : e0.Raw) (hl : e0.LoadedIn cfg) :
    Fitting (regroupElements cfg e0)
      (· = { e0 with
        numEntityBlocks := UInt64.ofNat (runs MeshElem.key e0.list).length
        entityBlocks := runBlocks MeshElem.key elementBlockOf e0.list })
      (∀ r ∈ runs MeshElem.key e0.list, elemEntries r ≤ cfg.maxCount) := by
  obtain ⟨heq, hel⟩ := he.eq
  have hcount : (runs MeshElem.key e0.list).length ≤ cfg.maxCount := by
    have h1 := runs_length_le MeshElem.key e0.list
    have h2 := hl.small
    rw [heq, List.length_map] at h2
    omega
  have hr : vecReserve cfg e0.numEntityBlocks = .ok () := by
    unfold vecReserve
    rw [← hl.blocks, if_pos hl.small]
  unfold regroupElements
  rw [Outcome.bind_ok _ hr, heq, foldO_map]
  have hmono := runsRoom_mono (key := MeshElem.key) (c := elemEntries) (M := cfg.maxCount) (fun r a => by simp [elemEntries])
  have hfold := Fitting.foldO (f := fun e st => regroupElement cfg e.block st) (fun e => [e]) (Inv := ElementsDone) hmono e0.list
    (by
      intro e he pre st hst hf
      refine regroupElement_fits ?_ hst hf
      intro h0
      have := (hel e he).1
      rw [h0] at this
      cases this)
    [] {} ⟨rfl, rfl⟩ ⟨Nat.zero_le _, fun r hr => by cases hr⟩
  rw [List.nil_append, List.flatMap_singleton'] at hfold
  refine Fitting.iff (Fitting.bind hfold (fun st hst hf => Or.inl ⟨hf, _, rfl, ?_⟩) id) ⟨fun h => h.size, fun h => ⟨hcount, h⟩⟩
  have hb := hst.1
  rw [hb]
  simp only [sizeU, runBlocks_length]

end MshIO
