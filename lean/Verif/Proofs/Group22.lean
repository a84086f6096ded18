import Verif.Proofs.Runs
import Verif.Proofs.Loops
import Verif.Model.PostProcess

/-!
# The regrouping of version 2.2 meshes
-/

namespace MshIO

theorem Outcome.bind_ok {α β : Type} {x : Outcome α} {a : α} (f : α → Outcome β) (h : x = .ok a) :
    (x >>= f) = f a := by subst h; rfl

theorem foldO_append {α σ : Type} (f : α → σ → Outcome σ) (l m : List α) (st : σ) :
    foldO f (l ++ m) st = (foldO f l st >>= fun st => foldO f m st) := by
  induction l generalizing st with
  | nil => rfl
  | cons a l ih =>
    rw [List.cons_append]
    show (f a st >>= fun st => foldO f (l ++ m) st) = ((f a st >>= fun st => foldO f l st) >>= _)
    cases f a st with
    | ok st' => exact ih st'
    | throw e => rfl
    | abort => rfl
    | ub => rfl
    | hang => rfl

theorem foldO_map {α β σ : Type} (f : β → σ → Outcome σ) (g : α → β) (l : List α) (st : σ) :
    foldO f (l.map g) st = foldO (fun a st => f (g a) st) l st := by
  induction l generalizing st with
  | nil => rfl
  | cons a l ih =>
    show (f (g a) st >>= fun st => foldO f (l.map g) st) = (f (g a) st >>= _)
    congr 1
    funext st
    exact ih st

/-- Induction over the elements processed so far. -/
theorem foldO_inv {α σ : Type} {f : α → σ → Outcome σ} (l : List α) (Inv : List α → σ → Prop)
    (step : ∀ pre a post st, l = pre ++ a :: post → Inv pre st → ∃ st', f a st = .ok st' ∧ Inv (pre ++ [a]) st')
    {st : σ} (h0 : Inv [] st) : ∃ st', foldO f l st = .ok st' ∧ Inv l st' := by
  have key : ∀ (post pre : List α) (st : σ), l = pre ++ post → Inv pre st →
      ∃ st', foldO f post st = .ok st' ∧ Inv l st' := by
    intro post
    induction post with
    | nil => intro pre st e h; exact ⟨st, rfl, by rw [e, List.append_nil]; exact h⟩
    | cons a post ih =>
      intro pre st e h
      obtain ⟨st', h1, h2⟩ := step pre a post st e h
      obtain ⟨st'', h3, h4⟩ := ih (pre ++ [a]) st' (by simp [e]) h2
      refine ⟨st'', ?_, h4⟩
      show (f a st >>= fun st => foldO f post st) = _
      rw [Outcome.bind_ok _ h1, h3]
  exact key l [] st (by simp) h0

/-- Induction over the indices processed so far. -/
theorem loopO_inv {σ : Type} {f : Nat → σ → Outcome σ} (n : Nat) (Inv : Nat → σ → Prop)
    (step : ∀ i st, i < n → Inv i st → ∃ st', f i st = .ok st' ∧ Inv (i + 1) st')
    {st : σ} (h0 : Inv 0 st) : ∃ st', loopO f n 0 st = .ok st' ∧ Inv n st' := by
  have key : ∀ (k i : Nat) (st : σ), i + k = n → Inv i st → ∃ st', loopO f k i st = .ok st' ∧ Inv n st' := by
    intro k
    induction k with
    | zero => intro i st e h; exact ⟨st, rfl, by rw [← e]; exact h⟩
    | succ k ih =>
      intro i st e h
      obtain ⟨st', h1, h2⟩ := step i st (by omega) h
      obtain ⟨st'', h3, h4⟩ := ih (i + 1) st' (by omega) h2
      refine ⟨st'', ?_, h4⟩
      show (f i st >>= fun st => loopO f k (i + 1) st) = _
      rw [Outcome.bind_ok _ h1, h3]
  exact key n 0 st (by omega) h0

theorem vecModifyBack_snoc {α : Type} (v : List α) (a : α) (f : α → Outcome α) {b : α} (h : f a = .ok b) :
    vecModifyBack (v ++ [a]) f = .ok (v ++ [b]) := by
  unfold vecModifyBack
  simp only [List.getLast?_append, List.getLast?_singleton, Option.some_or, List.dropLast_concat]
  rw [Outcome.bind_ok _ h]
  rfl

/-! ## Elements -/

/-- The one-element block the loader makes of an element. -/
def MeshElem.block (e : MeshElem) : ElementBlock where
  entityDim := e.dim
  entityTag := e.entity
  elementType := e.type
  numElementsInBlock := 1
  data := e.tag :: e.nodes

/-- Total number of entries of the element data. -/
def elemEntries (es : List MeshElem) : Nat := (es.flatMap fun e => e.tag :: e.nodes).length

/-- Joining a one-element block to the last block. -/
def joinElement (cfg : Cfg) (b c : ElementBlock) : Outcome ElementBlock :=
  if c.data.length + b.data.length ≤ cfg.maxCount then
    .ok { c with numElementsInBlock := c.numElementsInBlock + b.numElementsInBlock, data := c.data ++ b.data }
  else .throw .alloc

theorem regroupElement_new {cfg : Cfg} {e : MeshElem} {st : RegroupE} (h : sizeOfInt e.dim ≠ st.dim ∨
      sizeOfInt e.entity ≠ st.tag ∨ sizeOfInt e.type ≠ st.type) (hc : st.blocks.length < cfg.maxCount) {b' : ElementBlock}
    (hj : joinElement cfg e.block { entityDim := e.dim, entityTag := e.entity, elementType := e.type } = .ok b') :
    regroupElement cfg e.block st = .ok { blocks := st.blocks ++ [b'], dim := sizeOfInt e.dim, tag := sizeOfInt e.entity, type := sizeOfInt e.type } := by
  unfold regroupElement
  simp only
  rw [if_pos (show sizeOfInt e.block.entityDim ≠ st.dim ∨ sizeOfInt e.block.entityTag ≠ st.tag ∨
      sizeOfInt e.block.elementType ≠ st.type from h)]
  rw [Outcome.bind_ok _ (show vecPush cfg st.blocks _ = _ from if_pos hc), Outcome.bind_ok (x := pure _) _ rfl]
  simp only
  exact Outcome.bind_ok _ (vecModifyBack_snoc st.blocks _ _ hj)

theorem regroupElement_old {cfg : Cfg} {e : MeshElem} {st : RegroupE} {bs : List ElementBlock} {b b' : ElementBlock}
    (h1 : sizeOfInt e.dim = st.dim) (h2 : sizeOfInt e.entity = st.tag) (h3 : sizeOfInt e.type = st.type)
    (hb : st.blocks = bs ++ [b]) (hj : joinElement cfg e.block b = .ok b') :
    regroupElement cfg e.block st = .ok { st with blocks := bs ++ [b'] } := by
  unfold regroupElement
  simp only
  rw [if_neg (show ¬ (sizeOfInt e.block.entityDim ≠ st.dim ∨ sizeOfInt e.block.entityTag ≠ st.tag ∨
      sizeOfInt e.block.elementType ≠ st.type) from by
    show ¬ (sizeOfInt e.dim ≠ st.dim ∨ sizeOfInt e.entity ≠ st.tag ∨ sizeOfInt e.type ≠ st.type)
    rw [h1, h2, h3]; simp)]
  rw [Outcome.bind_ok (x := pure _) _ rfl, hb]
  exact Outcome.bind_ok _ (vecModifyBack_snoc bs _ _ hj)

theorem regroupElements_spec (cfg : Cfg) (es : List MeshElem) (e0 : Elements)
    (hb : e0.entityBlocks = es.map MeshElem.block) (hn : e0.numEntityBlocks = UInt64.ofNat es.length)
    (hty : ∀ e ∈ es, e.type ≠ 0) (hfit : elemEntries es ≤ cfg.maxCount) :
    regroupElements cfg e0 = .ok { e0 with
      numEntityBlocks := UInt64.ofNat (runBlocks MeshElem.key elementBlockOf es).length
      entityBlocks := runBlocks MeshElem.key elementBlockOf es } := by
  have hlt := cfg.maxCount_lt
  have hlen : ∀ l : List MeshElem, l.length ≤ elemEntries l := by
    intro l
    unfold elemEntries
    induction l with
    | nil => simp
    | cons a l ih => simp only [List.flatMap_cons, List.length_append, List.length_cons]; omega
  have hes := hlen es
  unfold regroupElements
  have hr : vecReserve cfg e0.numEntityBlocks = .ok () := by
    unfold vecReserve
    rw [hn, ofNat_toNat_lt (by omega), if_pos (by omega)]
  rw [Outcome.bind_ok _ hr, hb]
  rw [foldO_map]
  refine Exists.elim (foldO_inv (f := fun e st => regroupElement cfg e.block st) es
    (fun pre st => st.blocks = runBlocks MeshElem.key elementBlockOf pre ∧
      match pre.getLast? with
      | none => st.type = 0
      | some b => st.dim = sizeOfInt b.dim ∧ st.tag = sizeOfInt b.entity ∧ st.type = sizeOfInt b.type)
    ?_ (st := {}) ⟨rfl, rfl⟩) ?_
  rotate_left
  · rintro st ⟨h1, h2⟩
    rw [Outcome.bind_ok _ h1]
    show Outcome.ok _ = _
    rw [h2.1]; rfl
  · rintro pre a post st e ⟨i1, i2⟩
    have hpre : elemEntries pre + (a.tag :: a.nodes).length + elemEntries post = elemEntries es := by
      rw [e]; simp [elemEntries]; omega
    have hpl := hlen pre
    have hbl : st.blocks.length < cfg.maxCount := by
      rw [i1]
      have := runBlocks_length_le (key := MeshElem.key) (mk := elementBlockOf) (l := pre)
      simp only [List.length_cons] at hpre
      omega
    have hnew : (sizeOfInt a.dim ≠ st.dim ∨ sizeOfInt a.entity ≠ st.tag ∨ sizeOfInt a.type ≠ st.type) →
        (∀ b ∈ pre.getLast?, b.key ≠ a.key) →
        ∃ st', regroupElement cfg a.block st = .ok st' ∧ st'.blocks = runBlocks MeshElem.key elementBlockOf (pre ++ [a]) ∧
          st'.dim = sizeOfInt a.dim ∧ st'.tag = sizeOfInt a.entity ∧ st'.type = sizeOfInt a.type := by
      intro hc hl
      have hj : joinElement cfg a.block { entityDim := a.dim, entityTag := a.entity, elementType := a.type } =
          .ok (elementBlockOf a.key [a]) := by
        have hh : 0 + (a.tag :: a.nodes).length ≤ cfg.maxCount := by omega
        refine (if_pos hh).trans ?_
        simp [elementBlockOf, MeshElem.block, MeshElem.key]
      exact ⟨_, regroupElement_new hc hbl hj, by rw [runBlocks_snoc_new hl, i1], rfl, rfl, rfl⟩
    simp only [List.getLast?_append, List.getLast?_singleton, Option.some_or]
    cases hlast : pre.getLast? with
    | none =>
      rw [hlast] at i2 hnew
      have hne : sizeOfInt a.type ≠ st.type := by
        rw [i2]; intro h
        exact hty a (by rw [e]; simp) (sizeOfInt_inj h)
      exact hnew (Or.inr (Or.inr hne)) (by simp)
    | some b =>
      rw [hlast] at i2 hnew
      obtain ⟨j1, j2, j3⟩ := i2
      by_cases hk : b.key = a.key
      · have hk' : b.dim = a.dim ∧ b.entity = a.entity ∧ b.type = a.type := by
          simpa [MeshElem.key] using hk
        rw [hk'.1] at j1; rw [hk'.2.1] at j2; rw [hk'.2.2] at j3
        obtain ⟨bs, r, r1, r2, r3, p, r4⟩ := runBlocks_snoc_old (mk := elementBlockOf) hlast hk
        have hrl : elemEntries r ≤ elemEntries pre := by rw [r4]; simp [elemEntries]
        have hj : joinElement cfg a.block (elementBlockOf a.key r) = .ok (elementBlockOf a.key (r ++ [a])) := by
          have hh : elemEntries r + (a.tag :: a.nodes).length ≤ cfg.maxCount := by omega
          refine (if_pos hh).trans ?_
          simp [elementBlockOf, MeshElem.block]
        exact ⟨_, regroupElement_old j1.symm j2.symm j3.symm (i1.trans r1) hj, r2.symm, j1, j2, j3⟩
      · refine hnew ?_ (by simpa using hk)
        rw [j1, j2, j3]
        by_contra hc
        push Not at hc
        apply hk
        unfold MeshElem.key
        rw [sizeOfInt_inj hc.1, sizeOfInt_inj hc.2.1, sizeOfInt_inj hc.2.2]

/-! ## Nodes -/

/-- The two tables hold, for every tag of the range, what `f` says. -/
structure Marked (m M : UInt64) (sz : Nat) (f : UInt64 → Int32 × Int32) (st : List UInt64 × List UInt64) : Prop where
  len1 : st.1.length = sz
  len2 : st.2.length = sz
  get1 : ∀ t, m ≤ t → t ≤ M → st.1[(t - m).toNat]? = some (sizeOfInt (f t).1)
  get2 : ∀ t, m ≤ t → t ≤ M → st.2[(t - m).toNat]? = some (sizeOfInt (f t).2)

theorem tag_sub {m t : UInt64} (h : m ≤ t) : (t - m).toNat = t.toNat - m.toNat := by
  rw [UInt64.le_iff_toNat_le] at h
  exact UInt64.toNat_sub_of_le _ _ (UInt64.le_iff_toNat_le.mpr h)

theorem tag_sub_inj {m t u : UInt64} (h : m ≤ t) (hu : m ≤ u) (e : (t - m).toNat = (u - m).toNat) : t = u := by
  rw [tag_sub h, tag_sub hu] at e
  rw [UInt64.le_iff_toNat_le] at h hu
  apply UInt64.toNat_inj.mp
  omega

theorem marked_set {m M : UInt64} {sz : Nat} {f : UInt64 → Int32 × Int32} {st : List UInt64 × List UInt64}
    (hst : Marked m M sz f st) (hM : ∀ t, m ≤ t → t ≤ M → (t - m).toNat < sz) {u : UInt64} (h1 : m ≤ u) (h2 : u ≤ M)
    (d g : Int32) :
    ∃ st', (do
      let dims ← vecSet st.1 (u - m) (sizeOfInt d)
      let tags ← vecSet st.2 (u - m) (sizeOfInt g)
      return (dims, tags) : Outcome (List UInt64 × List UInt64)) = .ok st' ∧
      Marked m M sz (fun t => if t = u then (d, g) else f t) st' := by
  have hlt := hM u h1 h2
  refine ⟨(st.1.set (u - m).toNat (sizeOfInt d), st.2.set (u - m).toNat (sizeOfInt g)), ?_, ?_⟩
  · unfold vecSet
    rw [if_pos (by rw [hst.len1]; exact hlt), if_pos (by rw [hst.len2]; exact hlt)]
    rfl
  · constructor
    · simp [hst.len1]
    · simp [hst.len2]
    · intro t ht1 ht2
      by_cases e : t = u
      · subst e; simp [hst.len1, hlt]
      · have : (u - m).toNat ≠ (t - m).toNat := fun h => e (tag_sub_inj ht1 h1 h.symm)
        rw [List.getElem?_set_ne this, hst.get1 t ht1 ht2, if_neg e]
    · intro t ht1 ht2
      by_cases e : t = u
      · subst e; simp [hst.len2, hlt]
      · have : (u - m).toNat ≠ (t - m).toNat := fun h => e (tag_sub_inj ht1 h1 h.symm)
        rw [List.getElem?_set_ne this, hst.get2 t ht1 ht2, if_neg e]

theorem lastEntity_snoc (es : List MeshElem) (e : MeshElem) (t : UInt64) :
    lastEntity (es ++ [e]) t = if t ∈ e.nodes then (e.dim, e.entity) else lastEntity es t := by
  unfold lastEntity
  rw [List.reverse_append, List.reverse_singleton, List.singleton_append, List.find?_cons]
  by_cases h : t ∈ e.nodes
  · simp [h]
  · simp [h]

theorem markBlock_spec {m M : UInt64} {sz : Nat} {f : UInt64 → Int32 × Int32} {st : List UInt64 × List UInt64}
    (hst : Marked m M sz f st) (hM : ∀ t, m ≤ t → t ≤ M → (t - m).toNat < sz) (e : MeshElem)
    (ho : mshNodes e.type = some e.nodes.length) (hr : ∀ t ∈ e.nodes, m ≤ t ∧ t ≤ M) :
    ∃ st', markBlock m e.block st = .ok st' ∧
      Marked m M sz (fun t => if t ∈ e.nodes then (e.dim, e.entity) else f t) st' := by
  obtain ⟨hn, hle, -⟩ := nodesPerElement_of_mshNodes ho
  have hnn : (UInt64.ofNat e.nodes.length).toNat = e.nodes.length := ofNat_toNat_lt (by omega)
  unfold markBlock
  rw [Outcome.bind_ok _ (show nodesPerElement e.block.elementType = _ from hn)]
  rw [hnn]
  refine Exists.elim (loopO_inv (f := fun j st => do
      let t ← vecGet e.block.data (UInt64.ofNat 0 * (UInt64.ofNat e.nodes.length + 1) + UInt64.ofNat j + 1)
      let idx := t - m
      let dims ← vecSet st.1 idx (sizeOfInt e.block.entityDim)
      let tags ← vecSet st.2 idx (sizeOfInt e.block.entityTag)
      return (dims, tags)) e.nodes.length
    (fun j st => Marked m M sz (fun t => if t ∈ e.nodes.take j then (e.dim, e.entity) else f t) st) ?_ (st := st)
    (by simpa using hst)) ?_
  rotate_left
  · rintro st' ⟨h1, h2⟩
    refine ⟨st', ?_, by simpa using h2⟩
    show (_ >>= fun st => Outcome.ok st) = _
    rw [Outcome.bind_ok _ h1]
  · intro j st hj hs
    have hmem : e.nodes[j] ∈ e.nodes := List.getElem_mem hj
    obtain ⟨st', k1, k2⟩ := marked_set hs hM (hr _ hmem).1 (hr _ hmem).2 e.dim e.entity
    refine ⟨st', ?_, ?_⟩
    · have hv : vecGet e.block.data (UInt64.ofNat 0 * (UInt64.ofNat e.nodes.length + 1) + UInt64.ofNat j + 1) =
          .ok (e.nodes[j]) := by
        have : UInt64.ofNat 0 * (UInt64.ofNat e.nodes.length + 1) + UInt64.ofNat j + 1 = UInt64.ofNat (j + 1) := by
          simp
        rw [this, vecGet_ok (k := j + 1) (ofNat_toNat_lt (by omega)) (by simp [MeshElem.block]; omega)]
        simp [MeshElem.block]
      rw [Outcome.bind_ok _ hv]
      exact k1
    · have he : (fun t => if t = e.nodes[j] then (e.dim, e.entity) else
          if t ∈ e.nodes.take j then (e.dim, e.entity) else f t) =
          fun t => if t ∈ e.nodes.take (j + 1) then (e.dim, e.entity) else f t := by
        funext t
        have hin : t ∈ e.nodes.take (j + 1) ↔ t ∈ e.nodes.take j ∨ t = e.nodes[j] := by
          rw [List.take_add_one, List.getElem?_eq_getElem hj, Option.toList_some, List.mem_append, List.mem_singleton]
        by_cases q : t = e.nodes[j]
        · rw [if_pos q, if_pos (hin.mpr (Or.inr q))]
        · rw [if_neg q]
          by_cases w : t ∈ e.nodes.take j
          · rw [if_pos w, if_pos (hin.mpr (Or.inl w))]
          · rw [if_neg w, if_neg (fun h => (hin.mp h).elim w q)]
      rw [he] at k2
      exact k2

theorem runBlocks_map {α κ β γ : Type} [DecidableEq κ] (key : α → κ) (mk : κ → List α → β) (g : β → γ) (l : List α) :
    (runBlocks key mk l).map g = runBlocks key (fun k r => g (mk k r)) l := by
  unfold runBlocks
  rw [List.map_flatMap]
  congr 1
  funext r
  cases r <;> rfl

/-- The block the loader makes of the whole `$Nodes` section. -/
def rawNodeBlock (ns : List MeshNode) : NodeBlock where
  numNodesInBlock := UInt64.ofNat ns.length
  tags := ns.map (·.tag)
  data := ns.flatMap fun n => [n.x, n.y, n.z]

theorem coords_get (ns : List MeshNode) {i : Nat} (h : i < ns.length) :
    (ns.flatMap fun n => [n.x, n.y, n.z])[3 * i]? = some ns[i].x ∧
    (ns.flatMap fun n => [n.x, n.y, n.z])[3 * i + 1]? = some ns[i].y ∧
    (ns.flatMap fun n => [n.x, n.y, n.z])[3 * i + 2]? = some ns[i].z := by
  induction ns generalizing i with
  | nil => simp at h
  | cons n ns ih =>
    cases i with
    | zero => simp
    | succ i =>
      have := @ih i (by simpa using h)
      rw [List.flatMap_cons]
      have e : 3 * (i + 1) = 3 * i + 3 := by omega
      rw [e]
      simpa using this

/-- Node block with the count not yet set. -/
def openBlockOf (k : Int32 × Int32) (ns : List MeshNode) : NodeBlock :=
  { nodeBlockOf k ns with numNodesInBlock := 0 }

/-- Adding node `i` of block `b` to the last block. -/
def joinNode (cfg : Cfg) (b : NodeBlock) (t i : UInt64) (c : NodeBlock) : Outcome NodeBlock := do
  let ts ← vecPush cfg c.tags t
  let d ← vecPush cfg c.data (← vecGet b.data (i * 3))
  let d ← vecPush cfg d (← vecGet b.data (i * 3 + 1))
  let d ← vecPush cfg d (← vecGet b.data (i * 3 + 2))
  return { c with tags := ts, data := d }

theorem joinNode_spec {cfg : Cfg} {ns : List MeshNode} {i : Nat} (hi : i < ns.length) (h3 : 3 * ns.length ≤ cfg.maxCount)
    (k : Int32 × Int32) (r : List MeshNode) (hr : r.length ≤ i) :
    joinNode cfg (rawNodeBlock ns) ns[i].tag (UInt64.ofNat i) (openBlockOf k r) = .ok (openBlockOf k (r ++ [ns[i]])) := by
  have hlt := cfg.maxCount_lt
  have hin : (UInt64.ofNat i).toNat = i := ofNat_toNat_lt (by omega)
  have m3 : (UInt64.ofNat i * 3).toNat = 3 * i := by
    rw [mul_toNat] <;> rw [hin] <;> simp <;> omega
  obtain ⟨c0, c1, c2⟩ := coords_get ns hi
  have d0 : vecGet (rawNodeBlock ns).data (UInt64.ofNat i * 3) = .ok ns[i].x := by
    unfold vecGet rawNodeBlock; simp only [m3, c0]
  have d1 : vecGet (rawNodeBlock ns).data (UInt64.ofNat i * 3 + 1) = .ok ns[i].y := by
    have : (UInt64.ofNat i * 3 + 1).toNat = 3 * i + 1 := by rw [add_toNat (by rw [m3]; simp; omega), m3]; rfl
    unfold vecGet rawNodeBlock; simp only [this, c1]
  have d2 : vecGet (rawNodeBlock ns).data (UInt64.ofNat i * 3 + 2) = .ok ns[i].z := by
    have : (UInt64.ofNat i * 3 + 2).toNat = 3 * i + 2 := by rw [add_toNat (by rw [m3]; simp; omega), m3]; rfl
    unfold vecGet rawNodeBlock; simp only [this, c2]
  have hdl : (openBlockOf k r).data.length = 3 * r.length := by
    simp [openBlockOf, nodeBlockOf, List.length_flatMap]; omega
  have htl : (openBlockOf k r).tags.length = r.length := by simp [openBlockOf, nodeBlockOf]
  have p : ∀ {α : Type} (v : List α) (x : α), v.length < cfg.maxCount → vecPush cfg v x = .ok (v ++ [x]) :=
    fun v x h => if_pos h
  unfold joinNode
  rw [Outcome.bind_ok _ (p _ _ (by omega)), Outcome.bind_ok _ d0, Outcome.bind_ok _ (p _ _ (by omega)), Outcome.bind_ok _ d1,
    Outcome.bind_ok _ (p _ _ (by simp; omega)), Outcome.bind_ok _ d2, Outcome.bind_ok _ (p _ _ (by simp; omega))]
  show Outcome.ok _ = _
  simp [openBlockOf, nodeBlockOf]

theorem regroupNode_new {cfg : Cfg} {m : UInt64} {dims tags : List UInt64} {b : NodeBlock} {i : Nat} {st : Regroup}
    {t : UInt64} {d g : Int32} {b' : NodeBlock}
    (g1 : vecGet b.tags (UInt64.ofNat i) = .ok t) (g2 : vecGet dims (t - m) = .ok (sizeOfInt d))
    (g3 : vecGet tags (t - m) = .ok (sizeOfInt g)) (h : sizeOfInt d ≠ st.dim ∨ sizeOfInt g ≠ st.tag)
    (q1 : vecReserve cfg b.numNodesInBlock = .ok ()) (q2 : vecReserve cfg (b.numNodesInBlock * 3) = .ok ())
    (q3 : st.blocks.length < cfg.maxCount) (hj : joinNode cfg b t (UInt64.ofNat i) (openBlockOf (d, g) []) = .ok b') :
    regroupNode cfg m dims tags b i st = .ok { blocks := st.blocks ++ [b'], dim := sizeOfInt d, tag := sizeOfInt g } := by
  unfold regroupNode
  simp only
  rw [Outcome.bind_ok _ g1, Outcome.bind_ok _ g2, Outcome.bind_ok _ g3, if_pos h, Outcome.bind_ok _ q1, Outcome.bind_ok _ q2,
    Outcome.bind_ok _ (show vecPush cfg st.blocks _ = _ from if_pos q3), Outcome.bind_ok (x := pure _) _ rfl]
  simp only
  rw [if_neg (by simp), intOfSize_sizeOfInt, intOfSize_sizeOfInt]
  exact Outcome.bind_ok _ (vecModifyBack_snoc st.blocks _ _ hj)

theorem regroupNode_old {cfg : Cfg} {m : UInt64} {dims tags : List UInt64} {b : NodeBlock} {i : Nat} {st : Regroup}
    {t : UInt64} {bs : List NodeBlock} {c b' : NodeBlock}
    (g1 : vecGet b.tags (UInt64.ofNat i) = .ok t) (g2 : vecGet dims (t - m) = .ok st.dim)
    (g3 : vecGet tags (t - m) = .ok st.tag) (hb : st.blocks = bs ++ [c])
    (hj : joinNode cfg b t (UInt64.ofNat i) c = .ok b') :
    regroupNode cfg m dims tags b i st = .ok { st with blocks := bs ++ [b'] } := by
  unfold regroupNode
  simp only
  rw [Outcome.bind_ok _ g1, Outcome.bind_ok _ g2, Outcome.bind_ok _ g3, if_neg (by simp), Outcome.bind_ok (x := pure _) _ rfl,
    hb, if_neg (by simp)]
  exact Outcome.bind_ok _ (vecModifyBack_snoc bs _ _ hj)

theorem regroupNodes_spec (cfg : Cfg) (ns : List MeshNode) (es : List MeshElem) (n0 : Nodes) (e0 : Elements)
    (hb : n0.entityBlocks = [rawNodeBlock ns] ∨ ns = [] ∧ n0.entityBlocks = [])
    (he : e0.entityBlocks = es.map MeshElem.block)
    (hok : ∀ e ∈ es, mshNodes e.type = some e.nodes.length) (hdim : ∀ e ∈ es, 0 ≤ e.dim.toInt)
    (hsz : (n0.maxNodeTag - n0.minNodeTag).toNat + 1 ≤ cfg.maxCount)
    (hr : ∀ e ∈ es, ∀ t ∈ e.nodes, n0.minNodeTag ≤ t ∧ t ≤ n0.maxNodeTag)
    (hrn : ∀ n ∈ ns, n0.minNodeTag ≤ n.tag ∧ n.tag ≤ n0.maxNodeTag)
    (h3 : 3 * ns.length ≤ cfg.maxCount) :
    regroupNodes cfg n0 e0 = .ok { n0 with
      numEntityBlocks := UInt64.ofNat (runBlocks (fun n => lastEntity es n.tag) nodeBlockOf ns).length
      entityBlocks := runBlocks (fun n => lastEntity es n.tag) nodeBlockOf ns } := by
  have hlt := cfg.maxCount_lt
  have hszn : (n0.maxNodeTag - n0.minNodeTag + 1).toNat = (n0.maxNodeTag - n0.minNodeTag).toNat + 1 := by
    rw [add_toNat]; (all_goals simp); omega
  have hM : ∀ t, n0.minNodeTag ≤ t → t ≤ n0.maxNodeTag → (t - n0.minNodeTag).toNat < (n0.maxNodeTag - n0.minNodeTag).toNat + 1 := by
    intro t h1 h2
    have h12 : n0.minNodeTag ≤ n0.maxNodeTag := UInt64.le_trans h1 h2
    rw [tag_sub h1, tag_sub h12]
    rw [UInt64.le_iff_toNat_le] at h1 h2
    omega
  unfold regroupNodes
  have hres : vecResize cfg ([] : List UInt64) (n0.maxNodeTag - n0.minNodeTag + 1) 0 =
      .ok (List.replicate ((n0.maxNodeTag - n0.minNodeTag).toNat + 1) 0) := by
    unfold vecResize
    rw [hszn, if_pos hsz]
    simp
  simp only
  rw [Outcome.bind_ok _ hres, Outcome.bind_ok _ hres, he, foldO_map]
  obtain ⟨⟨dims, tags⟩, h1, h2⟩ := foldO_inv (f := fun e st => markBlock n0.minNodeTag e.block st) es
    (fun pre st => Marked n0.minNodeTag n0.maxNodeTag ((n0.maxNodeTag - n0.minNodeTag).toNat + 1) (lastEntity pre) st)
    (by
      intro pre a post st e hst
      have ha : a ∈ es := by rw [e]; simp
      obtain ⟨st', k1, k2⟩ := markBlock_spec hst hM a (hok a ha) (hr a ha)
      refine ⟨st', k1, ?_⟩
      have : lastEntity (pre ++ [a]) = fun t => if t ∈ a.nodes then (a.dim, a.entity) else lastEntity pre t := by
        funext t; exact lastEntity_snoc pre a t
      rw [this]
      exact k2)
    (st := (List.replicate ((n0.maxNodeTag - n0.minNodeTag).toNat + 1) 0, List.replicate ((n0.maxNodeTag - n0.minNodeTag).toNat + 1) 0))
    (by
      constructor
      · simp
      · simp
      · intro t t1 t2
        rw [List.getElem?_replicate, if_pos (hM t t1 t2)]; rfl
      · intro t t1 t2
        rw [List.getElem?_replicate, if_pos (hM t t1 t2)]; rfl)
  rw [Outcome.bind_ok _ h1]
  have hdimL : ∀ t, 0 ≤ (lastEntity es t).1.toInt := by
    intro t
    unfold lastEntity
    split
    · rename_i e he
      exact hdim e (by simpa using List.mem_of_find?_eq_some he)
    · decide
  have hfinal : ∃ st : Regroup, foldO (fun b st =>
      loopO (regroupNode cfg n0.minNodeTag dims tags b) b.numNodesInBlock.toNat 0 st) n0.entityBlocks {} = .ok st ∧
      st.blocks = runBlocks (fun n => lastEntity es n.tag) openBlockOf ns := by
    rcases hb with hb | ⟨hns, hb⟩
    · rw [hb]
      have hnum : (rawNodeBlock ns).numNodesInBlock.toNat = ns.length := ofNat_toNat_lt (by omega)
      obtain ⟨st, k1, k2⟩ := loopO_inv (f := regroupNode cfg n0.minNodeTag dims tags (rawNodeBlock ns)) ns.length
        (fun i st => st.blocks = runBlocks (fun n => lastEntity es n.tag) openBlockOf (ns.take i) ∧
          match (ns.take i).getLast? with
          | none => st.dim = sizeMax
          | some b => st.dim = sizeOfInt (lastEntity es b.tag).1 ∧ st.tag = sizeOfInt (lastEntity es b.tag).2)
        (by
          rintro i st hi ⟨i1, i2⟩
          have hmem : ns[i] ∈ ns := List.getElem_mem hi
          obtain ⟨r1, r2⟩ := hrn _ hmem
          have hin : (UInt64.ofNat i).toNat = i := ofNat_toNat_lt (by omega)
          have htk : ns.take (i + 1) = ns.take i ++ [ns[i]] := by
            rw [List.take_add_one, List.getElem?_eq_getElem hi]; rfl
          have g1 : vecGet (rawNodeBlock ns).tags (UInt64.ofNat i) = .ok ns[i].tag := by
            unfold vecGet; rw [hin]; simp [rawNodeBlock, hi]
          have g2 : vecGet dims (ns[i].tag - n0.minNodeTag) = .ok (sizeOfInt (lastEntity es ns[i].tag).1) := by
            unfold vecGet; rw [h2.get1 _ r1 r2]
          have g3 : vecGet tags (ns[i].tag - n0.minNodeTag) = .ok (sizeOfInt (lastEntity es ns[i].tag).2) := by
            unfold vecGet; rw [h2.get2 _ r1 r2]
          have hnewcase : (sizeOfInt (lastEntity es ns[i].tag).1 ≠ st.dim ∨ sizeOfInt (lastEntity es ns[i].tag).2 ≠ st.tag) →
              (∀ b ∈ (ns.take i).getLast?, lastEntity es b.tag ≠ lastEntity es ns[i].tag) →
              ∃ st', regroupNode cfg n0.minNodeTag dims tags (rawNodeBlock ns) i st = .ok st' ∧
                st'.blocks = runBlocks (fun n => lastEntity es n.tag) openBlockOf (ns.take i ++ [ns[i]]) ∧
                st'.dim = sizeOfInt (lastEntity es ns[i].tag).1 ∧ st'.tag = sizeOfInt (lastEntity es ns[i].tag).2 := by
            intro hc hl
            have q1 : vecReserve cfg (rawNodeBlock ns).numNodesInBlock = .ok () := by
              unfold vecReserve; rw [hnum, if_pos (by omega)]
            have q2 : vecReserve cfg ((rawNodeBlock ns).numNodesInBlock * 3) = .ok () := by
              unfold vecReserve; rw [mul_toNat (by rw [hnum]; simp; omega), hnum, if_pos (by simp; omega)]
            have q3 : st.blocks.length < cfg.maxCount := by
              rw [i1]
              have := runBlocks_length_le (key := fun n : MeshNode => lastEntity es n.tag) (mk := openBlockOf) (l := ns.take i)
              rw [List.length_take] at this
              omega
            refine ⟨_, regroupNode_new g1 g2 g3 hc q1 q2 q3 (joinNode_spec hi h3 (lastEntity es ns[i].tag) [] (by simp)), ?_, rfl, rfl⟩
            rw [runBlocks_snoc_new hl, i1]
            rfl
          rw [htk]
          simp only [List.getLast?_append, List.getLast?_singleton, Option.some_or]
          cases hlast : (ns.take i).getLast? with
          | none =>
            rw [hlast] at i2 hnewcase
            refine hnewcase (Or.inl ?_) (by simp)
            rw [i2]
            intro h
            have := congrArg UInt64.toNat h
            rw [sizeOfInt_toNat (hdimL _)] at this
            have hb2 := (lastEntity es ns[i].tag).1.toInt_lt
            have : (lastEntity es ns[i].tag).1.toInt.toNat = 2 ^ 64 - 1 := this
            omega
          | some b =>
            rw [hlast] at i2 hnewcase
            obtain ⟨j1, j2⟩ := i2
            by_cases hk : lastEntity es b.tag = lastEntity es ns[i].tag
            · obtain ⟨bs, r, r1, r2, r3, p, r4⟩ := runBlocks_snoc_old (key := fun n : MeshNode => lastEntity es n.tag) (mk := openBlockOf) hlast hk
              rw [hk] at j1 j2
              exact ⟨_, regroupNode_old g1 (by rw [g2, j1]) (by rw [g3, j2]) (i1.trans r1)
                (joinNode_spec hi h3 (lastEntity es ns[i].tag) r (by rw [List.length_take] at r3; omega)), r2.symm, j1, j2⟩
            · refine hnewcase ?_ (by simpa using hk)
              rw [j1, j2]
              by_contra hc
              push Not at hc
              exact hk (Prod.ext (sizeOfInt_inj hc.1).symm (sizeOfInt_inj hc.2).symm))
        (st := {}) ⟨rfl, rfl⟩
      refine ⟨st, ?_, by simpa using k2.1⟩
      show (loopO (regroupNode cfg n0.minNodeTag dims tags (rawNodeBlock ns)) (rawNodeBlock ns).numNodesInBlock.toNat 0 ({} : Regroup) >>= fun st => Outcome.ok st) = _
      rw [hnum, Outcome.bind_ok _ k1]
    · rw [hb, hns]
      exact ⟨{}, rfl, rfl⟩
  obtain ⟨st, k1, k2⟩ := hfinal
  simp only
  rw [Outcome.bind_ok _ k1, k2]
  have hclose : (runBlocks (fun n => lastEntity es n.tag) openBlockOf ns).map (fun c => { c with numNodesInBlock := sizeU c.tags }) =
      runBlocks (fun n => lastEntity es n.tag) nodeBlockOf ns := by
    rw [runBlocks_map]
    congr 1
    funext k r
    simp [openBlockOf, nodeBlockOf, sizeU]
  simp only [hclose]
  rfl

end MshIO
