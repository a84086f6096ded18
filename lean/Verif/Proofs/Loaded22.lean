import Verif.Proofs.RoundTrip22

/-!
# What version 2.2 files load to
-/

namespace MshIO

theorem le_sum_of_mem {l : List Nat} {a : Nat} (h : a ∈ l) : a ≤ l.sum := by
  induction l with
  | nil => exact absurd h (by simp)
  | cons b l ih =>
    rw [List.sum_cons]
    rcases List.mem_cons.mp h with rfl | h
    · omega
    · have := ih h; omega

section runs
variable {α β κ : Type} [DecidableEq κ] {key : α → κ} {mk : κ → List α → β}

theorem runBlocks_flatMap {f : β → List α} {l : List α}
    (h : ∀ r a, r ∈ runs key l → a ∈ r → f (mk (key a) r) = r) : (runBlocks key mk l).flatMap f = l := by
  conv_rhs => rw [← runs_flatten key l]
  unfold runBlocks
  rw [List.flatMap_assoc]
  have : ∀ rs : List (List α), (∀ r ∈ rs, r ∈ runs key l) → (rs.flatMap fun r => (runBlock key mk r).flatMap f) = rs.flatten := by
    intro rs
    induction rs with
    | nil => intro _; rfl
    | cons r rs ih =>
      intro hm
      rw [List.flatMap_cons, ih fun r hr => hm r (by simp [hr]), List.flatten_cons]
      congr 1
      cases r with
      | nil => rfl
      | cons a r =>
        show f (mk (key a) (a :: r)) ++ [] = _
        rw [List.append_nil, h _ a (hm _ (by simp)) (by simp)]
  exact this _ fun r h => h

theorem runBlocks_adjacent {f : β → κ} {l : List α} (h : ∀ k r, f (mk k r) = k) :
    ((runBlocks key mk l).map f).IsChain (· ≠ ·) := by
  cases l with
  | nil => exact List.IsChain.nil
  | cons a0 l0 =>
    generalize a0 :: l0 = l
    rw [runBlocks_eq_map (key a0), List.map_map]
    have hadj := runs_adjacent key l
    rw [List.isChain_iff_getElem] at hadj ⊢
    intro i hi
    rw [List.length_map] at hi
    have := hadj i hi
    simp only [List.getElem_map, Function.comp_apply, h]
    have n1 := runs_ne_nil (key := key) (List.getElem_mem (Nat.lt_of_succ_lt hi))
    have n2 := runs_ne_nil (key := key) (List.getElem_mem hi)
    obtain ⟨a, r, e1⟩ := List.exists_cons_of_ne_nil n1
    obtain ⟨b, r', e2⟩ := List.exists_cons_of_ne_nil n2
    rw [e1, e2]
    rw [e1, e2] at this
    exact this a (by simp) b (by simp)

theorem mem_runs {l r : List α} (h : r ∈ runs key l) {a : α} (ha : a ∈ r) : a ∈ l := by
  rw [← runs_flatten key l]; exact List.mem_flatten.mpr ⟨r, h, ha⟩

theorem run_length_le {l r : List α} (h : r ∈ runs key l) : r.length ≤ l.length := by
  conv_rhs => rw [← runs_flatten key l]
  rw [List.length_flatten]
  exact le_sum_of_mem (List.mem_map.mpr ⟨r, h, rfl⟩)

end runs

/-! ## Node blocks -/

theorem flatMap3_length (ns : List MeshNode) : (ns.flatMap fun n => [n.x, n.y, n.z]).length = ns.length * 3 := by
  induction ns with
  | nil => rfl
  | cons n ns ih => rw [List.flatMap_cons, List.length_append, ih, List.length_cons]; simp; omega

theorem nodeBlockOf_list (k : Int32 × Int32) (ns : List MeshNode) : (nodeBlockOf k ns).list = ns := by
  have hco : (nodeBlockOf k ns).coords = 3 := rfl
  rw [NodeBlock.list_eq, hco]
  apply List.ext_getElem
  · simp [nodeBlockOf]
  · intro i h1 h2
    have hd : (nodeBlockOf k ns).data = ns.flatMap fun n => [n.x, n.y, n.z] := rfl
    have ht : (nodeBlockOf k ns).tags = ns.map (·.tag) := rfl
    have key : ∀ (l : List MeshNode) (i : Nat) (h : i < l.length) (j : Nat) (hj : j < 3),
        (l.flatMap fun n => [n.x, n.y, n.z]).getD (i * 3 + j) Double.zero = [l[i].x, l[i].y, l[i].z][j] := by
      intro l
      induction l with
      | nil => intro i h; exact absurd h (by simp)
      | cons n l ih =>
        intro i h j hj
        cases i with
        | zero =>
          rw [List.flatMap_cons]
          have : j = 0 ∨ j = 1 ∨ j = 2 := by omega
          rcases this with rfl | rfl | rfl <;> rfl
        | succ i =>
          have := ih i (by simpa using h) j hj
          rw [List.flatMap_cons]
          have e : (i + 1) * 3 + j = i * 3 + j + 3 := by omega
          rw [e]
          simpa using this
    have k0 := key ns i h2 0 (by omega)
    have k1 := key ns i h2 1 (by omega)
    have k2 := key ns i h2 2 (by omega)
    rw [Nat.add_zero] at k0
    simp only [List.getElem_map, hd, ht]
    simp only [List.getElem_range', Nat.one_mul, Nat.zero_add]
    rw [k0, k1, k2]
    simp [h2]

theorem nodesOf_list (ns : List MeshNode) (es : List MeshElem) : (nodesOf ns es).list = ns :=
  runBlocks_flatMap fun r _ _ _ => nodeBlockOf_list _ r

theorem nodesOf_mem {ns : List MeshNode} {es : List MeshElem} {b : NodeBlock} (h : b ∈ (nodesOf ns es).entityBlocks) :
    ∃ r a, r ∈ runs (fun n => lastEntity es n.tag) ns ∧ a ∈ r ∧ b = nodeBlockOf (lastEntity es a.tag) r := by
  obtain ⟨r, hr, a, ha, e⟩ := mem_runBlocks.mp h
  exact ⟨r, a, hr, ha, e⟩

theorem nodeBlockOf_ok {k : Int32 × Int32} {r : List MeshNode} (h : r.length < 2 ^ 64) : (nodeBlockOf k r).Ok where
  dim h := absurd h (show ¬ (0 : Int32) = 1 by decide)
  tags := by
    show (r.map _).length = (UInt64.ofNat r.length).toNat
    rw [List.length_map, ofNat_toNat_lt h]
  data := by
    show (r.flatMap _).length = (UInt64.ofNat r.length).toNat * 3
    rw [flatMap3_length, ofNat_toNat_lt h]

/-! ## Element blocks -/

theorem getD_flatMap {α : Type} (m : Nat) (f : MeshElem → List α) (l : List MeshElem) (hl : ∀ e ∈ l, (f e).length = m)
    (i : Nat) (h : i < l.length) : (l.flatMap f).drop (i * m) = (l.drop i).flatMap f := by
  induction l generalizing i with
  | nil => exact absurd h (by simp)
  | cons e l ih =>
    cases i with
    | zero => simp
    | succ i =>
      by_cases hi : i < l.length
      · have := ih (fun e he => hl e (by simp [he])) i hi
        rw [List.flatMap_cons, Nat.add_mul, Nat.one_mul, Nat.add_comm (i * m), ← List.drop_drop,
          List.drop_left' (hl e (by simp)), this]
        rfl
      · simp at h; omega

theorem elementBlockOf_list {k : Int32 × Int32 × Int32} {r : List MeshElem} (hlt : r.length < 2 ^ 64)
    (hk : ∀ e ∈ r, e.key = k) (hn : ∀ e ∈ r, mshNodes e.type = some e.nodes.length) (hne : r ≠ []) :
    (elementBlockOf k r).list = r := by
  obtain ⟨a, ha⟩ := List.exists_mem_of_ne_nil r hne
  have hty : ∀ e ∈ r, e.type = k.2.2 ∧ e.entity = k.2.1 ∧ e.dim = k.1 := by
    intro e he
    rw [← hk e he]; exact ⟨rfl, rfl, rfl⟩
  have hnn : ∀ e ∈ r, e.nodes.length = a.nodes.length := by
    intro e he
    have h1 := hn e he
    have h2 := hn a ha
    rw [(hty e he).1] at h1
    rw [(hty a ha).1, h1] at h2
    exact Option.some.inj h2
  have hm : mshNodes (elementBlockOf k r).elementType = some a.nodes.length := by
    show mshNodes k.2.2 = _
    rw [← (hty a ha).1]; exact hn a ha
  rw [ElementBlock.list_eq _ hm]
  have hnum : (elementBlockOf k r).numElementsInBlock.toNat = r.length := ofNat_toNat_lt hlt
  rw [hnum]
  apply List.ext_getElem
  · simp
  · intro i h1 h2
    simp only [List.getElem_map, List.getElem_range', Nat.one_mul, Nat.zero_add]
    have hd : (elementBlockOf k r).data = r.flatMap fun e => e.tag :: e.nodes := rfl
    rw [hd]
    have hdrop := getD_flatMap (a.nodes.length + 1) (fun e => e.tag :: e.nodes) r (fun e he => by simp [hnn e he]) i h2
    rw [List.drop_eq_getElem_cons h2, List.flatMap_cons] at hdrop
    have e1 : (r.flatMap fun e => e.tag :: e.nodes).getD (i * (a.nodes.length + 1)) 0 = r[i].tag := by
      have := congrArg (fun l => l.getD 0 0) hdrop
      simpa using this
    have e2 : ((r.flatMap fun e => e.tag :: e.nodes).drop (i * (a.nodes.length + 1) + 1)).take a.nodes.length = r[i].nodes := by
      rw [← List.drop_drop, hdrop]
      rw [← hnn _ (List.getElem_mem h2)]
      simp
    rw [e1, e2]
    obtain ⟨t1, t2, t3⟩ := hty _ (List.getElem_mem h2)
    generalize r[i] = e at t1 t2 t3 ⊢
    cases e
    simp only at t1 t2 t3
    subst t1 t2 t3
    rfl

theorem elementsOf_list {es : List MeshElem} (hlt : es.length < 2 ^ 64) (hn : ∀ e ∈ es, mshNodes e.type = some e.nodes.length) :
    (elementsOf es).list = es := by
  refine runBlocks_flatMap fun r a hr ha => ?_
  exact elementBlockOf_list (lt_of_le_of_lt (run_length_le hr) hlt) (fun e he => runs_key hr he ha)
    (fun e he => hn e (mem_runs hr he)) (runs_ne_nil hr)

theorem elementsOf_mem {es : List MeshElem} {b : ElementBlock} (h : b ∈ (elementsOf es).entityBlocks) :
    ∃ r a, r ∈ runs MeshElem.key es ∧ a ∈ r ∧ b = elementBlockOf a.key r := by
  obtain ⟨r, hr, a, ha, e⟩ := mem_runBlocks.mp h
  exact ⟨r, a, hr, ha, e⟩

theorem flatMap_elem_length {r : List MeshElem} {m : Nat} (h : ∀ e ∈ r, e.nodes.length = m) :
    (r.flatMap fun e => e.tag :: e.nodes).length = r.length * (m + 1) := by
  induction r with
  | nil => simp
  | cons e r ih =>
    rw [List.flatMap_cons, List.length_append, ih fun e he => h e (by simp [he]), List.length_cons, h e (by simp),
      List.length_cons, Nat.add_mul (r.length) 1, Nat.one_mul]
    omega

/-- What a block of the regrouped elements looks like. -/
theorem elementsOf_block {es : List MeshElem} (hlt : es.length < 2 ^ 64)
    (hn : ∀ e ∈ es, mshNodes e.type = some e.nodes.length) {b : ElementBlock} (h : b ∈ (elementsOf es).entityBlocks) :
    b.Ok ∧ 0 < b.numElementsInBlock.toNat ∧ b.numElementsInBlock.toNat ≤ es.length ∧
      b.data.length ≤ (es.map fun e => e.nodes.length + 1).sum ∧
      (∀ t ∈ b.data, ∃ e ∈ es, t = e.tag ∨ t ∈ e.nodes) ∧ b.list ≠ [] := by
  obtain ⟨r, a, hr, ha, rfl⟩ := elementsOf_mem h
  have hl := run_length_le hr
  have hk : ∀ e ∈ r, e.key = a.key := fun e he => runs_key hr he ha
  have hnum : (elementBlockOf a.key r).numElementsInBlock.toNat = r.length := ofNat_toNat_lt (by omega)
  have hlist := elementBlockOf_list (k := a.key) (by omega) hk (fun e he => hn e (mem_runs hr he)) (runs_ne_nil hr)
  have hnn : ∀ e ∈ r, e.nodes.length = a.nodes.length := by
    intro e he
    have h1 := hn e (mem_runs hr he)
    have h2 := hn a (mem_runs hr ha)
    have : e.type = a.type := congrArg (fun k => k.2.2) (hk e he)
    rw [this, h2] at h1
    exact (Option.some.inj h1).symm
  refine ⟨⟨a.nodes.length, hn a (mem_runs hr ha), ?_⟩, ?_, ?_, ?_, ?_, ?_⟩
  · rw [hnum]; exact flatMap_elem_length hnn
  · rw [hnum]; exact List.length_pos_iff.mpr (runs_ne_nil hr)
  · rw [hnum]; exact hl
  · show (r.flatMap fun e => e.tag :: e.nodes).length ≤ _
    rw [List.length_flatMap]
    conv_rhs => rw [← runs_flatten MeshElem.key es, List.map_flatten, List.sum_flatten]
    exact le_sum_of_mem (List.mem_map.mpr ⟨_, List.mem_map.mpr ⟨r, hr, rfl⟩, rfl⟩)
  · intro t ht
    obtain ⟨e, he, ht⟩ := List.mem_flatMap.mp (show t ∈ r.flatMap fun e => e.tag :: e.nodes from ht)
    exact ⟨e, mem_runs hr he, by simpa using ht⟩
  · rw [hlist]; exact runs_ne_nil hr

/-! ## Specs in the form the version 2.2 loader leaves -/

/-- Nodes and elements are grouped as version 2.2 loading does. -/
structure Regrouped (ns : List MeshNode) (es : List MeshElem) (s : MshSpec) : Prop where
  nodes : s.nodes = nodesOf ns es ∨ ns = [] ∧ s.nodes = {}
  elements : (∃ lo hi, s.elements = { elementsOf es with minElementTag := lo, maxElementTag := hi }) ∨ es = [] ∧ s.elements = {}
  typed : Typed es

section regrouped
variable {cfg : Cfg} {ns : List MeshNode} {es : List MeshElem} {s : MshSpec}

theorem Fits22.es_le (h : Fits22 cfg ns es) : es.length ≤ cfg.maxCount := by
  have := h.entries
  have : es.length ≤ (es.map fun e => e.nodes.length + 1).sum := by
    clear h this
    induction es with
    | nil => simp
    | cons e es ih => rw [List.map_cons, List.sum_cons, List.length_cons]; omega
  omega

theorem Fits22.es_lt (h : Fits22 cfg ns es) : es.length < 2 ^ 60 := lt_of_le_of_lt h.es_le cfg.maxCount_lt

theorem Fits22.ns_lt (h : Fits22 cfg ns es) : 3 * ns.length < 2 ^ 60 := lt_of_le_of_lt h.coords cfg.maxCount_lt

theorem nodesOf_block (hl : ns.length < 2 ^ 64) {b : NodeBlock} (h : b ∈ (nodesOf ns es).entityBlocks) :
    b.Ok ∧ b.parametric = 0 ∧ b.tags.length = b.numNodesInBlock.toNat ∧ b.data.length = 3 * b.numNodesInBlock.toNat ∧
      b.numNodesInBlock.toNat ≤ ns.length ∧ (∀ t ∈ b.tags, ∃ n ∈ ns, n.tag = t) ∧
      ∀ x ∈ b.data, ∃ n ∈ ns, x = n.x ∨ x = n.y ∨ x = n.z := by
  obtain ⟨r, a, hr, ha, rfl⟩ := nodesOf_mem h
  have hrl := run_length_le hr
  have hok := nodeBlockOf_ok (k := lastEntity es a.tag) (r := r) (by omega)
  have hnum : (nodeBlockOf (lastEntity es a.tag) r).numNodesInBlock.toNat = r.length := ofNat_toNat_lt (by omega)
  refine ⟨hok, rfl, hok.tags, ?_, by omega, fun t ht => ?_, fun x hx => ?_⟩
  · have := hok.data
    rw [this]
    have : (nodeBlockOf (lastEntity es a.tag) r).coords = 3 := rfl
    rw [this]; omega
  · obtain ⟨n, hn', rfl⟩ := List.mem_map.mp (show t ∈ r.map (·.tag) from ht)
    exact ⟨n, mem_runs hr hn', rfl⟩
  · obtain ⟨n, hn', hx⟩ := List.mem_flatMap.mp (show x ∈ r.flatMap fun n => [n.x, n.y, n.z] from hx)
    exact ⟨n, mem_runs hr hn', by simpa using hx⟩

theorem Regrouped.nodes_list (h : Regrouped ns es s) : s.nodes.list = ns := by
  rcases h.nodes with e | ⟨e1, e2⟩
  · rw [e, nodesOf_list]
  · rw [e2, e1]; rfl

theorem Regrouped.elements_list (h : Regrouped ns es s) (hl : es.length < 2 ^ 64) : s.elements.list = es := by
  rcases h.elements with ⟨lo, hi, e⟩ | ⟨e1, e2⟩
  · rw [e]; exact elementsOf_list hl fun e he => (h.typed e he).1
  · rw [e2, e1]; rfl

theorem Regrouped.nodeBlocks (h : Regrouped ns es s) (hl : ns.length < 2 ^ 64) :
    s.nodes.entityBlocks.length = s.nodes.numEntityBlocks.toNat ∧ s.nodes.entityBlocks.length ≤ ns.length ∧
      s.nodes.numNodes.toNat = ns.length := by
  rcases h.nodes with e | ⟨e1, e2⟩
  · have := runBlocks_length_le (key := fun n : MeshNode => lastEntity es n.tag) (mk := nodeBlockOf) (l := ns)
    rw [e]
    exact ⟨(ofNat_toNat_lt (lt_of_le_of_lt this hl)).symm, this, ofNat_toNat_lt hl⟩
  · rw [e2, e1]; exact ⟨rfl, Nat.le_refl _, rfl⟩

theorem Regrouped.elementBlocks (h : Regrouped ns es s) (hl : es.length < 2 ^ 64) :
    s.elements.entityBlocks.length = s.elements.numEntityBlocks.toNat ∧ s.elements.entityBlocks.length ≤ es.length ∧
      s.elements.numElements.toNat = es.length := by
  rcases h.elements with ⟨lo, hi, e⟩ | ⟨e1, e2⟩
  · have := runBlocks_length_le (key := MeshElem.key) (mk := elementBlockOf) (l := es)
    rw [e]
    exact ⟨(ofNat_toNat_lt (lt_of_le_of_lt this hl)).symm, this, ofNat_toNat_lt hl⟩
  · rw [e2, e1]; exact ⟨rfl, Nat.le_refl _, rfl⟩

theorem Regrouped.node (h : Regrouped ns es s) {b : NodeBlock} (hb : b ∈ s.nodes.entityBlocks) :
    b ∈ (nodesOf ns es).entityBlocks := by
  rcases h.nodes with e | ⟨e1, e2⟩
  · rw [e] at hb; exact hb
  · rw [e2] at hb; exact absurd hb (by simp)

theorem Regrouped.element (h : Regrouped ns es s) {b : ElementBlock} (hb : b ∈ s.elements.entityBlocks) :
    b ∈ (elementsOf es).entityBlocks := by
  rcases h.elements with ⟨lo, hi, e⟩ | ⟨e1, e2⟩
  · rw [e] at hb; exact hb
  · rw [e2] at hb; exact absurd hb (by simp)

theorem Regrouped.counted (h : Regrouped ns es s) (hf : Fits22 cfg ns es) : s.Counted := by
  have h1 := hf.es_lt
  have h2 := hf.ns_lt
  refine ⟨?_, ?_⟩
  · rw [(h.nodeBlocks (by omega)).2.2, ← s.nodes.list_length fun b hb => (nodesOf_block (by omega) (h.node hb)).1, h.nodes_list]
  · rw [(h.elementBlocks (by omega)).2.2, ← s.elements.list_length, h.elements_list (by omega)]

/-- The mesh part of `Ok`. -/
theorem Regrouped.ok (h : Regrouped ns es s) (hf : Fits22 cfg ns es)
    (nd : ∀ d ∈ s.nodeData, d.Ok false) (ed : ∀ d ∈ s.elementData, d.Ok false) (en : ∀ d ∈ s.elementNodeData, d.Ok true)
    (c : ∀ c ∈ s.curves, c.Ok) (p : ∀ p ∈ s.patches, p.Ok) : s.Ok := by
  have h1 := hf.es_lt
  have h2 := hf.ns_lt
  exact ⟨(h.nodeBlocks (by omega)).1, fun b hb => (nodesOf_block (by omega) (h.node hb)).1, (h.elementBlocks (by omega)).1,
    fun b hb => (elementsOf_block (by omega) (fun e he => (h.typed e he).1) (h.element hb)).1, nd, ed, en, c, p⟩

/-- The mesh part of `Fits`. -/
theorem Regrouped.sizes (h : Regrouped ns es s) (hf : Fits22 cfg ns es) :
    s.nodes.entityBlocks.length ≤ cfg.maxCount ∧ s.elements.entityBlocks.length ≤ cfg.maxCount ∧
    (∀ b ∈ s.nodes.entityBlocks, b.tags.length ≤ cfg.maxCount ∧ b.data.length ≤ cfg.maxCount) ∧
    (∀ b ∈ s.elements.entityBlocks, b.data.length ≤ cfg.maxCount) := by
  have h1 := hf.es_lt
  have h2 := hf.ns_lt
  have h3 := hf.es_le
  have h4 := hf.coords
  have h5 := hf.entries
  refine ⟨?_, ?_, fun b hb => ?_, fun b hb => ?_⟩
  · have := (h.nodeBlocks (by omega)).2.1; omega
  · have := (h.elementBlocks (by omega)).2.1; omega
  · obtain ⟨_, _, b1, b2, b3, _⟩ := nodesOf_block (by omega) (h.node hb)
    omega
  · obtain ⟨_, _, _, b1, _⟩ := elementsOf_block (by omega) (fun e he => (h.typed e he).1) (h.element hb)
    omega

end regrouped

end MshIO
