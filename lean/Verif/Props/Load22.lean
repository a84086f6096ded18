import Verif.Proofs.DblRound
import Verif.Props.Validate

/-!
# C10, C11, C12, C13, C19: what version 2.2 files load to

`Is22` (files storing given nodes and elements), `NodesInRange`, `Fits22`, `lastEntity`, `EntitiesAre` are explained in `Spec/Mesh22.lean` and
`Spec/File22.lean`.
-/

namespace MshIO

/-! ## Helper lemmas -/

theorem load22 {cfg : Cfg} {file : Bytes} {ns : List MeshNode} {fs : List FileElem} (h : Is22 cfg file ns fs)
    (hr : NodesInRange ns (fs.map FileElem.elem)) (hf : Fits22 cfg ns (fs.map FileElem.elem)) :
    (∀ f ∈ fs, f.Ok) ∧ ∃ ft lo hi, loadMsh cfg file = .ok { spec22 ft ns (fs.map FileElem.elem) (physOf fs) with
        elements := { elementsOf (fs.map FileElem.elem) with minElementTag := lo, maxElementTag := hi } } ∧
      (fs ≠ [] → (∀ f ∈ fs, 0 ≤ f.num.toInt) → (lo, hi) = tagRange ((fs.map FileElem.elem).map (·.tag))) := by
  cases h with
  | @ascii P ns fs lead words hd ho hps hl hsep =>
    refine ⟨fun f hf => (ho f hf).1, 0, _, _, ?_, fun _ _ => rfl⟩
    have e : Spaced lead words = lead ++ flat words := by rw [flat, List.flatMap_def]; rfl
    rw [e, load22_ascii cfg P (reread P) ns fs (fun n hn => ⟨(hd n hn).1.dtok, (hd n hn).2.1.dtok, (hd n hn).2.2.dtok⟩)
      (fun f hf => (ho f hf).1) (fun f hf => (ho f hf).2) ?_ ?_ hl words hps hsep]
    · rfl
    · intro e he t ht
      obtain ⟨⟨a, ha, h1⟩, b, hb, h2⟩ := hr e he t ht
      obtain ⟨a, ha', rfl⟩ := List.mem_map.mp ha
      obtain ⟨b, hb', rfl⟩ := List.mem_map.mp hb
      exact ⟨⟨a, ha', h1⟩, b, hb', h2⟩
    · refine ⟨hf.two, by have := hf.coords; rwa [List.length_map] at this, fun a ha b hb => ?_, hf.entries⟩
      exact hf.span ⟨a.tag, reread P a.x, reread P a.y, reread P a.z⟩ (List.mem_map.mpr ⟨a, ha, rfl⟩)
        ⟨b.tag, reread P b.x, reread P b.y, reread P b.z⟩ (List.mem_map.mpr ⟨b, hb, rfl⟩)
  | @binary ns gs lead w hg hl hw =>
    refine ⟨?_, 1, _, _, load22_binary cfg ns gs hg hr hf hl hw, fun hne hn => ?_⟩
    · intro f hf
      obtain ⟨g, hgm, hf⟩ := List.mem_flatMap.mp hf
      exact (hg g hgm).elems f hf
    · rw [Prod.mk.eta, binaryRange_eq hne hn, List.map_map]
      rfl

theorem file_length {cfg : Cfg} {ns : List MeshNode} {es : List MeshElem} (h : Fits22 cfg ns es) : es.length ≤ cfg.maxCount := by
  have := h.entries
  have : es.length ≤ (es.map fun e => e.nodes.length + 1).sum := by
    clear h this
    induction es with
    | nil => simp
    | cons e es ih => rw [List.map_cons, List.sum_cons, List.length_cons]; omega
  omega

theorem Fits22.elems_lt {cfg : Cfg} {ns : List MeshNode} {es : List MeshElem} (h : Fits22 cfg ns es) : es.length < 2 ^ 60 :=
  lt_of_le_of_lt (file_length h) cfg.maxCount_lt

theorem Fits22.nodes_lt {cfg : Cfg} {ns : List MeshNode} {es : List MeshElem} (h : Fits22 cfg ns es) : 3 * ns.length < 2 ^ 60 :=
  lt_of_le_of_lt h.coords cfg.maxCount_lt

/-! ## C10 -/

/-- **C10** A version 2.2 file is loaded, and the element blocks hold exactly the elements of the file, in order, in maximal
runs: no block is empty and neighbouring blocks differ in dimension, entity tag or type. -/
theorem C10_element_runs (cfg : Cfg) (file : Bytes) (ns : List MeshNode) (fs : List FileElem) (h : Is22 cfg file ns fs)
    (hr : NodesInRange ns (fs.map FileElem.elem)) (hf : Fits22 cfg ns (fs.map FileElem.elem)) :
    ∃ s, loadMsh cfg file = .ok s ∧
      s.elements.list = fs.map FileElem.elem ∧
      s.elements.numEntityBlocks.toNat = s.elements.entityBlocks.length ∧
      (∀ b ∈ s.elements.entityBlocks, b.list ≠ [] ∧ b.Ok) ∧
      (s.elements.entityBlocks.map fun b => (b.entityDim, b.entityTag, b.elementType)).IsChain (· ≠ ·) := by
  obtain ⟨ho, ft, lo, hi, h1, _⟩ := load22 h hr hf
  have hlt := hf.elems_lt
  have hn : ∀ e ∈ fs.map FileElem.elem, mshNodes e.type = some e.nodes.length := fun e he => (typed_file ho e he).1
  refine ⟨_, h1, elementsOf_list (by omega) hn, ?_, fun b hb => ?_, runBlocks_adjacent fun _ _ => rfl⟩
  · show (UInt64.ofNat (runBlocks _ _ _).length).toNat = (runBlocks _ _ _).length
    refine ofNat_toNat_lt ?_
    have := runBlocks_length_le (key := MeshElem.key) (mk := elementBlockOf) (l := fs.map FileElem.elem)
    omega
  · obtain ⟨h1, _, _, _, _, h6⟩ := elementsOf_block (by omega) hn hb
    exact ⟨h6, h1⟩

/-! ## C11 -/

/-- **C11** The node and element counts and tag ranges of a loaded version 2.2 file are exact. -/
theorem C11_ranges (cfg : Cfg) (file : Bytes) (ns : List MeshNode) (fs : List FileElem) (h : Is22 cfg file ns fs)
    (hr : NodesInRange ns (fs.map FileElem.elem)) (hf : Fits22 cfg ns (fs.map FileElem.elem)) :
    ∃ s, loadMsh cfg file = .ok s ∧
      s.nodes.numNodes.toNat = ns.length ∧ s.elements.numElements.toNat = fs.length ∧
      (ns ≠ [] → (∃ n ∈ ns, n.tag = s.nodes.minNodeTag) ∧ (∃ n ∈ ns, n.tag = s.nodes.maxNodeTag) ∧
        ∀ n ∈ ns, s.nodes.minNodeTag ≤ n.tag ∧ n.tag ≤ s.nodes.maxNodeTag) ∧
      (fs ≠ [] → (∀ f ∈ fs, 0 ≤ f.num.toInt) →
        (∃ f ∈ fs, f.num.toInt = s.elements.minElementTag.toNat) ∧ (∃ f ∈ fs, f.num.toInt = s.elements.maxElementTag.toNat) ∧
        ∀ f ∈ fs, (s.elements.minElementTag.toNat : Int) ≤ f.num.toInt ∧ f.num.toInt ≤ s.elements.maxElementTag.toNat) := by
  obtain ⟨ho, ft, lo, hi, h1, h2⟩ := load22 h hr hf
  have hlt := hf.elems_lt
  have hlt' := hf.nodes_lt
  refine ⟨_, h1, ofNat_toNat_lt (by omega), ?_, fun hne => ?_, fun hne hnum => ?_⟩
  · show (UInt64.ofNat (fs.map FileElem.elem).length).toNat = _
    rw [ofNat_toNat_lt (by omega), List.length_map]
  · obtain ⟨m1, m2⟩ := tagRange_mem (ts := ns.map (·.tag)) (by simpa using hne)
    obtain ⟨a, ha, e1⟩ := List.mem_map.mp m1
    obtain ⟨b, hb, e2⟩ := List.mem_map.mp m2
    exact ⟨⟨a, ha, e1⟩, ⟨b, hb, e2⟩, fun n hn => tagRange_bounds (List.mem_map.mpr ⟨n, hn, rfl⟩)⟩
  · have e := h2 hne hnum
    have e1 : lo = (tagRange ((fs.map FileElem.elem).map (·.tag))).1 := congrArg Prod.fst e
    have e2 : hi = (tagRange ((fs.map FileElem.elem).map (·.tag))).2 := congrArg Prod.snd e
    obtain ⟨m1, m2⟩ := tagRange_mem (ts := (fs.map FileElem.elem).map (·.tag)) (by simpa using hne)
    rw [List.map_map] at m1 m2 e1 e2
    obtain ⟨a, ha, a1⟩ := List.mem_map.mp m1
    obtain ⟨b, hb, b1⟩ := List.mem_map.mp m2
    have val : ∀ f ∈ fs, ((sizeOfInt f.num).toNat : Int) = f.num.toInt := fun f hf => by
      rw [sizeOfInt_toNat (hnum f hf)]; have := hnum f hf; omega
    refine ⟨⟨a, ha, ?_⟩, ⟨b, hb, ?_⟩, fun f hf => ?_⟩
    · show _ = (lo.toNat : Int); rw [e1, ← a1]; exact (val a ha).symm
    · show _ = (hi.toNat : Int); rw [e2, ← b1]; exact (val b hb).symm
    · obtain ⟨h3, h4⟩ := tagRange_bounds (ts := fs.map ((·.tag) ∘ FileElem.elem)) (t := sizeOfInt f.num) (List.mem_map.mpr ⟨f, hf, rfl⟩)
      rw [UInt64.le_iff_toNat_le] at h3 h4
      show (lo.toNat : Int) ≤ _ ∧ _ ≤ (hi.toNat : Int)
      rw [e1, e2, ← val f hf]
      exact ⟨Int.ofNat_le.mpr h3, Int.ofNat_le.mpr h4⟩

/-! ## C12 -/

/-- **C12** Nodes keep their order; they are grouped in maximal runs (no block is empty, neighbouring blocks lie on different
entities) and the block of a node carries the dimension and tag of the entity of the last element using the node ((0,0) if
there is none). -/
theorem C12_node_classification (cfg : Cfg) (file : Bytes) (ns : List MeshNode) (fs : List FileElem) (h : Is22 cfg file ns fs)
    (hr : NodesInRange ns (fs.map FileElem.elem)) (hf : Fits22 cfg ns (fs.map FileElem.elem)) :
    ∃ s, loadMsh cfg file = .ok s ∧
      s.nodes.list = ns ∧
      s.nodes.numEntityBlocks.toNat = s.nodes.entityBlocks.length ∧
      (∀ b ∈ s.nodes.entityBlocks, b.list ≠ [] ∧ b.Ok ∧ b.parametric = 0 ∧
        ∀ n ∈ b.list, (b.entityDim, b.entityTag) = lastEntity (fs.map FileElem.elem) n.tag) ∧
      (s.nodes.entityBlocks.map fun b => (b.entityDim, b.entityTag)).IsChain (· ≠ ·) := by
  obtain ⟨ho, ft, lo, hi, h1, _⟩ := load22 h hr hf
  have hlt := hf.nodes_lt
  refine ⟨_, h1, nodesOf_list ns _, ?_, fun b hb => ?_, runBlocks_adjacent fun _ _ => rfl⟩
  · show (UInt64.ofNat (runBlocks _ _ _).length).toNat = (runBlocks _ _ _).length
    refine ofNat_toNat_lt ?_
    have := runBlocks_length_le (key := fun n : MeshNode => lastEntity (fs.map FileElem.elem) n.tag) (mk := nodeBlockOf) (l := ns)
    omega
  · obtain ⟨r, a, hr', ha, rfl⟩ := nodesOf_mem hb
    have hl := run_length_le hr'
    rw [nodeBlockOf_list]
    exact ⟨runs_ne_nil hr', nodeBlockOf_ok (by omega), rfl, fun n hn => runs_key (key := fun n : MeshNode => lastEntity _ n.tag) hr' ha hn⟩

/-! ## C13 -/

/-- **C13** The entities of a loaded version 2.2 file are exactly those named by elements with at least two tags; see `EntitiesAre`. -/
theorem C13_entities (cfg : Cfg) (file : Bytes) (ns : List MeshNode) (fs : List FileElem) (h : Is22 cfg file ns fs)
    (hr : NodesInRange ns (fs.map FileElem.elem)) (hf : Fits22 cfg ns (fs.map FileElem.elem)) :
    ∃ s ents, loadMsh cfg file = .ok s ∧ s.entities = entitiesFrom ents ∧ ∀ d, EntitiesAre fs d (ents d) := by
  obtain ⟨ho, ft, lo, hi, h1, _⟩ := load22 h hr hf
  exact ⟨_, physOf fs, h1, rfl, physOf_entitiesAre fs⟩

/-! ## C19 -/

theorem flatMap_elem_getElem {r : List MeshElem} {m : Nat} (h : ∀ e ∈ r, e.nodes.length = m) {j : Nat} {t : UInt64}
    (hj : (r.flatMap fun e => e.tag :: e.nodes)[j]? = some t) :
    if j % (m + 1) = 0 then ∃ e ∈ r, t = e.tag else ∃ e ∈ r, t ∈ e.nodes := by
  induction r generalizing j with
  | nil => simp at hj
  | cons e r ih =>
    rw [List.flatMap_cons] at hj
    have hm := h e (by simp)
    by_cases hlt : j < m + 1
    · rw [List.getElem?_append_left (by simp [hm]; omega)] at hj
      rw [Nat.mod_eq_of_lt hlt]
      split
      · rename_i h0
        subst h0
        exact ⟨e, by simp, by simpa using hj.symm⟩
      · cases j with
        | zero => contradiction
        | succ j =>
          rw [List.getElem?_cons_succ] at hj
          exact ⟨e, by simp, List.mem_of_getElem? hj⟩
    · rw [List.getElem?_append_right (by simp [hm]; omega)] at hj
      have := ih (fun e he => h e (by simp [he])) hj
      have hlen : (e.tag :: e.nodes).length = m + 1 := by simp [hm]
      rw [hlen, ← Nat.mod_eq_sub_mod (by omega)] at this
      split
      · rename_i h0; rw [if_pos h0] at this
        obtain ⟨e', he', h'⟩ := this
        exact ⟨e', by simp [he'], h'⟩
      · rename_i h0; rw [if_neg h0] at this
        obtain ⟨e', he', h'⟩ := this
        exact ⟨e', by simp [he'], h'⟩

/-- **C19** A spec loaded from a version 2.2 file with at least one node and one element is accepted by `validate_spec`. -/
theorem C19_loaded22_valid (cfg : Cfg) (file : Bytes) (ns : List MeshNode) (fs : List FileElem) (h : Is22 cfg file ns fs)
    (hr : NodesInRange ns (fs.map FileElem.elem)) (hf : Fits22 cfg ns (fs.map FileElem.elem))
    (hn : ns ≠ []) (he : fs ≠ []) (hnum : ∀ f ∈ fs, 0 ≤ f.num.toInt) :
    ∃ s, loadMsh cfg file = .ok s ∧ validateSpec s = .ok () := by
  obtain ⟨ho, ft, lo, hi, h1, h2⟩ := load22 h hr hf
  refine ⟨_, h1, ?_⟩
  have e := h2 he hnum
  have e1 : lo = (tagRange ((fs.map FileElem.elem).map (·.tag))).1 := congrArg Prod.fst e
  have e2 : hi = (tagRange ((fs.map FileElem.elem).map (·.tag))).2 := congrArg Prod.snd e
  have hlt := hf.elems_lt
  have hlt' := hf.nodes_lt
  have hes := hf.entries
  have hmax := cfg.maxCount_lt
  have hty : ∀ e ∈ fs.map FileElem.elem, mshNodes e.type = some e.nodes.length := fun e he => (typed_file ho e he).1
  have hne : fs.map FileElem.elem ≠ [] := by simpa using he
  generalize fs.map FileElem.elem = es at *
  have hNb := runBlocks_length_le (key := fun n : MeshNode => lastEntity es n.tag) (mk := nodeBlockOf) (l := ns)
  have hEb := runBlocks_length_le (key := MeshElem.key) (mk := elementBlockOf) (l := es)
  have hblk : ∀ b ∈ (nodesOf ns es).entityBlocks, b.tags.length = b.numNodesInBlock.toNat ∧ b.parametric = 0 ∧
      b.data.length = b.numNodesInBlock.toNat * 3 ∧ b.numNodesInBlock.toNat ≤ ns.length ∧ ∀ t ∈ b.tags, t ∈ ns.map (·.tag) := by
    intro b hb
    obtain ⟨r, a, hr', ha, rfl⟩ := nodesOf_mem hb
    have hl := run_length_le hr'
    have hok := nodeBlockOf_ok (k := lastEntity es a.tag) (r := r) (by omega)
    refine ⟨hok.tags, rfl, hok.data, ?_, ?_⟩
    · show (UInt64.ofNat r.length).toNat ≤ _
      rw [ofNat_toNat_lt (by omega)]; exact hl
    · intro t ht
      obtain ⟨n, hn', rfl⟩ := List.mem_map.mp (show t ∈ r.map (·.tag) from ht)
      exact List.mem_map.mpr ⟨n, mem_runs hr' hn', rfl⟩
  rw [C34_accepts_iff]
  · refine ⟨⟨?_, ?_, ?_, ?_⟩, ?_, ?_⟩
    · exact ofNat_toNat_lt (show (runBlocks _ _ _).length < _ by omega)
    · exact ofNat_toNat_lt (show (runBlocks _ _ _).length < _ by omega)
    · obtain ⟨n, hn'⟩ := List.exists_mem_of_ne_nil ns hn
      obtain ⟨h3, h4⟩ := tagRange_bounds (List.mem_map.mpr ⟨n, hn', rfl⟩ : n.tag ∈ ns.map (·.tag))
      exact UInt64.le_trans h3 h4
    · show lo ≤ hi
      obtain ⟨n, hn'⟩ := List.exists_mem_of_ne_nil es hne
      obtain ⟨h3, h4⟩ := tagRange_bounds (List.mem_map.mpr ⟨n, hn', rfl⟩ : n.tag ∈ es.map (·.tag))
      rw [e1, e2]
      exact UInt64.le_trans h3 h4
    · intro b hb
      obtain ⟨b1, b2, b3, b4, b5⟩ := hblk b hb
      have hw : b.wanted = 3 := by unfold NodeBlock.wanted; rw [b2, if_neg (by decide)]
      refine ⟨⟨b1, fun t ht => tagRange_bounds (b5 t ht)⟩, ?_, ?_⟩
      · intro ho; rw [NodeBlock.Overflows, b2] at ho; exact absurd ho.1 (by decide)
      · rw [hw, b3]; simp
    · intro b hb
      obtain ⟨c1, c2, c3, c4, _, _⟩ := elementsOf_block (by omega) hty hb
      obtain ⟨m, hm, hdat⟩ := c1.data
      have hk : b.data.length / b.numElementsInBlock.toNat = m + 1 := by
        rw [hdat, Nat.mul_div_cancel_left _ c2]
      refine ⟨?_, m + 1, hk.symm, ?_, ?_⟩
      · rintro (h | h)
        · rw [hdat] at h
          have := Nat.le_mul_of_pos_right b.numElementsInBlock.toNat (show 0 < m + 1 by omega)
          omega
        · rw [h] at c2; exact absurd c2 (by decide)
      · rw [hdat, Nat.mul_mod_left]
      · intro j t ht
        obtain ⟨r, a, hr', ha, rfl⟩ := elementsOf_mem hb
        have hnn : ∀ e ∈ r, e.nodes.length = m := by
          intro e he'
          have h1 := hty e (mem_runs hr' he')
          have : e.key = a.key := runs_key hr' he' ha
          have : e.type = a.type := congrArg (fun k => k.2.2) this
          rw [this, show mshNodes a.type = some m from hm] at h1
          exact (Option.some.inj h1).symm
        have := flatMap_elem_getElem hnn ht
        show if j % (m + 1) = 0 then lo ≤ t ∧ t ≤ hi else _
        split
        · rename_i h0
          rw [if_pos h0] at this
          obtain ⟨e', he', rfl⟩ := this
          rw [e1, e2]
          exact tagRange_bounds (List.mem_map.mpr ⟨e', mem_runs hr' he', rfl⟩)
        · rename_i h0
          rw [if_neg h0] at this
          obtain ⟨e', he', ht'⟩ := this
          obtain ⟨⟨x, hx, hx'⟩, y, hy, hy'⟩ := hr e' (mem_runs hr' he') t ht'
          exact ⟨UInt64.le_trans (tagRange_bounds (List.mem_map.mpr ⟨x, hx, rfl⟩)).1 hx',
            UInt64.le_trans hy' (tagRange_bounds (List.mem_map.mpr ⟨y, hy, rfl⟩)).2⟩
  · refine ⟨show (runBlocks _ _ _).length < _ by omega, fun b hb => ?_, fun b hb => ?_, show (runBlocks _ _ _).length < _ by omega, fun b hb => ?_⟩
    · obtain ⟨b1, b2, b3, b4, b5⟩ := hblk b hb
      omega
    · obtain ⟨b1, b2, b3, b4, b5⟩ := hblk b hb
      omega
    · have := (elementsOf_block (by omega) hty hb).2.2.2.1
      omega

end MshIO
