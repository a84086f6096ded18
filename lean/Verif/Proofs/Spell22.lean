import Verif.Spec.Spelling22
import Verif.Proofs.SpellFile
import Verif.Proofs.File22

/-!
# Reading text files of version 2.2 in any spelling
-/

namespace MshIO

theorem inIntVar_item (old : Option Int32) (x : Int32) : ITok (inIntVar old) (.int x) (some x) := by
  intro t ht w rest hw hr
  unfold inIntVar
  rw [Rd.bind_ok (extractInt_item x t ht w rest hw hr)]
  rfl

theorem inIntVar_count {α : Type} (old : Option Int32) (v : List α) (h : v.length < 2 ^ 31) :
    ITok (inIntVar old) (.count v) (some (Int32.ofNat v.length)) := by
  have := inIntVar_item old (Int32.ofNat v.length)
  unfold Item.int at this
  rwa [Int32.toInt_ofNat_of_lt h] at this

theorem inSize_count {α : Type} (old : UInt64) (v : List α) (h : v.length < 2 ^ 64) : ITok (inSize old) (.count v) (UInt64.ofNat v.length) := by
  have := inSize_item old (UInt64.ofNat v.length)
  unfold Item.size at this
  rwa [ofNat_toNat_lt h] at this

theorem inDoubleAt_item (d : Double) (i : UInt64) (v : List Double) (h : i.toNat < v.length) :
    ReadsI (inDoubleAt i v) [.real d] (v.set i.toNat d) := by
  unfold inDoubleAt
  rw [List.getElem?_eq_getElem h]
  exact ReadsI.map (inDouble_item _ d).readsI rfl

theorem inSizeAt_item (x : UInt64) (i : UInt64) (v : List UInt64) (h : i.toNat < v.length) :
    ReadsI (inSizeAt i v) [.size x] (v.set i.toNat x) := by
  unfold inSizeAt
  rw [List.getElem?_eq_getElem h]
  exact ReadsI.map (inSize_item _ x).readsI rfl

theorem readsI_ints' (cs old : List Int32) (h : old.length = cs.length) : ReadsI (forEach inInt old) (cs.map .int) cs := by
  induction cs generalizing old with
  | nil =>
    have : old = [] := List.length_eq_zero_iff.mp h
    subst this
    exact ReadsI.pure _
  | cons c cs ih =>
    cases old with
    | nil => simp at h
    | cons o old =>
      exact ReadsI.cons (inInt_item o c) (ReadsI.map (ih old (by simpa using h)) rfl)

theorem readsI_loopN {σ γ : Type} {f : Nat → σ → Rd σ} {toks : γ → List Item} (Inv : List γ → σ → Prop) :
    ∀ (cs pre : List γ) (st : σ),
    (∀ pre' c post st, pre ++ cs = pre' ++ c :: post → Inv pre' st →
      ∃ st', ReadsI (f pre'.length st) (toks c) st' ∧ Inv (pre' ++ [c]) st') →
    Inv pre st → ∃ st', ReadsI (loopN f cs.length pre.length st) (cs.flatMap toks) st' ∧ Inv (pre ++ cs) st' := by
  intro cs
  induction cs with
  | nil =>
    intro pre st _ h0
    exact ⟨st, ReadsI.pure _, by simpa using h0⟩
  | cons c cs ih =>
    intro pre st h h0
    obtain ⟨st1, h1, i1⟩ := h pre c cs st rfl h0
    obtain ⟨st2, h2, i2⟩ := ih (pre ++ [c]) st1 (by simpa using h) i1
    refine ⟨st2, ?_, by simpa using i2⟩
    rw [List.length_append, List.length_singleton] at h2
    exact ReadsI.bind h1 h2

theorem readsI_loopN_bind {σ γ β : Type} {f : Nat → σ → Rd σ} {k : σ → Rd β} {toks : γ → List Item} {b : β} {ts : List Item}
    (cs : List γ) (st : σ) (Inv : List γ → σ → Prop) (h0 : Inv [] st)
    (h : ∀ pre c post st, cs = pre ++ c :: post → Inv pre st →
      ∃ st', ReadsI (f pre.length st) (toks c) st' ∧ Inv (pre ++ [c]) st')
    (hk : ∀ st, Inv cs st → ReadsI (k st) ts b) :
    ReadsI (loopN f cs.length 0 st >>= k) (cs.flatMap toks ++ ts) b := by
  obtain ⟨st', h1, h2⟩ := readsI_loopN Inv cs [] st h h0
  exact ReadsI.bind h1 (hk st' h2)

theorem loadMeshFormat22_items (old : MeshFormat) (d : Int32) :
    ReadsI (loadMeshFormat old) [.word (b! "2.2"), .whole 0, .int d] ⟨b! "2.2", 0, d⟩ := by
  unfold loadMeshFormat
  refine ReadsI.cons (inString_item _ ⟨by decide, by decide⟩) ?_
  rw [if_neg (by decide)]
  refine ReadsI.cons (inInt_item _ 0) (ReadsI.cons (inInt_item _ d) ?_)
  rw [if_neg (by simp), if_neg (by decide)]
  exact ReadsI.pure _

theorem loadNodesAscii22_items (cfg : Cfg) (ns : List MeshNode)
    (h3 : 3 * ns.length ≤ cfg.maxCount) (h1 : 1 ≤ cfg.maxCount) (n0 : Nodes)
    (hn0 : n0 = { minNodeTag := sizeMax, maxNodeTag := 0 }) :
    ReadsI (loadNodesAscii22 cfg n0) (.count ns :: ns.flatMap MeshNode.items) (rawNodes ns) := by
  have hlt := cfg.maxCount_lt
  have hnum : (UInt64.ofNat ns.length).toNat = ns.length := ofNat_toNat_lt (by omega)
  have hnum3 : (UInt64.ofNat ns.length * 3).toNat = 3 * ns.length := by
    have e3 : (3 : UInt64).toNat = 3 := rfl
    rw [mul_toNat (by rw [hnum, e3]; omega), hnum, e3]; omega
  subst hn0
  unfold loadNodesAscii22
  refine ReadsI.silent (silent_pushBack cfg _ _ (by simp; omega)) (ReadsI.cons (inSize_count _ ns (by omega)) ?_)
  refine ReadsI.silent (silent_assertGood cfg) (ReadsI.silent (silent_resize_nil cfg _ _ (by omega))
    (ReadsI.silent (silent_resize_nil cfg _ _ (by omega)) ?_))
  rw [hnum, hnum3]
  refine ReadsI.cast (t1 := ns.flatMap MeshNode.items ++ []) (readsI_loopN_bind ns _
    (NodeInv ns.length id) ⟨by simp, by simp⟩ ?_ ?_) (List.append_nil _) rfl
  rotate_left
  · rintro st hi
    exact (ReadsI.pure _).cast rfl ((rawNodes_of_inv ns _ st hi).trans (by rw [List.map_id]))
  rintro pre c post ⟨tags, data⟩ e ⟨i1, i2⟩
  simp only at i1 i2
  have hl : ns.length = pre.length + (post.length + 1) := by
    have := congrArg List.length e
    simpa using this
  obtain ⟨a0, a1, a2⟩ := tok_at3 pre.length (by omega)
  have hp : (UInt64.ofNat pre.length).toNat = pre.length := ofNat_toNat_lt (by omega)
  have l1 : tags.length = ns.length := by rw [i1]; simp; omega
  have l2 : data.length = 3 * ns.length := by rw [i2, List.length_append, coords_length]; simp; omega
  refine ⟨(((tags.set pre.length c.tag)), ((data.set (3 * pre.length) c.x).set (3 * pre.length + 1) c.y).set (3 * pre.length + 2) c.z), ?_, ?_, ?_⟩
  · have t1 := inSizeAt_item c.tag (UInt64.ofNat pre.length) tags (by omega)
    have t2 := inDoubleAt_item c.x (UInt64.ofNat pre.length * 3) data (by omega)
    have t3 := inDoubleAt_item c.y (UInt64.ofNat pre.length * 3 + 1) (data.set (3 * pre.length) c.x) (by rw [List.length_set]; omega)
    have t4 := inDoubleAt_item c.z (UInt64.ofNat pre.length * 3 + 2) ((data.set (3 * pre.length) c.x).set (3 * pre.length + 1) c.y) (by rw [List.length_set, List.length_set]; omega)
    rw [hp] at t1
    rw [a0] at t2
    rw [a1] at t3
    rw [a2] at t4
    exact ReadsI.bind t1 (ReadsI.bind t2 (ReadsI.bind t3 (ReadsI.last t4 (ReadsI.silent (silent_assertGood cfg) (ReadsI.pure _)))))
  · show tags.set pre.length c.tag = _
    rw [i1, set_replicate _ _ _ (by simp) (by omega)]
    simp only [List.map_append, List.map_cons, List.map_nil, List.length_append, List.length_singleton, id]
    rw [Nat.sub_sub]
  · show ((data.set (3 * pre.length) c.x).set (3 * pre.length + 1) c.y).set (3 * pre.length + 2) c.z = _
    have lc := coords_length (pre.map id)
    rw [List.length_map] at lc
    rw [i2, set_replicate _ _ _ lc.symm (by omega), set_replicate _ _ _ (by simp only [List.length_append, List.length_singleton]; omega) (by omega),
      set_replicate _ _ _ (by simp only [List.length_append, List.length_singleton]; omega) (by omega)]
    have e4 : 3 * (ns.length - pre.length) - 1 - 1 - 1 = 3 * (ns.length - (pre ++ [c]).length) := by
      simp only [List.length_append, List.length_singleton]; omega
    rw [e4]
    simp

theorem loadElementAscii22_items (cfg : Cfg) (pre : List FileElem) (e : FileElem) (st : Ascii22) (ho : e.Ok)
    (hs : e.Small cfg) (hpre : pre.length < cfg.maxCount) (hn : e.nodes.length + 1 ≤ cfg.maxCount) (hi : AsciiInv pre st) :
    ∃ st', ReadsI (loadElementAscii22 cfg st) e.items st' ∧ AsciiInv (pre ++ [e]) st' := by
  have hlt := cfg.maxCount_lt
  obtain ⟨hnp, hn56, _⟩ := nodesPerElement_of_mshNodes ho
  have hnt := sizeOfInt_ofNat hs.2
  obtain ⟨v1, r1, l1⟩ := silent_resize cfg st.tags (sizeOfInt (Int32.ofNat e.tags.length)) 0 (by rw [hnt]; exact hs.1)
  have hnn : (UInt64.ofNat e.nodes.length).toNat = e.nodes.length := ofNat_toNat_lt (by omega)
  obtain ⟨v2, r2, l2⟩ := silent_resize cfg st.nodeIds (UInt64.ofNat e.nodes.length) 0 (by rw [hnn]; omega)
  rw [hnt] at l1
  rw [hnn] at l2
  obtain ⟨i1, i2, i3, i4⟩ := hi
  have hm := makeElement22_ok cfg pre e ho hpre hn
  rw [← i1, ← i2] at hm
  refine ⟨Ascii22.mk (some e.num) (some e.type) (some (Int32.ofNat e.tags.length)) e.tags e.nodes
    (if sizeOfInt e.num < st.lo then sizeOfInt e.num else st.lo) (if st.hi < sizeOfInt e.num then sizeOfInt e.num else st.hi)
    ((pre ++ [e]).map fun e => e.elem.block) (physMaps (pre ++ [e])), ?_, ?_⟩
  · unfold loadElementAscii22 FileElem.items
    refine ReadsI.cons (inIntVar_item _ _) (ReadsI.cons (inIntVar_item _ _) (ReadsI.cons (inIntVar_count _ _ hs.2)
      (ReadsI.silent (silent_useVar _) (ReadsI.silent r1 (ReadsI.bind (readsI_ints' e.tags v1 l1)
      (ReadsI.silent (silent_useVar _) (ReadsI.silent (silent_lift hnp) (ReadsI.silent r2
      (ReadsI.last (readsI_ints' e.nodes v2 l2) (ReadsI.silent (silent_useVar _) (ReadsI.silent (silent_lift hm) (ReadsI.pure _))))))))))))
  · refine ⟨rfl, rfl, ?_, ?_⟩
    · simp only [List.map_append, List.map_cons, List.map_nil, tagRange_snoc, i3]
      rfl
    · simp only [List.map_append, List.map_cons, List.map_nil, tagRange_snoc, i4]
      rfl

theorem loadElementsAscii22_items (cfg : Cfg) (fs : List FileElem) (ho : ∀ f ∈ fs, f.Ok) (hs : ∀ f ∈ fs, f.Small cfg)
    (hfit : elemEntries (fs.map FileElem.elem) ≤ cfg.maxCount) (e0 : Elements) (he0 : e0 = { minElementTag := sizeMax, maxElementTag := 0 }) :
    ReadsI (loadElementsAscii22 cfg e0 {}) (.count fs :: fs.flatMap FileElem.items)
      (rawElements (fs.map FileElem.elem), entitiesFrom (physOf fs)) := by
  have hlt := cfg.maxCount_lt
  have hlen : fs.length ≤ cfg.maxCount := by
    have := elemEntries_length (fs.map FileElem.elem)
    rw [List.length_map] at this
    omega
  have hnum : (sizeU fs).toNat = fs.length := sizeU_toNat (by omega)
  subst he0
  unfold loadElementsAscii22
  refine ReadsI.cons (extractSize_count fs (by omega)) (ReadsI.silent (silent_useVar _) ?_)
  rw [hnum]
  refine ReadsI.cast (t1 := fs.flatMap FileElem.items ++ []) (readsI_loopN_bind fs _
    AsciiInv ⟨rfl, rfl, rfl, rfl⟩ ?_ ?_) (List.append_nil _) rfl
  · intro pre c post st e hi
    have hl : fs.length = pre.length + (post.length + 1) := by
      have := congrArg List.length e
      simpa using this
    have hc : c ∈ fs := by rw [e]; simp
    have hn := elemEntries_mem (List.mem_map_of_mem (f := FileElem.elem) hc)
    simp only [FileElem.elem, List.length_map] at hn
    exact loadElementAscii22_items cfg pre c st (ho c hc) (hs c hc) (by omega) (by omega) hi
  · intro st ⟨i1, i2, i3, i4⟩
    refine ReadsI.silent (a := entitiesFrom (physOf fs)) ?_ ((ReadsI.pure _).cast rfl ?_)
    · apply silent_lift
      rw [i2]
      exact createAllEntities_ok cfg fs hlen
    · rw [i1, i3, i4]
      simp [rawElements, List.map_map, Function.comp_def, sizeU]

/-! ## Parts -/

/-- What a section leaves before the post-processing. -/
def Part22.raw (p : Part22) (s : MshSpec) : MshSpec :=
  match p with
  | .format d => { s with meshFormat := ⟨b! "2.2", 0, d⟩ }
  | .nodes ns => { s with nodes := rawNodes ns }
  | .elements fs => { s with elements := rawElements (fs.map FileElem.elem), entities := entitiesFrom (physOf fs) }
  | .common p => p.add s

/-- There is nothing of this kind yet. -/
def Part22.Free (s : MshSpec) : Part22 → Prop
  | .nodes _ => s.nodes = {}
  | .elements _ => s.elements = {} ∧ s.entities = {}
  | .common p => p.Free s
  | _ => True

theorem Part22.Free.step {cfg : Cfg} {s : MshSpec} {p q : Part22} (hq : q.Free s) (hp : p.Fits cfg) (hqf : q.Fits cfg) (h : p.name = q.name → p.Repeats) :
    q.Free (p.raw s) := by
  cases q with
  | format d => trivial
  | nodes ns =>
    cases p with
    | format d => exact hq
    | nodes ns => exact absurd (h rfl) id
    | elements fs => exact hq
    | common p => cases p <;> first | exact hq | exact absurd hp.1 id
  | elements fs =>
    cases p with
    | format d => exact hq
    | nodes ns => exact hq
    | elements fs => exact absurd (h rfl) id
    | common p => cases p <;> first | exact hq | exact absurd hp.1 id
  | common q =>
    cases p with
    | format d => cases q <;> exact hq
    | nodes ns => cases q <;> first | exact hq | exact absurd hqf.1 id
    | elements fs => cases q <;> first | exact hq | exact absurd hqf.1 id
    | common p => exact Part.Free.step hq h

theorem Room.mono22 {cfg : Cfg} (parts : List Part22) : ∀ s : MshSpec, Room cfg (parts.foldl (fun s p => p.raw s) s) → Room cfg s := by
  induction parts with
  | nil => intro s h; exact h
  | cons p parts ih =>
    intro s h
    have h := ih _ h
    cases p with
    | common p => exact Room.mono [p] s h
    | _ => exact ⟨h.1, h.2, h.3⟩

theorem round_part22 {cfg : Cfg} {p : Part22} (hp : p.Fits cfg) {s : MshSpec} (hv : p.NeedsFormat → s.meshFormat.version = b! "2.2")
    (ht : s.meshFormat.fileType = 0) (hfree : p.Free s) (hroom : Room cfg (p.raw s)) (h1 : 1 ≤ cfg.maxCount)
    (h3 : 3 * p.nodeList.length ≤ cfg.maxCount) (he : elemEntries (p.elemList.map FileElem.elem) ≤ cfg.maxCount) :
    RoundI cfg s p.items (p.raw s) := by
  cases p with
  | format d =>
    refine RoundI.section (name := b! "MeshFormat") (by decide) ?_
    rw [loadSection_meshFormat]
    exact ReadsI.map (loadMeshFormat22_items _ d) rfl
  | nodes ns =>
    refine RoundI.section (name := b! "Nodes") (by decide) ?_
    have hfree : s.nodes = {} := hfree
    have hv := hv trivial
    rw [loadSection_nodes]
    unfold loadNodes
    rw [hfree, hv]
    simp only [List.length_nil, if_true, if_pos ht]
    rw [if_neg (by decide)]
    exact ReadsI.map (loadNodesAscii22_items cfg ns h3 h1 _ rfl) rfl
  | elements fs =>
    refine RoundI.section (name := b! "Elements") (by decide) ?_
    obtain ⟨hf1, hf2⟩ : s.elements = {} ∧ s.entities = {} := hfree
    have hv := hv trivial
    rw [loadSection_elements]
    unfold loadElements
    rw [hf1, hf2, hv]
    simp only [List.length_nil, if_true, if_pos ht]
    rw [if_neg (by decide)]
    exact ReadsI.map (loadElementsAscii22_items cfg fs (fun f hf => (hp f hf).1) (fun f hf => (hp f hf).2) he _ rfl) rfl
  | common p => exact round_part hp.2 (fun h => absurd hp.1 h) ht hfree hroom

theorem Part22.items_ne (p : Part22) : ∃ is i, p.items = is ++ [i] := by
  have h : p.items ≠ [] := by
    cases p with
    | common p =>
      obtain ⟨is, i, h⟩ := p.items_ne
      rw [Part22.items, h]; simp
    | _ => simp [Part22.items]
  exact ⟨p.items.dropLast, p.items.getLast h, (List.dropLast_append_getLast h).symm⟩

/-- Nodes and elements come after a header. -/
def Headed (s : MshSpec) (parts : List Part22) : Prop :=
  s.meshFormat.version = b! "2.2" ∨ ∃ lead d rest, parts = lead ++ .format d :: rest ∧ ∀ p ∈ lead, ¬ p.NeedsFormat

theorem Part22.raw_format {cfg : Cfg} {p : Part22} (hp : p.Fits cfg) (s : MshSpec) :
    (p.raw s).meshFormat = s.meshFormat ∨ ∃ d, p = .format d ∧ (p.raw s).meshFormat = ⟨b! "2.2", 0, d⟩ := by
  cases p with
  | format d => exact Or.inr ⟨d, rfl, rfl⟩
  | common p => left; cases p <;> first | rfl | exact absurd hp.1 id
  | _ => exact Or.inl rfl

theorem Headed.step {cfg : Cfg} {s : MshSpec} {p : Part22} {parts : List Part22} (hp : p.Fits cfg) (h : Headed s (p :: parts)) :
    (p.NeedsFormat → s.meshFormat.version = b! "2.2") ∧ Headed (p.raw s) parts := by
  rcases h with h | ⟨lead, d, rest, h1, h2⟩
  · refine ⟨fun _ => h, Or.inl ?_⟩
    rcases p.raw_format hp s with e | ⟨d, _, e⟩
    · rw [e, h]
    · rw [e]
  · cases lead with
    | nil =>
      injection h1 with h1 h3
      subst h1
      exact ⟨fun h => absurd h id, Or.inl rfl⟩
    | cons q lead =>
      injection h1 with h1 h3
      subst h1
      exact ⟨fun h => absurd h (h2 p (by simp)), Or.inr ⟨lead, d, rest, h3, fun x hx => h2 x (by simp [hx])⟩⟩

theorem elemEntries_append (a b : List MeshElem) : elemEntries (a ++ b) = elemEntries a + elemEntries b := by
  simp [elemEntries]

theorem rounds_parts22 {cfg : Cfg} (h1 : 1 ≤ cfg.maxCount) (parts : List Part22) : ∀ {s : MshSpec},
    Headed s parts → s.meshFormat.fileType = 0 → (∀ p ∈ parts, p.Fits cfg) → (∀ p ∈ parts, p.Free s) →
    parts.Pairwise (fun p q => p.name = q.name → p.Repeats) → Room cfg (parts.foldl (fun s p => p.raw s) s) →
    3 * (nodesIn parts).length ≤ cfg.maxCount → elemEntries ((elementsIn parts).map FileElem.elem) ≤ cfg.maxCount →
    RoundsI cfg s (parts.map Part22.items) (parts.foldl (fun s p => p.raw s) s) ∧
      (parts.foldl (fun s p => p.raw s) s).meshFormat.version = b! "2.2" := by
  induction parts with
  | nil =>
    intro s hv _ _ _ _ _ _ _
    refine ⟨.nil, ?_⟩
    rcases hv with h | ⟨lead, d, rest, h, _⟩
    · exact h
    · simp at h
  | cons p parts ih =>
    intro s hv ht hfit hfree honce hroom h3 he
    obtain ⟨is, i, hpi⟩ := p.items_ne
    obtain ⟨hv1, hv2⟩ := hv.step (hfit p (by simp))
    have e1 : nodesIn (p :: parts) = p.nodeList ++ nodesIn parts := rfl
    have e2 : elementsIn (p :: parts) = p.elemList ++ elementsIn parts := rfl
    rw [e1, List.length_append] at h3
    rw [e2, List.map_append, elemEntries_append] at he
    have hr := round_part22 (hfit p (by simp)) hv1 ht (hfree p (by simp)) (Room.mono22 parts _ hroom) h1 (by omega) (by omega)
    have ht' : (p.raw s).meshFormat.fileType = 0 := by
      rcases p.raw_format (hfit p (by simp)) s with e | ⟨d, _, e⟩
      · rw [e, ht]
      · rw [e]
    rw [List.pairwise_cons] at honce
    obtain ⟨h4, h5⟩ := ih hv2 ht' (fun x hx => hfit x (by simp [hx]))
      (fun x hx => (hfree x (by simp [hx])).step (hfit p (by simp)) (hfit x (by simp [hx])) (honce.1 x hx)) honce.2 hroom (by omega) (by omega)
    refine ⟨?_, h5⟩
    rw [List.map_cons, hpi]
    rw [hpi] at hr
    exact .cons hr h4

/-! ## What is read before the post-processing -/

theorem none_nodes {parts : List Part22} (h : parts.any Part22.isNodes = false) : nodesIn parts = [] := by
  unfold nodesIn
  rw [List.flatMap_eq_nil_iff]
  intro p hp
  rw [List.any_eq_false] at h
  have := h p hp
  cases p <;> simp_all [Part22.isNodes, Part22.nodeList]

theorem none_elements {parts : List Part22} (h : parts.any Part22.isElements = false) : elementsIn parts = [] := by
  unfold elementsIn
  rw [List.flatMap_eq_nil_iff]
  intro p hp
  rw [List.any_eq_false] at h
  have := h p hp
  cases p <;> simp_all [Part22.isElements, Part22.elemList]

/-- Nodes, elements and entities replaced. -/
def MshSpec.withMesh (s : MshSpec) (n : Nodes) (e : Elements) (t : Entities) : MshSpec := { s with nodes := n, elements := e, entities := t }

theorem Part.add_withMesh {p : Part} (h : p.Common) (s : MshSpec) (n : Nodes) (e : Elements) (t : Entities) :
    p.add (s.withMesh n e t) = (p.add s).withMesh n e t := by
  cases p <;> first | rfl | exact absurd h id

theorem raw_fold {cfg : Cfg} (parts : List Part22) : ∀ (s : MshSpec) (n : Nodes) (e : Elements) (t : Entities), (∀ p ∈ parts, p.Fits cfg) →
    parts.Pairwise (fun p q => p.name = q.name → p.Repeats) →
    parts.foldl (fun s p => p.raw s) (s.withMesh n e t) = (parts.foldl (fun s p => p.add s) s).withMesh
      (if parts.any Part22.isNodes then rawNodes (nodesIn parts) else n)
      (if parts.any Part22.isElements then rawElements ((elementsIn parts).map FileElem.elem) else e)
      (if parts.any Part22.isElements then entitiesFrom (physOf (elementsIn parts)) else t) := by
  induction parts with
  | nil => intro s n e t _ _; rfl
  | cons p parts ih =>
    intro s n e t hfit honce
    rw [List.pairwise_cons] at honce
    have ih := fun s n e t => ih s n e t (fun x hx => hfit x (by simp [hx])) honce.2
    rw [List.foldl_cons, List.foldl_cons]
    cases p with
    | format d => exact ih ((Part22.format d).add s) n e t
    | nodes ns =>
      have hno : parts.any Part22.isNodes = false := by
        rw [List.any_eq_false]
        intro q hq hb
        cases q with
        | nodes ms => exact honce.1 _ hq rfl
        | _ => cases hb
      have e1 : nodesIn (.nodes ns :: parts) = ns := by
        show ns ++ nodesIn parts = ns
        rw [none_nodes hno, List.append_nil]
      rw [e1]
      have := ih s (rawNodes ns) e t
      rw [hno] at this
      exact this
    | elements fs =>
      have hno : parts.any Part22.isElements = false := by
        rw [List.any_eq_false]
        intro q hq hb
        cases q with
        | elements ms => exact honce.1 _ hq rfl
        | _ => cases hb
      have e1 : elementsIn (.elements fs :: parts) = fs := by
        show fs ++ elementsIn parts = fs
        rw [none_elements hno, List.append_nil]
      rw [e1]
      have := ih s n (rawElements (fs.map FileElem.elem)) (entitiesFrom (physOf fs))
      rw [hno] at this
      exact this
    | common p =>
      have hp : p.Common ∧ p.Fits cfg := hfit (.common p) (by simp)
      show parts.foldl _ (p.add (s.withMesh n e t)) = _
      rw [Part.add_withMesh hp.1]
      exact ih _ n e t

end MshIO
