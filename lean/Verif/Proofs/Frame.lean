import Verif.Spec.Sections
import Verif.Proofs.Boundary

/-!
# Each section of a v4.1 file fills one member of the spec
-/

namespace MshIO

theorem put_ite_swap {α : Type} {n m x : Bytes} (h : n ≠ m) (t u s : α) :
    (if n = x then t else if m = x then u else s) = (if m = x then u else if n = x then t else s) := by
  by_cases h1 : n = x
  · by_cases h2 : m = x
    · exact absurd (h1.trans h2.symm) h
    · simp [h1, h2]
  · simp [h1]

theorem put_comm {n m : Bytes} (h : n ≠ m) (t u s : MshSpec) :
    MshSpec.put n t (MshSpec.put m u s) = MshSpec.put m u (MshSpec.put n t s) := by
  unfold MshSpec.put
  simp only [put_ite_swap h]

theorem put_format {n : Bytes} (h : n ≠ b! "MeshFormat") (t s : MshSpec) :
    (MshSpec.put n t s).meshFormat = s.meshFormat := if_neg h

theorem put_ne_get {n m : Bytes} (h : n ≠ m) (t u s : MshSpec) :
    MshSpec.put m (MshSpec.put n t u) s = MshSpec.put m u s := by
  have key : ∀ {α : Type} (x : Bytes) (a b c : α), (if m = x then (if n = x then a else b) else c) = if m = x then b else c := by
    intro α x a b c
    by_cases h2 : m = x
    · subst h2; simp [h]
    · simp [h2]
  unfold MshSpec.put
  simp only [key]

theorem put_self (n : Bytes) (s : MshSpec) : MshSpec.put n s s = s := by
  unfold MshSpec.put
  simp only [ite_self]

theorem ite_same1 {α : Type} {p : Prop} [Decidable p] (a b c : α) :
    (if p then a else if p then b else c) = if p then a else c := by split <;> rfl

theorem ite_same2 {α : Type} {p : Prop} [Decidable p] (a b c : α) :
    (if p then (if p then a else b) else c) = if p then a else c := by split <;> rfl

theorem put_put (n : Bytes) (t u s : MshSpec) :
    MshSpec.put n t (MshSpec.put n u s) = MshSpec.put n t s := by
  unfold MshSpec.put
  simp only [ite_same1]

theorem put_get (n : Bytes) (t u s : MshSpec) :
    MshSpec.put n (MshSpec.put n t u) s = MshSpec.put n t s := by
  unfold MshSpec.put
  simp only [ite_same2]

theorem put_nodes (t s : MshSpec) : MshSpec.put (b! "Nodes") t s = { s with nodes := t.nodes } := by
  simp [MshSpec.put]

theorem put_elements (t s : MshSpec) : MshSpec.put (b! "Elements") t s = { s with elements := t.elements } := by
  simp [MshSpec.put]

theorem put_entities (t s : MshSpec) : MshSpec.put (b! "Entities") t s = { s with entities := t.entities } := by
  simp [MshSpec.put]

theorem put_physicalGroups (t s : MshSpec) : MshSpec.put (b! "PhysicalNames") t s = { s with physicalGroups := t.physicalGroups } := by
  simp [MshSpec.put]

theorem put_nodeData (t s : MshSpec) : MshSpec.put (b! "NodeData") t s = { s with nodeData := t.nodeData } := by
  simp [MshSpec.put]

theorem put_elementData (t s : MshSpec) : MshSpec.put (b! "ElementData") t s = { s with elementData := t.elementData } := by
  simp [MshSpec.put]

theorem put_elementNodeData (t s : MshSpec) : MshSpec.put (b! "ElementNodeData") t s = { s with elementNodeData := t.elementNodeData } := by
  simp [MshSpec.put]

theorem put_nanosplineVersion (t s : MshSpec) : MshSpec.put (b! "NanoSplineFormat") t s = { s with nanosplineVersion := t.nanosplineVersion } := by
  simp [MshSpec.put]

theorem put_curves (t s : MshSpec) : MshSpec.put (b! "Curves") t s = { s with curves := t.curves } := by
  simp [MshSpec.put]

theorem put_patches (t s : MshSpec) : MshSpec.put (b! "Patches") t s = { s with patches := t.patches } := by
  simp [MshSpec.put]

/-- Reading a section into a spec with the same format and the same own member. -/
theorem loadSection_frame (cfg : Cfg) {name : Bytes} (hn : name ≠ b! "MeshFormat") {s1 s2 : MshSpec}
    (hf : s1.meshFormat = s2.meshFormat) (hv : name = b! "Elements" → s1.meshFormat.version = b! "4.1")
    (ho : MshSpec.put name s1 s2 = s2) :
    loadSection cfg (36 :: name) s2 =
      (loadSection cfg (36 :: name) s1 >>= fun t => pure (MshSpec.put name t s2)) := by
  have h41 : name = b! "Elements" → ∀ (e : Elements) (t : Entities), loadElements cfg s1.meshFormat e t =
      (loadElements cfg s1.meshFormat e {} >>= fun q => pure (q.1, t)) := by
    intro he e t
    have hv := hv he
    unfold loadElements
    simp only [if_pos hv]
    split <;> split <;> simp
  by_cases h : name = b! "Nodes"
  · subst h
    have hg : s1.nodes = s2.nodes := by
      rw [put_nodes] at ho; exact (congrArg MshSpec.nodes ho :)
    show (loadNodes cfg s2.meshFormat s2.nodes >>= fun q => pure { s2 with nodes := q }) =
      ((loadNodes cfg s1.meshFormat s1.nodes >>= fun q => pure { s1 with nodes := q }) >>= fun t => pure (MshSpec.put _ t s2))
    rw [← hf, ← hg]
    simp only [bind_assoc, pure_bind, put_nodes, ← hf]
  by_cases h : name = b! "Elements"
  · subst h
    have hg : s1.elements = s2.elements := by
      rw [put_elements] at ho; exact (congrArg MshSpec.elements ho :)
    show (loadElements cfg s2.meshFormat s2.elements s2.entities >>= fun q =>
        pure { s2 with elements := q.1, entities := q.2 }) =
      ((loadElements cfg s1.meshFormat s1.elements s1.entities >>= fun q =>
        pure { s1 with elements := q.1, entities := q.2 }) >>= fun t => pure (MshSpec.put _ t s2))
    rw [← hf, ← hg, h41 rfl _ s2.entities, h41 rfl _ s1.entities]
    simp only [bind_assoc, pure_bind, put_elements, ← hf]
  by_cases h : name = b! "Entities"
  · subst h
    have hg : s1.entities = s2.entities := by
      rw [put_entities] at ho; exact (congrArg MshSpec.entities ho :)
    show (loadEntities cfg s2.meshFormat s2.entities >>= fun q => pure { s2 with entities := q }) =
      ((loadEntities cfg s1.meshFormat s1.entities >>= fun q => pure { s1 with entities := q }) >>= fun t => pure (MshSpec.put _ t s2))
    rw [← hf, ← hg]
    simp only [bind_assoc, pure_bind, put_entities, ← hf]
  by_cases h : name = b! "PhysicalNames"
  · subst h
    have hg : s1.physicalGroups = s2.physicalGroups := by
      rw [put_physicalGroups] at ho; exact (congrArg MshSpec.physicalGroups ho :)
    show (loadPhysicalGroups cfg s2.physicalGroups >>= fun q => pure { s2 with physicalGroups := q }) =
      ((loadPhysicalGroups cfg s1.physicalGroups >>= fun q => pure { s1 with physicalGroups := q }) >>= fun t => pure (MshSpec.put _ t s2))
    rw [← hg]
    simp only [bind_assoc, pure_bind, put_physicalGroups, ← hf]
  by_cases h : name = b! "NodeData"
  · subst h
    have hg : s1.nodeData = s2.nodeData := by
      rw [put_nodeData] at ho; exact (congrArg MshSpec.nodeData ho :)
    show (loadDataSection cfg s2.meshFormat false s2.nodeData >>= fun q => pure { s2 with nodeData := q }) =
      ((loadDataSection cfg s1.meshFormat false s1.nodeData >>= fun q => pure { s1 with nodeData := q }) >>= fun t => pure (MshSpec.put _ t s2))
    rw [← hf, ← hg]
    simp only [bind_assoc, pure_bind, put_nodeData, ← hf]
  by_cases h : name = b! "ElementData"
  · subst h
    have hg : s1.elementData = s2.elementData := by
      rw [put_elementData] at ho; exact (congrArg MshSpec.elementData ho :)
    show (loadDataSection cfg s2.meshFormat false s2.elementData >>= fun q => pure { s2 with elementData := q }) =
      ((loadDataSection cfg s1.meshFormat false s1.elementData >>= fun q => pure { s1 with elementData := q }) >>= fun t => pure (MshSpec.put _ t s2))
    rw [← hf, ← hg]
    simp only [bind_assoc, pure_bind, put_elementData, ← hf]
  by_cases h : name = b! "ElementNodeData"
  · subst h
    have hg : s1.elementNodeData = s2.elementNodeData := by
      rw [put_elementNodeData] at ho; exact (congrArg MshSpec.elementNodeData ho :)
    show (loadDataSection cfg s2.meshFormat true s2.elementNodeData >>= fun q => pure { s2 with elementNodeData := q }) =
      ((loadDataSection cfg s1.meshFormat true s1.elementNodeData >>= fun q => pure { s1 with elementNodeData := q }) >>= fun t => pure (MshSpec.put _ t s2))
    rw [← hf, ← hg]
    simp only [bind_assoc, pure_bind, put_elementNodeData, ← hf]
  by_cases h : name = b! "NanoSplineFormat"
  · subst h
    have hg : s1.nanosplineVersion = s2.nanosplineVersion := by
      rw [put_nanosplineVersion] at ho; exact (congrArg MshSpec.nanosplineVersion ho :)
    show (loadNanosplineFormat s2.nanosplineVersion >>= fun q => pure { s2 with nanosplineVersion := q }) =
      ((loadNanosplineFormat s1.nanosplineVersion >>= fun q => pure { s1 with nanosplineVersion := q }) >>= fun t => pure (MshSpec.put _ t s2))
    rw [← hg]
    simp only [bind_assoc, pure_bind, put_nanosplineVersion, ← hf]
  by_cases h : name = b! "Curves"
  · subst h
    have hg : s1.curves = s2.curves := by
      rw [put_curves] at ho; exact (congrArg MshSpec.curves ho :)
    show (loadCurves cfg s2.meshFormat s2.curves >>= fun q => pure { s2 with curves := q }) =
      ((loadCurves cfg s1.meshFormat s1.curves >>= fun q => pure { s1 with curves := q }) >>= fun t => pure (MshSpec.put _ t s2))
    rw [← hf, ← hg]
    simp only [bind_assoc, pure_bind, put_curves, ← hf]
  by_cases h : name = b! "Patches"
  · subst h
    have hg : s1.patches = s2.patches := by
      rw [put_patches] at ho; exact (congrArg MshSpec.patches ho :)
    show (loadPatches cfg s2.meshFormat s2.patches >>= fun q => pure { s2 with patches := q }) =
      ((loadPatches cfg s1.meshFormat s1.patches >>= fun q => pure { s1 with patches := q }) >>= fun t => pure (MshSpec.put _ t s2))
    rw [← hf, ← hg]
    simp only [bind_assoc, pure_bind, put_patches, ← hf]
  have hp : ∀ t, MshSpec.put name t s2 = s2 := by
    intro t
    unfold MshSpec.put
    simp only [*, if_false]
  have hs : ∀ s, loadSection cfg (36 :: name) s = pure s := by
    intro s
    unfold loadSection
    simp only [List.cons.injEq, true_and, *, if_false]
  rw [hs, hs, pure_bind, hp]

/-- Reading a section in a good stream, stated for the words before the white space that follows. -/
theorem loadRound_start (cfg : Cfg) (s : MshSpec) {name r : Bytes} (hn : ∀ c ∈ name, isSpace c = false)
    (hr : WsHead r) :
    loadRound cfg s (gs (36 :: name ++ r)) =
      (loadSection cfg (36 :: name) s >>= fun t => forwardTo (endTag name) >>= fun _ => pure t) (gs r) := by
  unfold loadRound
  have := inString_tok [] _ (tag_word hn) [] r Ws.nil hr
  rw [List.nil_append] at this
  rw [Rd.bind_ok this]
  simp only
  rw [endMarker_tag]

theorem IsSection.frame {cfg : Cfg} {name A : Bytes} (hn : name ≠ b! "MeshFormat") {s1 s2 t : MshSpec}
    (hf : s1.meshFormat = s2.meshFormat) (hv : s1.meshFormat.version = b! "4.1")
    (ho : MshSpec.put name s1 s2 = s2) (h : IsSection cfg s1 name A t) :
    IsSection cfg s2 name A (MshSpec.put name t s2) := by
  refine ⟨h.start, h.word, ?_⟩
  obtain ⟨w, hw, -, hm⟩ := h.round
  refine ⟨w, hw, rfl, ?_⟩
  obtain ⟨r, hA, c, r', rfl, hc⟩ := h.start
  subst hA
  change loadRound cfg s1 (gs (36 :: name ++ c :: r')) = _ at hm
  show loadRound cfg s2 (gs (36 :: name ++ c :: r')) = _
  have hh : WsHead (c :: r') := ⟨c, r', rfl, hc⟩
  rw [loadRound_start cfg _ h.word hh] at hm ⊢
  rw [loadSection_frame cfg hn hf (fun _ => hv) ho]
  simp only [bind_assoc, pure_bind]
  simp only [Rd.bind_def] at hm ⊢
  revert hm
  cases loadSection cfg (36 :: name) s1 (gs (c :: r')) <;> simp only <;> try (intro hm; cases hm)
  rename_i p
  cases forwardTo (endTag name) p.2 <;> intro hm <;> try (cases hm; done)
  rename_i a
  obtain ⟨⟨⟩, a⟩ := a
  simp only [Rd.pure_def, Outcome.ok.injEq, Prod.mk.injEq] at hm ⊢
  obtain ⟨rfl, rfl⟩ := hm
  exact ⟨rfl, rfl⟩

theorem IsSection.own {cfg : Cfg} {name A : Bytes} (hn : name ≠ b! "MeshFormat") {s t : MshSpec}
    (hv : s.meshFormat.version = b! "4.1") (h : IsSection cfg s name A t) : MshSpec.put name t s = t := by
  obtain ⟨w, hw, -, hm⟩ := h.round
  obtain ⟨w', hw', -, hm'⟩ := (h.frame hn rfl hv (put_self name s)).round
  have := hm.symm.trans hm'
  simp only [Outcome.ok.injEq, Prod.mk.injEq] at this
  exact this.1.symm

/-- Neighbouring sections of different names may be exchanged. -/
theorem chain_swap {cfg : Cfg} {s u : MshSpec} {p q : Bytes × Bytes} {L : List (Bytes × Bytes)}
    (hv : s.meshFormat.version = b! "4.1") (hp : p.1 ≠ b! "MeshFormat") (hq : q.1 ≠ b! "MeshFormat")
    (hpq : p.1 ≠ q.1) (h : Chain cfg s (p :: q :: L) u) : Chain cfg s (q :: p :: L) u := by
  obtain ⟨n, A⟩ := p
  obtain ⟨m, B⟩ := q
  cases h with
  | @cons _ t _ _ _ _ hA h =>
  cases h with
  | @cons _ t' _ _ _ _ hB h =>
  simp only at hp hq hpq
  have e1 := hA.own hp hv
  have f1 : t.meshFormat = s.meshFormat := by rw [← e1]; exact put_format hp _ _
  have hv' : t.meshFormat.version = b! "4.1" := by rw [f1]; exact hv
  have e2 := hB.own hq hv'
  have g1 : MshSpec.put m t s = s := by
    rw [← e1, put_ne_get hpq, put_self]
  have hB' := hB.frame hq f1 hv' g1
  have g2 : MshSpec.put n s (MshSpec.put m t' s) = MshSpec.put m t' s := by
    rw [put_comm hpq, put_self]
  have hA' := hA.frame (s2 := MshSpec.put m t' s) hp (put_format hq _ _).symm hv g2
  refine .cons hB' (.cons hA' ?_)
  rw [put_comm hpq, e1, e2]
  exact h

theorem chain_format {cfg : Cfg} {s u : MshSpec} {L : List (Bytes × Bytes)} (h : Chain cfg s L u)
    (hv : s.meshFormat.version = b! "4.1") (hL : ∀ p ∈ L, p.1 ≠ b! "MeshFormat") :
    u.meshFormat = s.meshFormat := by
  induction h with
  | nil s => rfl
  | @cons s t u name A L hA h ih =>
    have e1 := hA.own (hL (name, A) (by simp)) hv
    have f1 : t.meshFormat = s.meshFormat := by rw [← e1]; exact put_format (hL (name, A) (by simp)) _ _
    rw [ih (by rw [f1]; exact hv) (fun p hp => hL p (by simp [hp])), f1]

theorem chain_append {cfg : Cfg} {s u : MshSpec} {K L : List (Bytes × Bytes)} :
    Chain cfg s (K ++ L) u ↔ ∃ t, Chain cfg s K t ∧ Chain cfg t L u := by
  induction K generalizing s with
  | nil =>
    constructor
    · intro h; exact ⟨s, .nil s, h⟩
    · rintro ⟨t, h1, h2⟩; cases h1; exact h2
  | cons p K ih =>
    constructor
    · intro h
      cases h with
      | cons hA h =>
      obtain ⟨t, h1, h2⟩ := ih.mp h
      exact ⟨t, .cons hA h1, h2⟩
    · rintro ⟨t, h1, h2⟩
      cases h1 with
      | cons hA h =>
      exact .cons hA (ih.mpr ⟨t, h, h2⟩)

theorem reorder_mem {L M : List (Bytes × Bytes)} (h : Reorder L M) : ∀ p, p ∈ L ↔ p ∈ M := by
  induction h with
  | refl L => simp
  | swap K L h => intro p; simp; tauto
  | trans _ _ ih1 ih2 => intro p; rw [ih1, ih2]

theorem chain_reorder {cfg : Cfg} {s u : MshSpec} {L M : List (Bytes × Bytes)} (h : Reorder L M)
    (hv : s.meshFormat.version = b! "4.1") (hL : ∀ p ∈ L, p.1 ≠ b! "MeshFormat") (hc : Chain cfg s L u) :
    Chain cfg s M u := by
  induction h with
  | refl L => exact hc
  | swap K L h =>
    obtain ⟨t, h1, h2⟩ := chain_append.mp hc
    refine chain_append.mpr ⟨t, h1, chain_swap ?_ (hL _ (by simp)) (hL _ (by simp)) h h2⟩
    rw [chain_format h1 hv (fun p hp => hL p (by simp [hp]))]; exact hv
  | trans h1 h2 ih1 ih2 =>
    exact ih2 (fun p hp => hL p ((reorder_mem h1 p).mpr hp)) (ih1 hL hc)

theorem reorder_cons (p : Bytes × Bytes) {L M : List (Bytes × Bytes)} (h : Reorder L M) :
    Reorder (p :: L) (p :: M) := by
  induction h with
  | refl L => exact .refl _
  | swap K L h => exact .swap (p :: K) L h
  | trans _ _ ih1 ih2 => exact .trans ih1 ih2

theorem reorder_of_perm {L M : List (Bytes × Bytes)} (h : L.Perm M) (hn : (L.map Prod.fst).Nodup) :
    Reorder L M := by
  induction h with
  | nil => exact .refl _
  | cons p h ih => exact reorder_cons p (ih (by simp at hn; exact hn.2))
  | swap p q L =>
    refine .swap [] L ?_
    simp at hn
    exact hn.1.1
  | trans h1 h2 ih1 ih2 => exact .trans (ih1 hn) (ih2 ((h1.map _).nodup_iff.mp hn))

theorem loadFull_section {cfg : Cfg} {s t : MshSpec} {name A : Bytes} (h : IsSection cfg s name A t)
    (b : Bytes) : loadFull cfg s (gs (A ++ b)) = loadFull cfg t (gs b) := by
  obtain ⟨w, hw, -, hm⟩ := h.round
  rw [loadFull_round_ok rfl (loadRound_ext hm b)]
  exact loadFull_wsPrefix _ _ hw _

theorem loadFull_chain {cfg : Cfg} {s t : MshSpec} {L : List (Bytes × Bytes)} (h : Chain cfg s L t)
    (b : Bytes) : loadFull cfg s (gs ((L.map Prod.snd).flatten ++ b)) = loadFull cfg t (gs b) := by
  induction h with
  | nil s => rfl
  | cons hA h ih =>
    rw [List.map_cons, List.flatten_cons, List.append_assoc, loadFull_section hA, ih]

end MshIO
