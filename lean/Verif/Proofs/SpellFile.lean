import Verif.Proofs.SpellRead

/-!
# Reading whole text files in any spelling
-/

namespace MshIO

/-- One round of the main loop over items in any spelling, the last one at the end of the file or in front of white space. -/
def RoundI (cfg : Cfg) (s : MshSpec) (is : List Item) (s' : MshSpec) : Prop :=
  ∀ (ps : List (Bytes × Bytes)) (t w rest : Bytes), List.Forall₂ Item.Spelled is (ps.map Prod.fst ++ [t]) → (∀ q ∈ ps, Sep q.2) →
    Ws w → EndHead rest → loadRound cfg s (gs (w ++ flat ps ++ t ++ rest)) = .ok (s', ⟨rest, rest.isEmpty, false⟩)

theorem forall₂_concat {α β : Type} {R : α → β → Prop} {a : List α} {x : α} {b : List β} {y : β}
    (h : List.Forall₂ R (a ++ [x]) (b ++ [y])) : List.Forall₂ R a b ∧ R x y := by
  have hl : a.length = b.length := by simpa using h.length_eq
  have h1 := List.forall₂_take a.length h
  have h2 := List.forall₂_drop a.length h
  rw [List.take_left, hl, List.take_left] at h1
  rw [List.drop_left, hl, List.drop_left] at h2
  exact ⟨h1, by cases h2; assumption⟩

theorem spelled_word {w t : Bytes} (h : Item.Spelled (.word w) t) : t = w := by cases h; rfl

/-- First and last line, and what is between them. -/
theorem frame_split {name : Bytes} {body : List Item} {ps : List (Bytes × Bytes)} {t : Bytes}
    (h : List.Forall₂ Item.Spelled (.word (36 :: name) :: (body ++ [.word (endTag name)])) (ps.map Prod.fst ++ [t])) :
    t = endTag name ∧ ∃ sep ps', ps = (36 :: name, sep) :: ps' ∧ List.Forall₂ Item.Spelled body (ps'.map Prod.fst) := by
  rw [← List.cons_append] at h
  obtain ⟨h1, h2⟩ := forall₂_concat h
  refine ⟨spelled_word h2, ?_⟩
  cases ps with
  | nil => cases h1
  | cons q ps =>
    obtain ⟨a, b⟩ := q
    rw [List.map_cons] at h1
    cases h1 with
    | cons h3 h4 =>
      have h3 := spelled_word h3
      exact ⟨b, ps, by rw [← h3], h4⟩

theorem RoundI.section {cfg : Cfg} {s s' : MshSpec} {name : Bytes} {body : List Item} (hn : ∀ c ∈ name, isSpace c = false)
    (h : ReadsI (loadSection cfg (36 :: name) s) body s') :
    RoundI cfg s (.word (36 :: name) :: (body ++ [.word (endTag name)])) s' := by
  intro ps t w rest hi hs hw hr
  obtain ⟨rfl, sep, ps, rfl, hb⟩ := frame_split hi
  have hsep : Sep sep := hs (36 :: name, sep) (by simp)
  have hps : ∀ q ∈ ps, Sep q.2 := fun q hq => hs q (by simp [hq])
  have e : w ++ flat ((36 :: name, sep) :: ps) ++ endTag name ++ rest =
      w ++ (36 :: name) ++ (sep ++ flat ps ++ (endTag name ++ rest)) := by simp [flat]
  rw [e]
  unfold loadRound
  rw [Rd.bind_ok (inString_tok [] _ (tag_word hn) w _ hw (by rw [List.append_assoc]; exact wsHead_append hsep.head))]
  simp only
  rw [Rd.bind_ok (h _ hb ps rfl hps sep (endTag name ++ rest) hsep.1), endMarker_tag, forwardTo_eq]
  have hl : Ws (lastSep sep ps) := lastSep_of (P := Ws) hsep.1 fun q hq => (hps q hq).1
  have := fwd_skip (endTag_word hn) [] [] (lastSep sep ps) (by simp [endTag]) hl (by simp) rest hr
  rw [flat, List.flatMap_nil, List.append_nil, List.append_assoc] at this
  rw [Rd.bind_ok this]
  rfl

theorem RoundI.other {cfg : Cfg} {s : MshSpec} {name : Bytes} {ws : List Bytes} (hk : name ∉ knownSections cfg.nanospline)
    (hn : ∀ c ∈ name, isSpace c = false) (hw : ∀ w ∈ ws, Word w ∧ w ≠ b! "$End" ++ name) :
    RoundI cfg s (.word (36 :: name) :: (ws.map .word ++ [.word (endTag name)])) s := by
  intro ps t w rest hi hs hww hr
  obtain ⟨rfl, sep, ps, rfl, hb⟩ := frame_split hi
  have hsep : Sep sep := hs (36 :: name, sep) (by simp)
  have e2 : ps.map Prod.fst = ws := by
    have : ∀ (ws ts : List Bytes), List.Forall₂ Item.Spelled (ws.map .word) ts → ts = ws := by
      intro ws
      induction ws with
      | nil => intro ts h; cases h; rfl
      | cons a ws ih =>
        intro ts h
        cases h with
        | cons h1 h2 => rw [spelled_word h1, ih _ h2]
    exact this _ _ hb
  have e : w ++ flat ((36 :: name, sep) :: ps) ++ endTag name ++ rest =
      w ++ ((36 :: name) ++ (sep ++ flat ps ++ endTag name ++ rest)) := by simp [flat]
  have := loadRound_skip (cfg := cfg) (spec := s) hn (loadSection_unknown cfg hk s) hsep (ps := ps) (fun q hq => by
    obtain ⟨h1, h2⟩ := hw q.1 (by rw [← e2]; exact List.mem_map_of_mem hq)
    exact ⟨h1, h2, hs q (by simp [hq])⟩) hr
  rw [e, ← this]
  unfold loadRound
  have hh : WsHead (sep ++ flat ps ++ endTag name ++ rest) := by
    simp only [List.append_assoc]; exact wsHead_append hsep.head
  have h1 := inString_tok [] _ (tag_word hn) w (sep ++ flat ps ++ endTag name ++ rest) hww hh
  have h2 := inString_tok [] _ (tag_word hn) [] (sep ++ flat ps ++ endTag name ++ rest) Ws.nil hh
  rw [List.append_assoc] at h1
  rw [List.nil_append] at h2
  rw [Rd.bind_ok h1, Rd.bind_ok h2]

theorem RoundI.stray {cfg : Cfg} {s : MshSpec} {x : Bytes} (hx : Word x) (hd : ¬ b! "$" <+: x) : RoundI cfg s [.word x] s := by
  intro ps t w rest hi hs hw hr
  have hl := hi.length_eq
  obtain rfl : ps = [] := by
    cases ps with
    | nil => rfl
    | cons q ps => simp at hl
  cases hi with
  | cons h1 h2 =>
    have h1 : t = x := spelled_word h1
    subst h1
    unfold loadRound
    rw [flat, List.flatMap_nil, List.append_nil, Rd.bind_ok (inString_end [] hx hr hw)]
    cases t with
    | nil => exact absurd rfl hx.1
    | cons c r =>
      have hc : c ≠ 36 := by
        rintro rfl
        exact hd ⟨r, rfl⟩
      by_cases h36 : c = 36
      · exact absurd h36 hc
      · simp [h36]
        try rfl

/-! ## Parts -/

/-- There is nothing of this kind yet. -/
def Part.Free (s : MshSpec) : Part → Prop
  | .names _ => s.physicalGroups = []
  | .entities _ => s.entities = {}
  | .nodes _ => s.nodes = {}
  | .elements _ => s.elements = {}
  | .curves _ => s.curves = []
  | .patches _ => s.patches = []
  | _ => True

theorem Part.Free.step {s : MshSpec} {p q : Part} (hq : q.Free s) (h : p.name = q.name → p.Repeats) : q.Free (p.add s) := by
  cases q <;> try trivial
  all_goals
    cases p <;> first
      | exact hq
      | exact absurd (h rfl) id

/-- The room left for data sections. -/
structure Room (cfg : Cfg) (s : MshSpec) : Prop where
  node : s.nodeData.length ≤ cfg.maxCount
  element : s.elementData.length ≤ cfg.maxCount
  elementNode : s.elementNodeData.length ≤ cfg.maxCount

theorem Room.mono {cfg : Cfg} (parts : List Part) : ∀ s : MshSpec, Room cfg (parts.foldl (fun s p => p.add s) s) → Room cfg s := by
  induction parts with
  | nil => intro s h; exact h
  | cons p parts ih =>
    intro s h
    obtain ⟨h1, h2, h3⟩ := ih _ h
    refine ⟨le_trans ?_ h1, le_trans ?_ h2, le_trans ?_ h3⟩ <;> cases p <;> simp [Part.add]

theorem readsI_dataSection {cfg : Cfg} (F : DataField) {s : MshSpec} (ht : s.meshFormat.fileType = 0) {d : Data}
    (hl : (F.get s).length < cfg.maxCount) (hok : d.Ok F.isEN) (hz : F.isEN = false → ∀ e ∈ d.entries, e.numNodesPerElement = 0)
    (hf : d.Fits cfg) : ReadsI (loadSection cfg (36 :: F.name) s) (d.items F.isEN) (F.set s (F.get s ++ [d])) := by
  rw [F.load]
  unfold loadDataSection
  refine ReadsI.map (a := F.get s ++ [d]) ?_ rfl
  refine ReadsI.silent (silent_pushBack cfg _ _ hl) ?_
  exact ReadsI.map (loadData_items cfg _ ht _ d hok hz hf) (by simp)

theorem round_part {cfg : Cfg} {p : Part} (hp : p.Fits cfg) {s : MshSpec} (hv : ¬ p.Common → s.meshFormat.version = b! "4.1")
    (ht : s.meshFormat.fileType = 0) (hfree : p.Free s) (hroom : Room cfg (p.add s)) : RoundI cfg s p.items (p.add s) := by
  have hlt := cfg.maxCount_lt
  cases p with
  | format =>
    refine RoundI.section (name := b! "MeshFormat") (by decide) ?_
    rw [loadSection_meshFormat]
    exact ReadsI.map (loadMeshFormat_items _) rfl
  | names groups =>
    refine RoundI.section (name := b! "PhysicalNames") (by decide) ?_
    have hfree : s.physicalGroups = [] := hfree
    rw [loadSection_physicalNames, hfree]
    exact ReadsI.map (loadPhysicalGroups_items cfg groups hp.fits.groups (hp.fits.len (List.mem_cons_self ..))) rfl
  | entities e =>
    refine RoundI.section (name := b! "Entities") (by decide) ?_
    have hfree : s.entities = {} := hfree
    rw [loadSection_entities, hfree]
    unfold loadEntities
    rw [if_pos (hv id), if_pos ht]
    exact ReadsI.map (loadEntitiesAscii41_items cfg e hp.fits.entities) rfl
  | nodes n =>
    refine RoundI.section (name := b! "Nodes") (by decide) ?_
    have hfree : s.nodes = {} := hfree
    rw [loadSection_nodes]
    unfold loadNodes
    rw [hfree]
    simp only [List.length_nil, if_true, if_pos (hv id), if_pos ht]
    exact ReadsI.map (loadNodesAscii41_items cfg n _ (hp.ok.goodNodes hp.fits) rfl hp.parametric) rfl
  | elements n =>
    refine RoundI.section (name := b! "Elements") (by decide) ?_
    have hfree : s.elements = {} := hfree
    rw [loadSection_elements]
    unfold loadElements
    rw [hfree]
    simp only [List.length_nil, if_true, if_pos (hv id), if_pos ht]
    exact ReadsI.map (ReadsI.map (loadElementsAscii41_items cfg n _ (hp.ok.goodElements hp.fits) rfl) rfl) rfl
  | nodeData d =>
    refine RoundI.section (name := b! "NodeData") (by decide) ?_
    exact readsI_dataSection nodeDataField ht (by have := hroom.node; simp [Part.add] at this; exact this)
      (hp.ok.nodeData d (by simp [Part.add])) (fun _ e he => hp.plain d (by simp [Part.add]) e he) (hp.fits.data (by simp [Part.add]))
  | elementData d =>
    refine RoundI.section (name := b! "ElementData") (by decide) ?_
    exact readsI_dataSection elementDataField ht (by have := hroom.element; simp [Part.add] at this; exact this)
      (hp.ok.elementData d (by simp [Part.add])) (fun _ e he => hp.plain d (by simp [Part.add]) e he) (hp.fits.data (by simp [Part.add]))
  | elementNodeData d =>
    refine RoundI.section (name := b! "ElementNodeData") (by decide) ?_
    exact readsI_dataSection elementNodeDataField ht (by have := hroom.elementNode; simp [Part.add] at this; exact this)
      (hp.ok.elementNodeData d (by simp [Part.add])) (fun h => absurd h (by decide)) (hp.fits.data (by simp [Part.add]))
  | splines v =>
    refine RoundI.section (name := b! "NanoSplineFormat") (by decide) ?_
    unfold loadSection
    rw [if_neg (by decide), if_neg (by decide), if_neg (by decide), if_neg (by decide), if_neg (by decide),
      if_neg (by decide), if_neg (by decide), if_neg (by decide), if_pos rfl]
    exact ReadsI.map ((inString_item _ hp.version).readsI) rfl
  | curves cs =>
    refine RoundI.section (name := b! "Curves") (by decide) ?_
    have hc : cs.length ≤ cfg.maxCount := hp.fits.len (by simp [Part.add])
    have l1 : (sizeU cs).toNat = cs.length := sizeU_toNat (by omega)
    have hfree : s.curves = [] := hfree
    rw [loadSection_curves]
    unfold loadCurves
    rw [hfree, if_pos (hp.extension trivial)]
    simp only [if_pos ht]
    refine ReadsI.map ?_ rfl
    refine ReadsI.cons (extractSize_count _ (by omega)) (ReadsI.silent (silent_useVar _)
      (ReadsI.silent (silent_resize_nil _ _ _ (by omega)) ?_))
    rw [l1]
    exact ReadsI.forEach _ fun c hm => loadCurveAscii_items cfg c (hp.ok.curve c hm) ((hp.ok.tail hp.fits fun _ => hp.version).csOk c hm).2
  | patches cs =>
    refine RoundI.section (name := b! "Patches") (by decide) ?_
    have hc : cs.length ≤ cfg.maxCount := hp.fits.len (by simp [Part.add])
    have l1 : (sizeU cs).toNat = cs.length := sizeU_toNat (by omega)
    have hfree : s.patches = [] := hfree
    rw [loadSection_patches]
    unfold loadPatches
    rw [hfree, if_pos (hp.extension trivial)]
    simp only [if_pos ht]
    refine ReadsI.map ?_ rfl
    refine ReadsI.cons (extractSize_count _ (by omega)) (ReadsI.silent (silent_useVar _)
      (ReadsI.silent (silent_resize_nil _ _ _ (by omega)) ?_))
    rw [l1]
    exact ReadsI.forEach _ fun c hm => loadPatchAscii_items cfg c (hp.ok.patch c hm) ((hp.ok.tail hp.fits fun _ => hp.version).psOk c hm).2
  | other n ws =>
    obtain ⟨h1, h2, h3⟩ := hp.other n ws rfl
    exact RoundI.other h1 h2 h3
  | stray x =>
    obtain ⟨h1, h2⟩ := hp.stray x rfl
    exact RoundI.stray h1 h2

theorem Part.items_ne (p : Part) : ∃ is i, p.items = is ++ [i] := by
  have h : p.items ≠ [] := by cases p <;> simp [Part.items]
  exact ⟨p.items.dropLast, p.items.getLast h, (List.dropLast_append_getLast h).symm⟩

theorem Part.add_format (p : Part) {s : MshSpec} (hv : s.meshFormat.version = b! "4.1") (ht : s.meshFormat.fileType = 0) :
    (p.add s).meshFormat.version = b! "4.1" ∧ (p.add s).meshFormat.fileType = 0 := by
  cases p <;> first
    | exact ⟨hv, ht⟩
    | exact ⟨rfl, rfl⟩

/-- Rounds over lists of items, one after the other. -/
inductive RoundsI (cfg : Cfg) : MshSpec → List (List Item) → MshSpec → Prop
  | nil {s} : RoundsI cfg s [] s
  | cons {s s' s'' : MshSpec} {is : List Item} {i : Item} {iss : List (List Item)} :
      RoundI cfg s (is ++ [i]) s' → RoundsI cfg s' iss s'' → RoundsI cfg s ((is ++ [i]) :: iss) s''

theorem RoundsI.load {cfg : Cfg} {s s' : MshSpec} {iss : List (List Item)} (h : RoundsI cfg s iss s') : ∀ {w : Bytes} {ps : List (Bytes × Bytes)},
    Ws w → (∀ q ∈ ps, Ws q.2) → (∀ q ∈ ps.dropLast, q.2 ≠ []) → List.Forall₂ Item.Spelled iss.flatten (ps.map Prod.fst) →
    finish cfg (loadFull cfg s (gs (w ++ flat ps))) = loadPostProcess cfg s' := by
  induction h with
  | nil =>
    intro w ps hw _ _ hi
    have : ps = [] := by
      cases ps with
      | nil => rfl
      | cons q ps => cases hi
    subst this
    rw [flat, List.flatMap_nil, List.append_nil, loadFull_ws hw]
    rfl
  | @cons s s1 s2 is i iss h1 _ ih =>
    intro w ps hw hws hsep hi
    rw [List.flatten_cons] at hi
    have hlen := hi.length_eq
    rw [List.length_append, List.length_map] at hlen
    set n := (is ++ [i]).length with hn
    have hn1 : n = is.length + 1 := by rw [hn]; simp
    have e1 := List.forall₂_take n hi
    have e2 := List.forall₂_drop n hi
    rw [hn, List.take_left, ← List.map_take, ← hn] at e1
    rw [hn, List.drop_left, ← List.map_drop, ← hn] at e2
    obtain ⟨as, q, has⟩ : ∃ as q, ps.take n = as ++ [q] := by
      have : ps.take n ≠ [] := by
        intro h
        have := congrArg List.length h
        rw [List.length_take] at this
        simp only [List.length_nil] at this
        omega
      exact ⟨_, _, (List.dropLast_append_getLast this).symm⟩
    set bs := ps.drop n with hbs
    have hps : ps = as ++ q :: bs := by
      rw [← List.take_append_drop n ps, has, ← hbs]; simp
    clear_value bs
    subst hps
    rw [has, List.map_append] at e1
    have hasep : ∀ x ∈ as, Sep x.2 := by
      intro x hx
      refine ⟨hws x (by simp [hx]), hsep x ?_⟩
      rw [List.dropLast_append_of_ne_nil (by simp)]
      exact List.mem_append_left _ hx
    have hend : EndHead (q.2 ++ flat bs) := by
      by_cases hq : q.2 = []
      · cases bs with
        | nil => left; simp [hq, flat]
        | cons b bs =>
          exfalso
          refine hsep q ?_ hq
          rw [List.dropLast_append_of_ne_nil (by simp)]
          exact List.mem_append_right _ (by simp)
      · right
        exact wsHead_append (Sep.head ⟨hws q (by simp), hq⟩)
    have hr := h1 as q.1 w (q.2 ++ flat bs) (by simpa using e1) hasep hw hend
    have e : w ++ flat (as ++ q :: bs) = w ++ flat as ++ q.1 ++ (q.2 ++ flat bs) := by simp [flat]
    rw [e, loadFull_round_ok rfl hr, loadFull_rest]
    refine ih (hws q (by simp)) (fun x hx => hws x (by simp [hx])) (fun x hx => hsep x ?_) e2
    rw [List.dropLast_append_of_ne_nil (by simp)]
    refine List.mem_append_right _ ?_
    cases bs with
    | nil => cases hx
    | cons b bs => rw [List.dropLast_cons_of_ne_nil (by simp)]; exact List.mem_cons_of_mem _ hx

theorem rounds_parts {cfg : Cfg} (parts : List Part) : ∀ {s : MshSpec},
    s.meshFormat.version = b! "4.1" → s.meshFormat.fileType = 0 → (∀ p ∈ parts, p.Fits cfg) → (∀ p ∈ parts, p.Free s) →
    parts.Pairwise (fun p q => p.name = q.name → p.Repeats) → Room cfg (parts.foldl (fun s p => p.add s) s) →
    RoundsI cfg s (parts.map Part.items) (parts.foldl (fun s p => p.add s) s) ∧
      (parts.foldl (fun s p => p.add s) s).meshFormat.version = b! "4.1" := by
  induction parts with
  | nil => intro s hv _ _ _ _ _; exact ⟨.nil, hv⟩
  | cons p parts ih =>
    intro s hv ht hfit hfree honce hroom
    obtain ⟨is, i, hpi⟩ := p.items_ne
    have hr := round_part (hfit p (by simp)) (fun _ => hv) ht (hfree p (by simp)) (Room.mono parts _ hroom)
    obtain ⟨hv', ht'⟩ := p.add_format hv ht
    rw [List.pairwise_cons] at honce
    obtain ⟨h1, h2⟩ := ih hv' ht' (fun x hx => hfit x (by simp [hx])) (fun x hx => (hfree x (by simp [hx])).step (honce.1 x hx)) honce.2 hroom
    refine ⟨?_, h2⟩
    rw [List.map_cons, hpi]
    rw [hpi] at hr
    exact .cons hr h1

theorem loadMsh_finish (cfg : Cfg) (b : Bytes) : loadMsh cfg b = finish cfg (loadFull cfg {} (gs b)) := by
  unfold loadMsh
  rw [loadStream_eq]
  rfl

end MshIO
