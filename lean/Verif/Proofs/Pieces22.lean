import Verif.Spec.Pieces22
import Verif.Proofs.PiecesFile
import Verif.Proofs.Spell22

/-!
# Reading whole binary files of version 2.2
-/

namespace MshIO

theorem count_size {α : Type} {v : List α} (h : v.length < 2 ^ 64) : Item.count v = Item.size (UInt64.ofNat v.length) := by
  unfold Item.count Item.size
  rw [ofNat_toNat_lt h]

theorem nodes_count {cfg : Cfg} (h1 : 1 ≤ cfg.maxCount) {n0 : Nodes} (hn0 : n0.entityBlocks = []) {N : UInt64} {w t R : Bytes} (hw : Ws w) (hR : WsHead R)
    (ht : Item.Spelled (.size N) t) : loadNodesBinary22 cfg n0 (gs (w ++ t ++ R)) = loadNodesBinary22 cfg n0 (gs (w ++ decU64 N ++ R)) := by
  unfold loadNodesBinary22
  have hp : ∀ s, _ := silent_pushBack cfg n0.entityBlocks ({} : NodeBlock) (by rw [hn0]; exact h1)
  rw [Rd.bind_ok (hp _), Rd.bind_ok (hp _), Rd.bind_ok (inSize_item 0 N t ht w R hw hR), Rd.bind_ok (inSize_tok 0 N w R hw hR)]

theorem elements_count {cfg : Cfg} {e0 : Elements} {ents : Entities} {N : UInt64} {w t R : Bytes} (hw : Ws w) (hR : WsHead R)
    (ht : Item.Spelled (.size N) t) : loadElementsBinary22 cfg e0 ents (gs (w ++ t ++ R)) = loadElementsBinary22 cfg e0 ents (gs (w ++ decU64 N ++ R)) := by
  unfold loadElementsBinary22
  rw [Rd.bind_ok (inSize_item _ N t ht w R hw hR), Rd.bind_ok (inSize_tok _ N w R hw hR)]

theorem MeshNode.wrap_small {n : MeshNode} (h : n.tag.toNat < 2 ^ 31) : n.wrap = n := by
  obtain ⟨t, x, y, z⟩ := n
  simp [MeshNode.wrap, wrap32_small h]

theorem loadNodesBinary22_pieces (cfg : Cfg) (ns : List MeshNode) (hs : ∀ n ∈ ns, n.tag.toNat < 2 ^ 31) (h3 : 3 * ns.length ≤ cfg.maxCount) (h1 : 1 ≤ cfg.maxCount)
    (n0 : Nodes) (hn0 : n0 = { minNodeTag := sizeMax, maxNodeTag := 0 }) :
    ReadsP (loadNodesBinary22 cfg n0) [.item (.count ns), .data (ns.flatMap node22Bytes)] (rawNodes ns) := by
  have hlt := cfg.maxCount_lt
  intro g g' r rest hw hr hne
  cases hw with
  | @item _ _ _ _ w t _ k1 k2 k3 k4 =>
    cases k4 with
    | @data _ _ c _ _ _ m1 m2 =>
      cases m2
      rw [count_size (by omega)] at k3
      have e : ns.flatMap node22Bytes = ns.flatMap nodeBytes := flatMap_congr' fun n _ => (nodeBytes_eq n).symm
      have e2 : ns.map MeshNode.wrap = ns := by
        conv_rhs => rw [← List.map_id ns]
        exact List.map_congr_left fun n hn => MeshNode.wrap_small (hs n hn)
      have := loadNodesBinary22_reads cfg ns h3 h1 n0 hn0 [c] ⟨c, rfl, m1.eat⟩ w rest k1 hne
      rw [e2] at this
      rw [← this, e]
      have := nodes_count (cfg := cfg) h1 (n0 := n0) (by rw [hn0]) (R := [c] ++ ns.flatMap nodeBytes ++ rest) k1 ⟨c, _, rfl, m1.space⟩ k3
      simpa using this

theorem le4_eq {n : Nat} (h : n < 2 ^ 31) : le 4 n = encI32 (Int32.ofNat n) := by
  rw [← le32_eq]
  unfold le32
  congr 1
  rw [Int32.toInt_ofNat_of_lt h]
  omega

theorem groupBytes_eq {cfg : Cfg} {g : FileGroup} (h : g.Ok cfg) : g.bytes = g.data := by
  have h1 := h.count
  have h2 := h.tags.2
  unfold FileGroup.bytes FileGroup.data
  rw [le32_eq, le4_eq h1, le4_eq (by omega)]
  have e : g.elems.flatMap elemBytes = g.elems.flatMap FileElem.data := flatMap_congr' fun e _ => by
    unfold elemBytes FileElem.data
    rw [le32_eq, flatMap_congr' (v := e.tags) fun t _ => le32_eq t, flatMap_congr' (v := e.nodes) fun t _ => le32_eq t]
    simp
  rw [e]
  simp

theorem loadElementsBinary22_pieces (cfg : Cfg) (groups : List FileGroup) (hne : groups ≠ []) (hg : ∀ g ∈ groups, g.Ok cfg ∧ ∀ e ∈ g.elems, 0 ≤ e.num.toInt)
    (hfit : elemEntries ((groups.flatMap FileGroup.elems).map FileElem.elem) ≤ cfg.maxCount)
    (e0 : Elements) (he0 : e0 = { minElementTag := sizeMax, maxElementTag := 0 }) :
    ReadsP (loadElementsBinary22 cfg e0 {}) [.item (.count (groups.flatMap FileGroup.elems)), .data (groups.flatMap FileGroup.data)]
      (rawElements ((groups.flatMap FileGroup.elems).map FileElem.elem), entitiesFrom (physOf (groups.flatMap FileGroup.elems))) := by
  have hlt := cfg.maxCount_lt
  have hlen := elemEntries_length ((groups.flatMap FileGroup.elems).map FileElem.elem)
  rw [List.length_map] at hlen
  have hne' : groups.flatMap FileGroup.elems ≠ [] := by
    obtain ⟨g, gs', rfl⟩ := List.exists_cons_of_ne_nil hne
    have := (hg g (by simp)).1.ne
    simp [this]
  have hrange := binaryRange_eq hne' fun e he => by
    obtain ⟨g, hm, he⟩ := List.mem_flatMap.mp he
    exact (hg g hm).2 e he
  intro g g' r rest hw hr hrest
  cases hw with
  | @item _ _ _ _ w t _ k1 k2 k3 k4 =>
    cases k4 with
    | @data _ _ c _ _ _ m1 m2 =>
      cases m2
      rw [count_size (by omega)] at k3
      have e : groups.flatMap FileGroup.data = groups.flatMap FileGroup.bytes := flatMap_congr' fun g hm => (groupBytes_eq (hg g hm).1).symm
      have := loadElementsBinary22_reads cfg groups (fun g hm => (hg g hm).1) hfit e0 he0 [c] ⟨c, rfl, m1.eat⟩ w rest k1 hrest
      have e2 : ({ rawElements ((groups.flatMap FileGroup.elems).map FileElem.elem) with
          minElementTag := (binaryRange (groups.flatMap FileGroup.elems)).1
          maxElementTag := (binaryRange (groups.flatMap FileGroup.elems)).2 } : Elements) = rawElements ((groups.flatMap FileGroup.elems).map FileElem.elem) := by
        rw [hrange]
        simp only [rawElements, List.map_map]
        rfl
      rw [e2] at this
      rw [← this, e]
      have := elements_count (cfg := cfg) (e0 := e0) (ents := {}) (R := [c] ++ groups.flatMap FileGroup.bytes ++ rest) k1 ⟨c, _, rfl, m1.space⟩ k3
      simpa using this

/-! ## Parts -/

/-- What a section leaves before the post-processing. -/
def BinaryPart22.raw (p : BinaryPart22) (s : MshSpec) : MshSpec :=
  match p with
  | .format d => { s with meshFormat := ⟨b! "2.2", 1, d⟩ }
  | p => p.asText.raw s

theorem round_binary22 {cfg : Cfg} {p : BinaryPart22} (hp : p.Fits cfg) {s : MshSpec} (hv : ¬ p.AlwaysText → (∀ d, p ≠ .format d) → s.meshFormat.version = b! "2.2")
    (ht : ¬ p.AlwaysText → (∀ d, p ≠ .format d) → s.meshFormat.fileType = 1) (hfree : p.asText.Free s) (hroom : Room cfg (p.raw s)) (h1 : 1 ≤ cfg.maxCount)
    (h3 : 3 * p.asText.nodeList.length ≤ cfg.maxCount) (he : elemEntries (p.asText.elemList.map FileElem.elem) ≤ cfg.maxCount) :
    RoundP cfg s p.pieces (p.raw s) := by
  cases p with
  | format d =>
    refine RoundP.section (name := b! "MeshFormat") (by decide) ?_
    rw [loadSection_meshFormat]
    exact ReadsP.map (loadMeshFormat_pieces _ (Or.inl rfl) d fun h => absurd h (by decide)) rfl
  | nodes ns =>
    refine RoundP.section (name := b! "Nodes") (by decide) ?_
    have hfree : s.nodes = {} := hfree
    have hv := hv id (by simp)
    have ht := ht id (by simp)
    rw [loadSection_nodes]
    unfold loadNodes
    rw [hfree, hv]
    simp only [List.length_nil, if_true, if_neg (show ¬ s.meshFormat.fileType = 0 by rw [ht]; decide)]
    rw [if_neg (by decide)]
    exact ReadsP.map (loadNodesBinary22_pieces cfg ns hp h3 h1 _ rfl) rfl
  | elements groups =>
    refine RoundP.section (name := b! "Elements") (by decide) ?_
    obtain ⟨hf1, hf2⟩ : s.elements = {} ∧ s.entities = {} := hfree
    have hv := hv id (by simp)
    have ht := ht id (by simp)
    rw [loadSection_elements]
    unfold loadElements
    rw [hf1, hf2, hv]
    simp only [List.length_nil, if_true, if_neg (show ¬ s.meshFormat.fileType = 0 by rw [ht]; decide)]
    rw [if_neg (by decide)]
    exact ReadsP.map (loadElementsBinary22_pieces cfg groups hp.1 hp.2 he _ rfl) rfl
  | common p =>
    have hb : p.addB s = p.add s := by cases p <;> first | rfl | exact absurd hp.1 id
    have := round_binary hp.2.1 hp.2.2 (s := s) (fun h => absurd hp.1 h) (fun h _ => Or.inr (hv h (by simp))) (fun h _ => ht h (by simp)) hfree
      (by rw [hb]; exact hroom)
    rw [hb] at this
    exact this

theorem BinaryPart22.Fits.asText {cfg : Cfg} {p : BinaryPart22} (h : p.Fits cfg) : p.asText.Fits cfg := by
  cases p with
  | format d => trivial
  | nodes ns => trivial
  | elements groups =>
    intro f hf
    obtain ⟨g, hg, hf⟩ := List.mem_flatMap.mp hf
    have hk := (h.2 g hg).1
    have e := (hk.same f hf).2
    have := hk.tags
    exact ⟨hk.elems f hf, by omega, by omega⟩
  | common p => exact ⟨h.1, h.2.1⟩

theorem BinaryPart22.pieces_ne (p : BinaryPart22) : ∃ ps i, p.pieces = ps ++ [.item i] := by
  cases p with
  | common p => exact p.pieces_ne
  | _ => exact ⟨_ :: _, _, (List.cons_append ..).symm⟩

/-- Only the header differs. -/
theorem BinaryPart22.raw_text (p : BinaryPart22) (s : MshSpec) : { p.asText.raw s with meshFormat := (p.raw s).meshFormat } = p.raw s := by
  cases p <;> rfl

theorem BinaryPart22.raw_format {cfg : Cfg} {p : BinaryPart22} (hp : p.Fits cfg) (s : MshSpec) :
    (p.raw s).meshFormat = s.meshFormat ∨ ∃ d, p = .format d ∧ (p.raw s).meshFormat = ⟨b! "2.2", 1, d⟩ := by
  cases p with
  | format d => exact Or.inr ⟨d, rfl, rfl⟩
  | nodes ns => exact Or.inl rfl
  | elements groups => exact Or.inl rfl
  | common p =>
    left
    have := hp.1
    cases p <;> first | rfl | exact absurd this id

theorem Part22.Free.header {q : Part22} {s s' : MshSpec} (h : { s with meshFormat := s'.meshFormat } = s') (hq : q.Free s) : q.Free s' := by
  rw [← h]
  cases q with
  | common q => cases q <;> exact hq
  | _ => exact hq

theorem Room.mono22B {cfg : Cfg} (parts : List BinaryPart22) : ∀ s : MshSpec, Room cfg (parts.foldl (fun s p => p.raw s) s) → Room cfg s := by
  induction parts with
  | nil => intro s h; exact h
  | cons p parts ih =>
    intro s h
    have h : Room cfg (p.raw s) := ih _ h
    rw [← p.raw_text s] at h
    exact Room.mono22 [p.asText] s ⟨h.1, h.2, h.3⟩

/-- The header was read, or it comes before everything that is binary. -/
def HeadedB (s : MshSpec) (parts : List BinaryPart22) : Prop :=
  (s.meshFormat.version = b! "2.2" ∧ s.meshFormat.fileType = 1) ∨ ∃ lead d rest, parts = lead ++ .format d :: rest ∧ ∀ p ∈ lead, p.AlwaysText

theorem HeadedB.step {cfg : Cfg} {s : MshSpec} {p : BinaryPart22} {parts : List BinaryPart22} (hp : p.Fits cfg) (h : HeadedB s (p :: parts)) :
    (¬ p.AlwaysText → (∀ d, p ≠ .format d) → s.meshFormat.version = b! "2.2" ∧ s.meshFormat.fileType = 1) ∧ HeadedB (p.raw s) parts := by
  rcases h with ⟨h1, h2⟩ | ⟨lead, d, rest, e, hl⟩
  · refine ⟨fun _ _ => ⟨h1, h2⟩, Or.inl ?_⟩
    rcases p.raw_format hp s with e | ⟨d, _, e⟩
    · rw [e]; exact ⟨h1, h2⟩
    · rw [e]; exact ⟨rfl, rfl⟩
  · cases lead with
    | nil =>
      injection e with e _
      subst e
      exact ⟨fun _ h => absurd rfl (h d), Or.inl ⟨rfl, rfl⟩⟩
    | cons q lead =>
      injection e with e1 e2
      subst e1
      exact ⟨fun h _ => absurd (hl p (by simp)) h, Or.inr ⟨lead, d, rest, e2, fun x hx => hl x (by simp [hx])⟩⟩

theorem rounds_binary22 {cfg : Cfg} (h1 : 1 ≤ cfg.maxCount) (parts : List BinaryPart22) : ∀ {s : MshSpec},
    HeadedB s parts → (∀ p ∈ parts, p.Fits cfg) → (∀ p ∈ parts, p.asText.Free s) →
    (parts.map BinaryPart22.asText).Pairwise (fun p q => p.name = q.name → p.Repeats) → Room cfg (parts.foldl (fun s p => p.raw s) s) →
    3 * (nodesIn (parts.map BinaryPart22.asText)).length ≤ cfg.maxCount →
    elemEntries ((elementsIn (parts.map BinaryPart22.asText)).map FileElem.elem) ≤ cfg.maxCount →
    RoundsP cfg s (parts.map BinaryPart22.pieces) (parts.foldl (fun s p => p.raw s) s) ∧
      (parts.foldl (fun s p => p.raw s) s).meshFormat.version = b! "2.2" ∧ (parts.foldl (fun s p => p.raw s) s).meshFormat.fileType = 1 := by
  induction parts with
  | nil =>
    intro s hv _ _ _ _ _ _
    refine ⟨.nil, ?_⟩
    rcases hv with h | ⟨lead, d, rest, h, _⟩
    · exact h
    · simp at h
  | cons p parts ih =>
    intro s hv hfit hfree honce hroom h3 he
    obtain ⟨is, i, hpi⟩ := p.pieces_ne
    obtain ⟨hv1, hv2⟩ := hv.step (hfit p (by simp))
    have e1 : nodesIn ((p :: parts).map BinaryPart22.asText) = p.asText.nodeList ++ nodesIn (parts.map BinaryPart22.asText) := rfl
    have e2 : elementsIn ((p :: parts).map BinaryPart22.asText) = p.asText.elemList ++ elementsIn (parts.map BinaryPart22.asText) := rfl
    rw [e1, List.length_append] at h3
    rw [e2, List.map_append, elemEntries_append] at he
    have hr := round_binary22 (hfit p (by simp)) (fun a b => (hv1 a b).1) (fun a b => (hv1 a b).2) (hfree p (by simp)) (Room.mono22B parts _ hroom) h1 (by omega) (by omega)
    rw [List.map_cons, List.pairwise_cons] at honce
    obtain ⟨h4, h5⟩ := ih hv2 (fun x hx => hfit x (by simp [hx]))
      (fun x hx => ((hfree x (by simp [hx])).step (hfit p (by simp)).asText (hfit x (by simp [hx])).asText
        (honce.1 x.asText (List.mem_map_of_mem hx))).header (p.raw_text s)) honce.2 hroom (by omega) (by omega)
    refine ⟨?_, h5⟩
    rw [List.map_cons, hpi]
    rw [hpi] at hr
    exact .cons hr h4

theorem rawB_fold (parts : List BinaryPart22) : ∀ s s' : MshSpec, { s with meshFormat := s'.meshFormat } = s' →
    { (parts.map BinaryPart22.asText).foldl (fun s p => p.raw s) s with meshFormat := (parts.foldl (fun s p => p.raw s) s').meshFormat } =
      parts.foldl (fun s p => p.raw s) s' := by
  induction parts with
  | nil => intro s s' h; exact h
  | cons p parts ih =>
    intro s s' h
    rw [List.map_cons, List.foldl_cons, List.foldl_cons]
    apply ih
    rw [← h]
    cases p with
    | common p => cases p <;> rfl
    | _ => rfl

theorem rawB_format {cfg : Cfg} (parts : List BinaryPart22) : ∀ s s' : MshSpec, s'.meshFormat = { s.meshFormat with fileType := 1 } ∨ (∃ d, .format d ∈ parts) →
    (∀ p ∈ parts, p.Fits cfg) → (parts.foldl (fun s p => p.raw s) s').meshFormat =
      { ((parts.map BinaryPart22.asText).foldl (fun s p => p.raw s) s).meshFormat with fileType := 1 } := by
  induction parts with
  | nil =>
    intro s s' h _
    rcases h with h | ⟨d, h⟩
    · exact h
    · cases h
  | cons p parts ih =>
    intro s s' h hfit
    refine ih _ _ ?_ fun q hq => hfit q (by simp [hq])
    rcases h with h | ⟨d, h⟩
    · left
      cases p with
      | format d => rfl
      | nodes ns => exact h
      | elements groups => exact h
      | common p =>
        have := (hfit _ (by simp : BinaryPart22.common p ∈ _)).1
        cases p <;> first | exact h | exact absurd this id
    · rcases List.mem_cons.mp h with rfl | h
      · exact Or.inl rfl
      · exact Or.inr ⟨d, h⟩

end MshIO
