import Verif.Proofs.Again
import Verif.Proofs.Binary22

/-! Two version 2.2 binary files are the same exactly if the contents agree and the element blocks have the same sizes. -/

namespace MshIO

/-- Groups with the same elements and the same bytes have the same sizes. -/
theorem groups_sizes : ∀ gs hs : List FileGroup, (∀ g ∈ gs, g.elems ≠ [] ∧ g.elems.length < 2 ^ 31) → (∀ g ∈ hs, g.elems ≠ [] ∧ g.elems.length < 2 ^ 31) →
    gs.flatMap FileGroup.elems = hs.flatMap FileGroup.elems → gs.flatMap FileGroup.bytes = hs.flatMap FileGroup.bytes →
    gs.map (·.elems.length) = hs.map (·.elems.length)
  | [], [], _, _, _, _ => rfl
  | [], g :: hs, _, h, he, _ => by
    rw [List.flatMap_nil, List.flatMap_cons] at he
    exact absurd (List.append_eq_nil_iff.mp he.symm).1 (h g (by simp)).1
  | g :: gs, [], h, _, he, _ => by
    rw [List.flatMap_nil, List.flatMap_cons] at he
    exact absurd (List.append_eq_nil_iff.mp he).1 (h g (by simp)).1
  | g :: gs, h :: hs, hg, hh, he, hb => by
    rw [List.flatMap_cons, List.flatMap_cons] at he hb
    unfold FileGroup.bytes at hb
    simp only [List.append_assoc] at hb
    obtain ⟨_, hb⟩ := encI32_append_inj hb
    obtain ⟨hlen, hb⟩ := encI32_append_inj hb
    obtain ⟨_, hb⟩ := encI32_append_inj hb
    have hlen : g.elems.length = h.elems.length := by
      have h1 := (hg g (by simp)).2
      have h2 := (hh h (by simp)).2
      have := congrArg Int32.toInt hlen
      rw [Int32.toInt_ofNat_of_lt h1, Int32.toInt_ofNat_of_lt h2] at this
      exact_mod_cast this
    obtain ⟨h1, h2⟩ := List.append_inj he hlen
    rw [h1, List.append_cancel_left_eq] at hb
    rw [List.map_cons, List.map_cons, hlen, groups_sizes gs hs (fun g hg' => hg g (by simp [hg'])) (fun g hg' => hh g (by simp [hg'])) h2 hb]

/-- Groups of typed elements with the same elements and the same sizes are the same. -/
theorem groups_same : ∀ gs hs : List FileGroup, (∀ g ∈ gs, g.elems ≠ [] ∧ g.ntags = 1 ∧ ∀ e ∈ g.elems, e.type = g.type) →
    (∀ g ∈ hs, g.elems ≠ [] ∧ g.ntags = 1 ∧ ∀ e ∈ g.elems, e.type = g.type) →
    gs.flatMap FileGroup.elems = hs.flatMap FileGroup.elems → gs.map (·.elems.length) = hs.map (·.elems.length) → gs = hs
  | [], [], _, _, _, _ => rfl
  | [], g :: hs, _, _, _, hl => by cases hl
  | g :: gs, [], _, _, _, hl => by cases hl
  | ⟨gt, gn, ge⟩ :: gs, ⟨ht, hn, hel⟩ :: hs, hg, hh, he, hl => by
    rw [List.map_cons, List.map_cons, List.cons.injEq] at hl
    rw [List.flatMap_cons, List.flatMap_cons] at he
    obtain ⟨h1, h2⟩ := List.append_inj he hl.1
    have h1 : ge = hel := h1
    subst h1
    obtain ⟨g1, g2, g3⟩ := hg ⟨gt, gn, ge⟩ (by simp)
    obtain ⟨i1, i2, i3⟩ := hh ⟨ht, hn, ge⟩ (by simp)
    obtain ⟨e, es, rfl⟩ := List.exists_cons_of_ne_nil g1
    have hty : gt = ht := (g3 e (by simp)).symm.trans (i3 e (by simp))
    have hnn : gn = hn := g2.trans i2.symm
    rw [hty, hnn, groups_same gs hs (fun g hg' => hg g (by simp [hg'])) (fun g hg' => hh g (by simp [hg'])) h2 hl.2]

variable {cfg : Cfg} {f : Double → Double} {w : UInt64 → UInt64}

theorem block_group_typed (b : ElementBlock) : ∀ e ∈ b.group.elems, e.type = b.group.type := by
  intro e he
  obtain ⟨m, hm, rfl⟩ := List.mem_map.mp he
  obtain ⟨i, _, rfl⟩ := List.mem_map.mp hm
  rfl

theorem block_group_length (b : ElementBlock) : b.group.elems.length = b.numElementsInBlock.toNat := by
  show (List.map _ _).length = _
  rw [List.length_map, b.list_length]

/-- Two binary version 2.2 files of specs with the same content. -/
theorem same_binary22 {s t : MshSpec} {d : Int32} (hs : s.meshFormat = ⟨b! "2.2", 1, d⟩) (ht : t.meshFormat = ⟨b! "2.2", 1, d⟩)
    (sok : s.Ok) (tok : t.Ok) (sf : s.Fits cfg) (tf : t.Fits cfg) (sc : s.Counted) (tc : t.Counted)
    (sb : ∀ b ∈ s.elements.entityBlocks, 0 < b.numElementsInBlock.toNat ∧ b.numElementsInBlock.toNat < 2 ^ 31)
    (tb : ∀ b ∈ t.elements.entityBlocks, 0 < b.numElementsInBlock.toNat ∧ b.numElementsInBlock.toNat < 2 ^ 31)
    (hw : ∀ x, intOfSize (w x) = intOfSize x)
    (sr : SameText cfg.fmt f s.realTags) (tr : SameText cfg.fmt f t.realTags)
    (h : s.convert22 cfg.nanospline w w f id = t.convert22 cfg.nanospline w w f id) :
    saveMsh cfg s = saveMsh cfg t ↔
      s.elements.entityBlocks.map (·.numElementsInBlock) = t.elements.entityBlocks.map (·.numElementsInBlock) := by
  have sv : s.meshFormat.version = b! "2.2" := by rw [hs]
  have st : s.meshFormat.fileType = 1 := by rw [hs]
  have tv : t.meshFormat.version = b! "2.2" := by rw [ht]
  have tt : t.meshFormat.fileType = 1 := by rw [ht]
  have hm : s.meshFormat = t.meshFormat := hs.trans ht.symm
  have hp : s.physicalGroups = t.physicalGroups := by
    have := congrArg MshSpec.physicalGroups h
    exact this
  have hnl : s.nodes22 w id = t.nodes22 w id := by
    rw [← convert22_nodes_list (ext := cfg.nanospline) (t := w) (f := f) sok sc, h, convert22_nodes_list tok tc]
  have hel : s.elems22 w = t.elems22 w := by
    rw [← convert22_elements_list (ext := cfg.nanospline) (t := w) (f := f) (g := id) sok sc, h, convert22_elements_list tok tc]
  have nb : ∀ u : MshSpec, (u.nodes22 w id).flatMap nodeBytes = u.nodes.list.flatMap nodeBytes := by
    intro u
    unfold MshSpec.nodes22
    rw [List.flatMap_map]
    refine List.flatMap_congr fun n _ => ?_
    simp only [nodeBytes, hw, id]
  have nl : ∀ u : MshSpec, (u.nodes22 w id).length = u.nodes.list.length := fun u => List.length_map _
  have el : ∀ u : MshSpec, (u.elems22 w).length = u.elements.list.length := fun u => List.length_map _
  have ef : ∀ u : MshSpec, (u.elems22 w).map MeshElem.file = u.elements.list.map MeshElem.file := by
    intro u
    show List.map _ (List.map (MeshElem.reload w) _) = _
    rw [List.map_map]
    exact List.map_congr_left fun e _ => file_reload hw e
  have hn : whenW (s.nodes.numNodes > 0) (saveNodes cfg s.meshFormat s.nodes) = whenW (t.nodes.numNodes > 0) (saveNodes cfg t.meshFormat t.nodes) := by
    rw [nodes22_bytes sv st sok sf sc, nodes22_bytes tv tt tok tf tc, ← nb s, ← nb t, ← nl s, ← nl t, hnl]
  have e0 : ∀ u : MshSpec, u.meshFormat.version = b! "2.2" → ∀ c e, whenW c (saveEntities cfg u.meshFormat e) = pure () := by
    intro u hv c e
    unfold saveEntities whenW
    rw [if_pos hv, ite_self]
  have htail : saveTail cfg s = saveTail cfg t :=
    (tail_binary (s := s) (s' := s.front22 w id) st rfl sr hw).symm.trans
      ((congrArg (saveTail cfg) h).trans (tail_binary (s := t) (s' := t.front22 w id) tt rfl tr hw))
  have he := elements22_bytes (cfg := cfg) sv st sok sf sc fun b hb => (sb b hb).2
  have he' := elements22_bytes (cfg := cfg) tv tt tok tf tc fun b hb => (tb b hb).2
  have hlen : s.elements.list.length = t.elements.list.length := by rw [← el s, ← el t, hel]
  have hfile : (s.elements.entityBlocks.map ElementBlock.group).flatMap FileGroup.elems =
      (t.elements.entityBlocks.map ElementBlock.group).flatMap FileGroup.elems := by
    rw [groups_elems, groups_elems]
    show s.elements.list.map _ = t.elements.list.map _
    rw [← ef s, ← ef t, hel]
  have hsz : (s.elements.entityBlocks.map ElementBlock.group).map (·.elems.length) = (t.elements.entityBlocks.map ElementBlock.group).map (·.elems.length) ↔
      s.elements.entityBlocks.map (·.numElementsInBlock) = t.elements.entityBlocks.map (·.numElementsInBlock) := by
    have key : ∀ u : List ElementBlock, (u.map ElementBlock.group).map (·.elems.length) = (u.map (·.numElementsInBlock)).map UInt64.toNat := by
      intro u
      rw [List.map_map, List.map_map]
      exact List.map_congr_left fun b _ => block_group_length b
    rw [key, key]
    exact (List.map_injective_iff.mpr fun a b h => UInt64.toNat_inj.mp h).eq_iff
  have gok : ∀ u : MshSpec, (∀ b ∈ u.elements.entityBlocks, 0 < b.numElementsInBlock.toNat ∧ b.numElementsInBlock.toNat < 2 ^ 31) →
      ∀ g ∈ u.elements.entityBlocks.map ElementBlock.group, (g.elems ≠ [] ∧ g.elems.length < 2 ^ 31) ∧ g.ntags = 1 ∧ ∀ e ∈ g.elems, e.type = g.type := by
    intro u hu g hg
    obtain ⟨b, hb, rfl⟩ := List.mem_map.mp hg
    have h1 := hu b hb
    rw [← block_group_length b] at h1
    exact ⟨⟨fun h0 => by rw [h0] at h1; exact absurd h1.1 (by simp), h1.2⟩, rfl, block_group_typed b⟩
  rw [← hsz, saveMsh_eq, saveMsh_eq, htail]
  constructor
  · intro heq
    rw [hm, hp] at heq
    have heq := wr_cancel (saveMeshFormat_goes _).writes heq
    have heq := wr_cancel (Goes.writes (by
      unfold whenW
      split
      · exact savePhysicalGroups_goes _
      · exact Writes.pure.goes)) heq
    rw [e0 t tv, e0 t tv] at heq
    have heq := wr_cancel Writes.pure heq
    rw [← hm, hn] at heq
    have hnw : Goes (whenW (t.nodes.numNodes > 0) (saveNodes cfg t.meshFormat t.nodes)) := by
      rw [nodes22_bytes (cfg := cfg) tv tt tok tf tc]
      generalize decide (t.nodes.list.length > 0) = c
      cases c <;> rfl
    rw [hm] at heq
    have heq := wr_cancel hnw.writes heq
    rw [← hm, he, hm, he', hlen] at heq
    by_cases h0 : t.elements.list.length > 0
    · rw [decide_eq_true h0] at heq
      have heq := wr_cancel_right (e := (_, .ok ())) (e' := (_, .ok ())) rfl rfl heq
      simp only [List.append_assoc, List.append_cancel_left_eq] at heq
      have heq := List.append_cancel_right heq
      exact groups_sizes _ _ (fun g hg => (gok s sb g hg).1) (fun g hg => (gok t tb g hg).1) hfile heq
    · have nil : ∀ u : MshSpec, (∀ b ∈ u.elements.entityBlocks, 0 < b.numElementsInBlock.toNat ∧ b.numElementsInBlock.toNat < 2 ^ 31) →
          u.elements.list.length = 0 → u.elements.entityBlocks = [] := by
        intro u hu hz
        rw [u.elements.list_length] at hz
        by_contra hne
        obtain ⟨b, l, hb⟩ := List.exists_cons_of_ne_nil hne
        have := hu b (by rw [hb]; simp)
        rw [hb, List.map_cons, List.sum_cons] at hz
        omega
      rw [nil s sb (by omega), nil t tb (by omega)]
  · intro hg
    have hgr := groups_same _ _ (fun g hg => ⟨(gok s sb g hg).1.1, (gok s sb g hg).2⟩) (fun g hg => ⟨(gok t tb g hg).1.1, (gok t tb g hg).2⟩) hfile hg
    refine wr_seq (by rw [hm]) fun _ => wr_seq (by rw [hp]) fun _ => wr_seq ((e0 s sv _ _).trans (e0 t tv _ _).symm) fun _ => wr_seq hn fun _ =>
      wr_seq ?_ fun _ => rfl
    rw [he, he', hlen, hgr]

end MshIO
