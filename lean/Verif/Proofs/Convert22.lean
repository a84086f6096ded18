import Verif.Props.RoundTrip22
import Verif.Props.Load22

/-!
# Specs loaded from version 2.2 files meet the requirements for saving
-/

namespace MshIO

theorem Data.convert_ok {isEN : Bool} {t : UInt64 → UInt64} {f g : Double → Double} {d : Data} (h : d.Ok isEN) :
    (d.convert isEN t f g).Ok isEN := by
  obtain ⟨t0, fields, num, more, h1, h2, h3, h4⟩ := h.header
  refine ⟨t0, fields, num, more, h1, ?_, h3, ?_⟩
  · rw [h2]; simp [Data.convert]
  · intro e he
    obtain ⟨e, he', rfl⟩ := List.mem_map.mp he
    have := h4 e he'
    cases isEN <;> simpa using this

theorem Data.convert_sizes {isEN : Bool} {t : UInt64 → UInt64} {f g : Double → Double} {d : Data} :
    (d.convert isEN t f g).sizes = d.sizes := by
  simp [Data.convert, Data.sizes, Function.comp_def]

theorem Curve.convert_ok {g : Double → Double} {c : Curve} (h : c.Ok) : (c.convert g).Ok := by
  unfold Curve.Ok Curve.convert at *
  rw [List.length_map]; exact h

theorem Patch.convert_ok {g : Double → Double} {c : Patch} (h : c.Ok) : (c.convert g).Ok := by
  unfold Patch.Ok Patch.convert at *
  rw [List.length_map]; exact h

section
variable {cfg : Cfg} {s : MshSpec} {ext : Bool} {t w : UInt64 → UInt64} {f g : Double → Double}

theorem convert22_regrouped (hs : s.Ok) (hc : s.Counted) :
    Regrouped (s.nodes22 w g) (s.elems22 w) (s.convert22 ext t w f g) where
  nodes := by
    show (if s.nodes.numNodes = 0 then ({} : Nodes) else nodesOf (s.nodes22 w g) (s.elems22 w)) = _ ∨ _ ∧ (if s.nodes.numNodes = 0 then ({} : Nodes) else nodesOf (s.nodes22 w g) (s.elems22 w)) = _
    split
    · refine Or.inr ⟨?_, rfl⟩
      show List.map _ _ = _
      rw [list_nil (hc.nodes_list hs) (by assumption)]; rfl
    · exact Or.inl rfl
  elements := by
    show (∃ lo hi, (if s.elements.numElements = 0 then ({} : Elements) else elementsOf (s.elems22 w)) = _) ∨ _ ∧ (if s.elements.numElements = 0 then ({} : Elements) else elementsOf (s.elems22 w)) = _
    split
    · refine Or.inr ⟨?_, rfl⟩
      show List.map _ _ = _
      rw [list_nil hc.elements_list (by assumption)]; rfl
    · exact Or.inl ⟨_, _, rfl⟩
  typed := typed_reload hs w

theorem tail_ok (hs : s.Ok) {s0 : MshSpec} :
    (∀ d ∈ (s.withTail ext t f g s0).nodeData, d.Ok false) ∧ (∀ d ∈ (s.withTail ext t f g s0).elementData, d.Ok false) ∧
    (∀ d ∈ (s.withTail ext t f g s0).elementNodeData, d.Ok true) ∧ (∀ c ∈ (s.withTail ext t f g s0).curves, c.Ok) ∧
    (∀ c ∈ (s.withTail ext t f g s0).patches, c.Ok) := by
  refine ⟨?_, ?_, ?_, ?_, ?_⟩
  · intro d hd; obtain ⟨d, hd', rfl⟩ := List.mem_map.mp hd; exact Data.convert_ok (hs.nodeData d hd')
  · intro d hd; obtain ⟨d, hd', rfl⟩ := List.mem_map.mp hd; exact Data.convert_ok (hs.elementData d hd')
  · intro d hd; obtain ⟨d, hd', rfl⟩ := List.mem_map.mp hd; exact Data.convert_ok (hs.elementNodeData d hd')
  · intro c hc
    change c ∈ (if ext then s.curves.map (Curve.convert g) else []) at hc
    cases ext with
    | true => obtain ⟨d, hd', rfl⟩ := List.mem_map.mp hc; exact Curve.convert_ok (hs.curve d hd')
    | false => exact absurd hc (by simp)
  · intro c hc
    change c ∈ (if ext then s.patches.map (Patch.convert g) else []) at hc
    cases ext with
    | true => obtain ⟨d, hd', rfl⟩ := List.mem_map.mp hc; exact Patch.convert_ok (hs.patch d hd')
    | false => exact absurd hc (by simp)

theorem convert22_ok (hs : s.Ok) (hc : s.Counted) (hf : Fits22 cfg (s.nodes22 w g) (s.elems22 w)) : (s.convert22 ext t w f g).Ok :=
  let h := tail_ok (ext := ext) (t := t) (f := f) (g := g) hs (s0 := s.front22 w g)
  (convert22_regrouped hs hc).ok hf h.1 h.2.1 h.2.2.1 h.2.2.2.1 h.2.2.2.2

theorem convert22_fits (hs : s.Ok) (hc : s.Counted) (hfs : s.Fits cfg) (hf : Fits22 cfg (s.nodes22 w g) (s.elems22 w)) :
    (s.convert22 ext t w f g).Fits cfg where
  groups := hfs.groups
  all := by
    obtain ⟨z1, z2, z3, z4⟩ := (convert22_regrouped (ext := ext) (t := t) (f := f) hs hc).sizes hf
    rw [convert22_eq] at *
    have zd : ∀ isEN, ∀ d ∈ s.nodeData ++ s.elementData ++ s.elementNodeData, ∀ n ∈ (d.convert isEN t f g).sizes, n ≤ cfg.maxCount := by
      intro isEN d hd n hn
      rw [Data.convert_sizes] at hn
      exact hfs.all n (mem_sizes.mpr (Or.inr (Or.inr (Or.inr (Or.inr (Or.inr (Or.inl (List.mem_flatMap.mpr ⟨d, hd, hn⟩))))))))
    intro n hn
    rcases mem_sizes.mp hn with h | h | h | h | h | h | h | h
    · have hlen : ∀ m ∈ [s.physicalGroups.length, s.entities.points.length, s.entities.curves.length,
          s.entities.surfaces.length, s.entities.volumes.length, s.nodes.entityBlocks.length,
          s.elements.entityBlocks.length, s.nodeData.length, s.elementData.length,
          s.elementNodeData.length, s.curves.length, s.patches.length], m ≤ cfg.maxCount := fun m hm => hfs.len hm
      have hcl : (s.withTail ext t f g (s.front22 w g)).curves.length ≤ s.curves.length := by
        show (if ext then s.curves.map (Curve.convert g) else []).length ≤ _
        cases ext <;> simp
      have hpl : (s.withTail ext t f g (s.front22 w g)).patches.length ≤ s.patches.length := by
        show (if ext then s.patches.map (Patch.convert g) else []).length ≤ _
        cases ext <;> simp
      have h : n ∈ [s.physicalGroups.length, 0, 0, 0, 0, (s.withTail ext t f g (s.front22 w g)).nodes.entityBlocks.length,
          (s.withTail ext t f g (s.front22 w g)).elements.entityBlocks.length, (s.nodeData.map (Data.convert false t f g)).length,
          (s.elementData.map (Data.convert false t f g)).length,
          (s.elementNodeData.map (Data.convert true t f g)).length, (s.withTail ext t f g (s.front22 w g)).curves.length,
          (s.withTail ext t f g (s.front22 w g)).patches.length] := h
      simp only [List.mem_cons, List.not_mem_nil, or_false, List.length_map] at h hlen
      rcases h with h | h | h | h | h | h | h | h | h | h | h | h
      · exact hlen n (by simp [h])
      · omega
      · omega
      · omega
      · omega
      · omega
      · omega
      · exact hlen n (by simp [h])
      · exact hlen n (by simp [h])
      · exact hlen n (by simp [h])
      · have := hlen s.curves.length (by simp); omega
      · have := hlen s.patches.length (by simp); omega
    · exact absurd h (by simp [MshSpec.withTail, MshSpec.front22])
    · exact absurd h (by simp [MshSpec.withTail, MshSpec.front22])
    · obtain ⟨b, hb, hn⟩ := List.mem_flatMap.mp h
      have := z3 b hb
      simp only [List.mem_cons, List.not_mem_nil, or_false] at hn
      omega
    · obtain ⟨b, hb, hn⟩ := List.mem_map.mp h
      have := z4 b hb
      omega
    · obtain ⟨d, hd, hn⟩ := List.mem_flatMap.mp h
      simp only [List.mem_append] at hd
      rcases hd with (hd | hd) | hd
      · obtain ⟨d, hd', rfl⟩ := List.mem_map.mp hd; exact zd false d (by simp [hd']) n hn
      · obtain ⟨d, hd', rfl⟩ := List.mem_map.mp hd; exact zd false d (by simp [hd']) n hn
      · obtain ⟨d, hd', rfl⟩ := List.mem_map.mp hd; exact zd true d (by simp [hd']) n hn
    · obtain ⟨c, hc', rfl⟩ := List.mem_map.mp h
      change c ∈ (if ext then s.curves.map (Curve.convert g) else []) at hc'
      cases ext with
      | true =>
        obtain ⟨c, hc'', rfl⟩ := List.mem_map.mp hc'
        refine hfs.all _ (mem_sizes.mpr (Or.inr (Or.inr (Or.inr (Or.inr (Or.inr (Or.inr (Or.inl (List.mem_map.mpr ⟨c, hc'', ?_⟩)))))))))
        simp [Curve.convert]
      | false => exact absurd hc' (by simp)
    · obtain ⟨c, hc', rfl⟩ := List.mem_map.mp h
      change c ∈ (if ext then s.patches.map (Patch.convert g) else []) at hc'
      cases ext with
      | true =>
        obtain ⟨c, hc'', rfl⟩ := List.mem_map.mp hc'
        refine hfs.all _ (mem_sizes.mpr (Or.inr (Or.inr (Or.inr (Or.inr (Or.inr (Or.inr (Or.inr (List.mem_map.mpr ⟨c, hc'', ?_⟩)))))))))
        simp [Patch.convert]
      | false => exact absurd hc' (by simp)

theorem convert22_realTags : (s.convert22 ext t w f g).realTags = s.realTags.map f := by
  show List.flatMap _ (s.nodeData.map (Data.convert false t f g) ++ s.elementData.map (Data.convert false t f g) ++ s.elementNodeData.map (Data.convert true t f g)) = _
  unfold MshSpec.realTags
  simp [List.flatMap_append, List.flatMap_map, Data.convert, List.map_flatMap]

theorem convert22_dataTags : (s.convert22 ext t w f g).dataTags = s.dataTags.map t := by
  show List.flatMap _ (s.nodeData.map (Data.convert false t f g) ++ s.elementData.map (Data.convert false t f g) ++ s.elementNodeData.map (Data.convert true t f g)) = _
  unfold MshSpec.dataTags
  simp [List.flatMap_append, List.flatMap_map, Data.convert, List.map_flatMap, Function.comp_def]

theorem convert22_nodes_list (hs : s.Ok) (hc : s.Counted) : (s.convert22 ext t w f g).nodes.list = s.nodes22 w g :=
  (convert22_regrouped hs hc).nodes_list

theorem convert22_elements_list (hs : s.Ok) (hc : s.Counted) : (s.convert22 ext t w f g).elements.list = s.elems22 w := by
  refine (convert22_regrouped hs hc).elements_list ?_
  rw [elems22_length, ← hc.elements_list]; exact UInt64.toNat_lt _

theorem mem_convert22_doubles (hs : s.Ok) (hc : s.Counted) {x : Double}
    (h : x ∈ (s.convert22 ext t w f g).doubles22) : (∃ y ∈ s.doubles22, x = g y) ∨ ∃ y ∈ s.realTags, x = f y := by
  rcases mem_doubles22.mp h with h | h | h | h | h
  · rw [convert22_nodes_list hs hc] at h
    obtain ⟨n, hn, hx⟩ := List.mem_flatMap.mp h
    obtain ⟨n, hn', rfl⟩ := List.mem_map.mp hn
    have hm : ∀ y ∈ [n.x, n.y, n.z], y ∈ s.doubles22 := fun y hy => mem_doubles22.mpr (Or.inl (List.mem_flatMap.mpr ⟨n, hn', hy⟩))
    simp only [List.mem_cons, List.not_mem_nil, or_false] at hx
    rcases hx with rfl | rfl | rfl
    · exact Or.inl ⟨n.x, hm _ (by simp), rfl⟩
    · exact Or.inl ⟨n.y, hm _ (by simp), rfl⟩
    · exact Or.inl ⟨n.z, hm _ (by simp), rfl⟩
  · rw [convert22_realTags] at h
    obtain ⟨y, hy, rfl⟩ := List.mem_map.mp h
    exact Or.inr ⟨y, hy, rfl⟩
  · left
    obtain ⟨d, hd, hx⟩ := List.mem_flatMap.mp h
    have key : ∀ isEN, ∀ d ∈ s.nodeData ++ s.elementData ++ s.elementNodeData,
        x ∈ (d.convert isEN t f g).entries.flatMap (·.data) → ∃ y ∈ s.doubles22, x = g y := by
      intro isEN d hd hx
      obtain ⟨e, he, hx⟩ := List.mem_flatMap.mp hx
      obtain ⟨e, he', rfl⟩ := List.mem_map.mp he
      obtain ⟨y, hy, rfl⟩ := List.mem_map.mp hx
      exact ⟨y, mem_doubles22.mpr (Or.inr (Or.inr (Or.inl (List.mem_flatMap.mpr ⟨d, hd, List.mem_flatMap.mpr ⟨e, he', hy⟩⟩)))), rfl⟩
    simp only [List.mem_append] at hd
    rcases hd with (hd | hd) | hd
    · obtain ⟨d, hd', rfl⟩ := List.mem_map.mp hd; exact key false d (by simp [hd']) hx
    · obtain ⟨d, hd', rfl⟩ := List.mem_map.mp hd; exact key false d (by simp [hd']) hx
    · obtain ⟨d, hd', rfl⟩ := List.mem_map.mp hd; exact key true d (by simp [hd']) hx
  · left
    obtain ⟨c, hc', hx⟩ := List.mem_flatMap.mp h
    change c ∈ (if ext then s.curves.map (Curve.convert g) else []) at hc'
    cases ext with
    | true =>
      obtain ⟨c, hc'', rfl⟩ := List.mem_map.mp hc'
      obtain ⟨y, hy, rfl⟩ := List.mem_map.mp hx
      exact ⟨y, mem_doubles22.mpr (Or.inr (Or.inr (Or.inr (Or.inl (List.mem_flatMap.mpr ⟨c, hc'', hy⟩))))), rfl⟩
    | false => exact absurd hc' (by simp)
  · left
    obtain ⟨c, hc', hx⟩ := List.mem_flatMap.mp h
    change c ∈ (if ext then s.patches.map (Patch.convert g) else []) at hc'
    cases ext with
    | true =>
      obtain ⟨c, hc'', rfl⟩ := List.mem_map.mp hc'
      obtain ⟨y, hy, rfl⟩ := List.mem_map.mp hx
      exact ⟨y, mem_doubles22.mpr (Or.inr (Or.inr (Or.inr (Or.inr (List.mem_flatMap.mpr ⟨c, hc'', hy⟩))))), rfl⟩
    | false => exact absurd hc' (by simp)

theorem convert22_tags (hs : s.Ok) (hc : s.Counted) (hfit : Fits22 cfg (s.nodes22 id g) (s.elems22 id))
    {P : UInt64 → Prop} (hn : ∀ b ∈ s.nodes.entityBlocks, ∀ t ∈ b.tags, P t) (he : ∀ b ∈ s.elements.entityBlocks, ∀ t ∈ b.data, P t) :
    (∀ b ∈ (s.convert22 ext t id f g).nodes.entityBlocks, ∀ t ∈ b.tags, P t) ∧
    (∀ b ∈ (s.convert22 ext t id f g).elements.entityBlocks, ∀ t ∈ b.data, P t) := by
  have hr := convert22_regrouped (ext := ext) (t := t) (w := id) (f := f) (g := g) hs hc
  have h1 := hfit.es_lt
  have h2 := hfit.ns_lt
  constructor
  · intro b hb t ht
    obtain ⟨_, _, _, _, _, h6, _⟩ := nodesOf_block (by omega) (hr.node hb)
    obtain ⟨n, hn', rfl⟩ := h6 t ht
    obtain ⟨n, hn'', rfl⟩ := List.mem_map.mp hn'
    obtain ⟨b, hb, hn3⟩ := List.mem_flatMap.mp hn''
    exact hn b hb n.tag (mem_block_list hn3)
  · intro b hb t ht
    obtain ⟨_, _, _, _, h5, _⟩ := elementsOf_block (by omega) (fun e he => (hr.typed e he).1) (hr.element hb)
    obtain ⟨e, he', ht'⟩ := h5 t ht
    obtain ⟨e, he'', rfl⟩ := List.mem_map.mp he'
    obtain ⟨b, hb, he3⟩ := List.mem_flatMap.mp he''
    obtain ⟨_, _, _, m1, m2, _⟩ := mem_elem_nodes (hs.element b hb) he3
    rcases ht' with rfl | ht'
    · exact he b hb _ m1
    · simp only [List.map_id] at ht'
      exact he b hb _ (m2 t ht')

/-- Regrouping again changes nothing. -/
theorem convert22_idem (hs : s.Ok) (hc : s.Counted) (hf : ∀ x ∈ s.realTags, f (f x) = f x) (hg : ∀ x ∈ s.doubles22, g (g x) = g x) :
    (s.convert22 ext id id f g).convert22 ext id id f g = s.convert22 ext id id f g := by
  have hn : (s.convert22 ext id id f g).nodes22 id g = s.nodes22 id g := by
    show List.map _ (s.convert22 ext id id f g).nodes.list = _
    rw [convert22_nodes_list hs hc]
    show List.map _ (List.map _ _) = _
    rw [List.map_map]
    refine List.map_congr_left fun n hn => ?_
    have hm : ∀ y ∈ [n.x, n.y, n.z], g (g y) = g y := fun y hy => hg y (mem_doubles22.mpr (Or.inl (List.mem_flatMap.mpr ⟨n, hn, hy⟩)))
    simp only [Function.comp_apply, hm n.x (by simp), hm n.y (by simp), hm n.z (by simp), id]
  have he : (s.convert22 ext id id f g).elems22 id = s.elems22 id := by
    show List.map _ (s.convert22 ext id id f g).elements.list = _
    rw [convert22_elements_list hs hc]
    show List.map _ (List.map _ _) = _
    rw [List.map_map]
    refine List.map_congr_left fun n hn => ?_
    simp
  have hzn : (s.convert22 ext id id f g).nodes.numNodes = 0 ↔ s.nodes.numNodes = 0 := by
    show (if s.nodes.numNodes = 0 then ({} : Nodes) else nodesOf (s.nodes22 id g) (s.elems22 id)).numNodes = 0 ↔ _
    have hl : (s.nodes22 id g).length = s.nodes.numNodes.toNat := by rw [hc.nodes_list hs]; exact List.length_map _
    split
    · simp [*]
    · rename_i h
      show UInt64.ofNat (s.nodes22 id g).length = 0 ↔ _
      rw [hl]; simp
  have hze : (s.convert22 ext id id f g).elements.numElements = 0 ↔ s.elements.numElements = 0 := by
    show (if s.elements.numElements = 0 then ({} : Elements) else elementsOf (s.elems22 id)).numElements = 0 ↔ _
    have hl : (s.elems22 id).length = s.elements.numElements.toNat := by rw [hc.elements_list]; exact List.length_map _
    split
    · simp [*]
    · rename_i h
      show UInt64.ofNat (s.elems22 id).length = 0 ↔ _
      rw [hl]; simp
  have hfront : (s.convert22 ext id id f g).front22 id g = s.front22 id g := by
    unfold MshSpec.front22
    rw [hn, he]
    simp only [hzn, hze]
    rfl
  have hd : ∀ isEN, ∀ d ∈ s.nodeData ++ s.elementData ++ s.elementNodeData,
      (d.convert isEN id f g).convert isEN id f g = d.convert isEN id f g := by
    intro isEN d hd
    unfold Data.convert
    simp only [List.map_map]
    congr 1
    · congr 1
      refine List.map_congr_left fun x hx => hf x (List.mem_flatMap.mpr ⟨d, hd, hx⟩)
    · refine List.map_congr_left fun e he => ?_
      simp only [Function.comp_apply, List.map_map]
      congr 1
      · cases isEN <;> rfl
      · refine List.map_congr_left fun x hx => ?_
        exact hg x (mem_doubles22.mpr (Or.inr (Or.inr (Or.inl (List.mem_flatMap.mpr ⟨d, hd, List.mem_flatMap.mpr ⟨e, he, hx⟩⟩)))))
  have hdl : ∀ isEN (l : List Data), (∀ d ∈ l, d ∈ s.nodeData ++ s.elementData ++ s.elementNodeData) →
      (l.map (Data.convert isEN id f g)).map (Data.convert isEN id f g) = l.map (Data.convert isEN id f g) := by
    intro isEN l hl
    rw [List.map_map]
    exact List.map_congr_left fun d hd' => hd isEN d (hl d hd')
  rw [convert22_eq, hfront]
  rw [convert22_eq]
  unfold MshSpec.withTail
  simp only
  rw [hdl false _ (by simp +contextual), hdl false _ (by simp +contextual), hdl true _ (by simp +contextual)]
  cases ext with
  | false => rfl
  | true =>
    simp only [if_true, List.map_map]
    congr 1
    · refine List.map_congr_left fun c hc' => ?_
      simp only [Function.comp_apply, Curve.convert, List.map_map]
      congr 1
      refine List.map_congr_left fun x hx => ?_
      exact hg x (mem_doubles22.mpr (Or.inr (Or.inr (Or.inr (Or.inl (List.mem_flatMap.mpr ⟨c, hc', hx⟩))))))
    · refine List.map_congr_left fun c hc' => ?_
      simp only [Function.comp_apply, Patch.convert, List.map_map]
      congr 1
      refine List.map_congr_left fun x hx => ?_
      exact hg x (mem_doubles22.mpr (Or.inr (Or.inr (Or.inr (Or.inr (List.mem_flatMap.mpr ⟨c, hc', hx⟩))))))

theorem NodesInRange.again (hs : s.Ok) (hc : s.Counted) (h : NodesInRange s.nodes.list s.elements.list) :
    NodesInRange (s.convert22 ext t id f g).nodes.list (s.convert22 ext t id f g).elements.list := by
  rw [convert22_nodes_list hs hc, convert22_elements_list hs hc]
  exact h.convert g

theorem Fits22.again (hs : s.Ok) (hc : s.Counted) (h : Fits22 cfg s.nodes.list s.elements.list) :
    Fits22 cfg (s.convert22 ext t id f g).nodes.list (s.convert22 ext t id f g).elements.list := by
  rw [convert22_nodes_list hs hc, convert22_elements_list hs hc]
  exact h.convert g

theorem convert22_plain (hs : s.Ok) (hc : s.Counted) : (s.convert22 ext t w f g).Plain ext where
  nodes := by
    show (if s.nodes.numNodes = 0 then ({} : Nodes) else nodesOf (s.nodes22 w g) (s.elems22 w)).numNodes = 0 →
      (if s.nodes.numNodes = 0 then ({} : Nodes) else nodesOf (s.nodes22 w g) (s.elems22 w)) = {}
    have hl : (s.nodes22 w g).length = s.nodes.numNodes.toNat := by rw [hc.nodes_list hs]; exact List.length_map _
    split
    · intro _; rfl
    · rename_i h
      intro h'
      change UInt64.ofNat (s.nodes22 w g).length = 0 at h'
      rw [hl] at h'
      exact absurd (by simpa using h') h
  elements := by
    show (if s.elements.numElements = 0 then ({} : Elements) else elementsOf (s.elems22 w)).numElements = 0 →
      (if s.elements.numElements = 0 then ({} : Elements) else elementsOf (s.elems22 w)) = {}
    have hl : (s.elems22 w).length = s.elements.numElements.toNat := by rw [hc.elements_list]; exact List.length_map _
    split
    · intro _; rfl
    · rename_i h
      intro h'
      change UInt64.ofNat (s.elems22 w).length = 0 at h'
      rw [hl] at h'
      exact absurd (by simpa using h') h
  entries := by
    intro d hd e he
    have hd : d ∈ s.nodeData.map (Data.convert false t f g) ++ s.elementData.map (Data.convert false t f g) := hd
    rw [← List.map_append] at hd
    obtain ⟨d, _, rfl⟩ := List.mem_map.mp hd
    obtain ⟨e, _, rfl⟩ := List.mem_map.mp he
    rfl
  noExt := by
    rintro rfl
    exact ⟨rfl, rfl, rfl⟩

end

end MshIO
