import Verif.Proofs.Loaded22
import Verif.Props.RoundTrip41

/-!
# C03, C04, C16 for version 2.2 files

`MshSpec.convert22` (what a version 2.2 file stands for) is explained in `Spec/File22.lean`, the grouping into
blocks (`nodesOf`, `elementsOf`) in `Spec/Mesh22.lean`.
-/

namespace MshIO

/-! ## Helper lemmas -/

theorem nodes22_id (s : MshSpec) : s.nodes22 id id = s.nodes.list := by
  unfold MshSpec.nodes22
  exact List.map_id _

theorem NodesInRange.convert {s : MshSpec} (h : NodesInRange s.nodes.list s.elements.list) (g : Double → Double) :
    NodesInRange (s.nodes22 id g) (s.elems22 id) := by
  intro e he t ht
  obtain ⟨e, he', rfl⟩ := List.mem_map.mp he
  rw [show (e.nodes.map id) = e.nodes from List.map_id _] at ht
  obtain ⟨⟨a, ha, h1⟩, b, hb, h2⟩ := h e he' t ht
  exact ⟨⟨_, List.mem_map.mpr ⟨a, ha, rfl⟩, h1⟩, _, List.mem_map.mpr ⟨b, hb, rfl⟩, h2⟩

theorem Fits22.convert {cfg : Cfg} {s : MshSpec} (h : Fits22 cfg s.nodes.list s.elements.list) (g : Double → Double) :
    Fits22 cfg (s.nodes22 id g) (s.elems22 id) where
  two := h.two
  coords := by show 3 * (List.map _ _).length ≤ _; rw [List.length_map]; exact h.coords
  span := by
    intro a ha b hb
    obtain ⟨a, ha', rfl⟩ := List.mem_map.mp ha
    obtain ⟨b, hb', rfl⟩ := List.mem_map.mp hb
    exact h.span a ha' b hb'
  entries := by
    show ((s.elements.list.map (MeshElem.reload id)).map fun e => e.nodes.length + 1).sum ≤ _
    rw [sum_reload]; exact h.entries

theorem Fits22.entries22 {cfg : Cfg} {s : MshSpec} {w : UInt64 → UInt64} {ns : List MeshNode} (h : Fits22 cfg ns (s.elems22 w)) :
    (s.elements.list.map fun e => e.nodes.length + 1).sum ≤ cfg.maxCount := by
  have := h.entries
  rwa [show s.elems22 w = s.elements.list.map (MeshElem.reload w) from rfl, sum_reload] at this

theorem Fits22.coords22 {cfg : Cfg} {s : MshSpec} {w : UInt64 → UInt64} {g : Double → Double} {es : List MeshElem}
    (h : Fits22 cfg (s.nodes22 w g) es) : 3 * s.nodes.list.length ≤ cfg.maxCount := by
  have := h.coords
  rwa [show s.nodes22 w g = s.nodes.list.map _ from rfl, List.length_map] at this

theorem tail_congr {ext : Bool} {t t' : UInt64 → UInt64} {f f' g g' : Double → Double} {s : MshSpec}
    (ht : ∀ x ∈ s.dataTags, t x = t' x) (hf : ∀ x ∈ s.realTags, f x = f' x)
    (hg : ∀ x ∈ (s.nodeData ++ s.elementData ++ s.elementNodeData).flatMap (fun d => d.entries.flatMap (·.data)) ++
      s.curves.flatMap (·.data) ++ s.patches.flatMap (·.data), g x = g' x) (base : MshSpec) :
    MshSpec.withTail ext t f g s base = MshSpec.withTail ext t' f' g' s base := by
  have hd : ∀ isEN, ∀ d ∈ s.nodeData ++ s.elementData ++ s.elementNodeData,
      d.convert isEN t f g = d.convert isEN t' f' g' := by
    intro isEN d hd
    refine Data.convert_congr (fun e he => ht _ ?_) (fun x hx => hf _ ?_) (fun e he x hx => hg _ ?_)
    · exact List.mem_flatMap.mpr ⟨d, hd, List.mem_map.mpr ⟨e, he, rfl⟩⟩
    · exact List.mem_flatMap.mpr ⟨d, hd, hx⟩
    · exact List.mem_append.mpr (Or.inl (List.mem_append.mpr (Or.inl (List.mem_flatMap.mpr ⟨d, hd, List.mem_flatMap.mpr ⟨e, he, hx⟩⟩))))
  have hcs : ∀ c ∈ s.curves, c.convert g = c.convert g' := fun b hb => by
    unfold Curve.convert
    rw [map_congr_of (l := b.data) fun x hx => hg x (List.mem_append.mpr (Or.inl (List.mem_append.mpr (Or.inr (List.mem_flatMap.mpr ⟨b, hb, hx⟩)))))]
  have hps : ∀ c ∈ s.patches, c.convert g = c.convert g' := fun b hb => by
    unfold Patch.convert
    rw [map_congr_of (l := b.data) fun x hx => hg x (List.mem_append.mpr (Or.inr (List.mem_flatMap.mpr ⟨b, hb, hx⟩)))]
  unfold MshSpec.withTail
  rw [map_congr_of fun d hd' => hd false d (by simp [hd']),
    map_congr_of (l := s.elementData) fun d hd' => hd false d (by simp [hd']),
    map_congr_of (l := s.elementNodeData) fun d hd' => hd true d (by simp [hd']), map_congr_of hcs, map_congr_of hps]

/-- The spec in front of the tail sections after regrouping. -/
def MshSpec.front22 (w : UInt64 → UInt64) (g : Double → Double) (s : MshSpec) : MshSpec :=
  { meshFormat := s.meshFormat
    physicalGroups := s.physicalGroups
    nodes := if s.nodes.numNodes = 0 then {} else nodesOf (s.nodes22 w g) (s.elems22 w)
    elements := if s.elements.numElements = 0 then {} else elementsOf (s.elems22 w) }

theorem convert22_eq (ext : Bool) (t w : UInt64 → UInt64) (f g : Double → Double) (s : MshSpec) :
    s.convert22 ext t w f g = MshSpec.withTail ext t f g s (s.front22 w g) := rfl

theorem sizeOfInt_small {t : UInt64} (h : t.toNat < 2 ^ 31) : sizeOfInt (intOfSize t) = t := by
  rw [wrap32_eq, wrap32_small h]

theorem intOfSize_small {t : UInt64} (h : t.toNat < 2 ^ 31) : 0 ≤ (intOfSize t).toInt := by
  rw [intOfSize_toInt h]; omega

theorem elems22_length (s : MshSpec) (w : UInt64 → UInt64) : (s.elems22 w).length = s.elements.list.length := List.length_map _

/-- **C03**, **C04**: what `convert22` means.  Without blocks in view, nodes and elements are the same lists as before (`w` applied to tags, `g` to
coordinates, the dimension of an element being that of its type); neighbouring blocks of the result lie on different
entities or hold different types; physical groups are unchanged and entities are gone. -/
theorem C03_convert22_lists (ext : Bool) (t w : UInt64 → UInt64) (f g : Double → Double) (s : MshSpec) (hs : s.Ok) (hc : s.Counted) :
    (s.convert22 ext t w f g).nodes.list = s.nodes.list.map (fun n => ⟨w n.tag, g n.x, g n.y, g n.z⟩) ∧
    (s.convert22 ext t w f g).elements.list =
      s.elements.list.map (fun e => ⟨w e.tag, e.type, Int32.ofNat ((mshDim e.type).getD 0), e.entity, e.nodes.map w⟩) ∧
    ((s.convert22 ext t w f g).nodes.entityBlocks.map fun b => (b.entityDim, b.entityTag)).IsChain (· ≠ ·) ∧
    ((s.convert22 ext t w f g).elements.entityBlocks.map fun b => (b.entityDim, b.entityTag, b.elementType)).IsChain (· ≠ ·) ∧
    (s.convert22 ext t w f g).physicalGroups = s.physicalGroups ∧
    (s.convert22 ext t w f g).entities = {} := by
  refine ⟨?_, ?_, ?_, ?_, rfl, rfl⟩
  · show (if s.nodes.numNodes = 0 then ({} : Nodes) else nodesOf (s.nodes22 w g) (s.elems22 w)).list = _
    split
    · rw [list_nil (hc.nodes_list hs) (by assumption)]; rfl
    · rw [nodesOf_list]; rfl
  · show (if s.elements.numElements = 0 then ({} : Elements) else elementsOf (s.elems22 w)).list = _
    split
    · rw [list_nil hc.elements_list (by assumption)]; rfl
    · rw [elementsOf_list (by rw [elems22_length, ← hc.elements_list]; exact UInt64.toNat_lt _) fun e he => (typed_reload hs w e he).1]; rfl
  · show ((if s.nodes.numNodes = 0 then ({} : Nodes) else nodesOf (s.nodes22 w g) (s.elems22 w)).entityBlocks.map _).IsChain _
    split
    · exact List.IsChain.nil
    · exact runBlocks_adjacent fun _ _ => rfl
  · show ((if s.elements.numElements = 0 then ({} : Elements) else elementsOf (s.elems22 w)).entityBlocks.map _).IsChain _
    split
    · exact List.IsChain.nil
    · exact runBlocks_adjacent fun _ _ => rfl

/-! ## C03 -/

/-- **C03** (general form, also **C16** for version 2.2 binary).  A consistent version 2.2 binary spec whose
element blocks are not empty is saved, and loading the file gives the nodes and elements regrouped
(`convert22`), all node, element and data tags squeezed through 32 bits (`wrap32`), real tags of data headers through text.
Only the element tag range is left open here. -/
theorem C03_binary22_any (cfg : Cfg) (s : MshSpec) {d : Int32} (hfmt : s.meshFormat = ⟨b! "2.2", 1, d⟩) (hs : s.Ok) (hc : s.Counted)
    (hf : s.Fits cfg) (hblk : ∀ b ∈ s.elements.entityBlocks, 0 < b.numElementsInBlock.toNat ∧ b.numElementsInBlock.toNat < 2 ^ 31)
    (hreal : ∀ x ∈ s.realTags, Printable cfg.fmt x)
    (hr : NodesInRange (s.nodes22 wrap32 id) (s.elems22 wrap32)) (hfit : Fits22 cfg (s.nodes22 wrap32 id) (s.elems22 wrap32))
    (hw : cfg.nanospline = true → Word s.nanosplineVersion) :
    ∃ file lo hi, saveMsh cfg s = (file, .ok ()) ∧
      loadMsh cfg file = .ok { s.convert22 cfg.nanospline wrap32 wrap32 (reread cfg.fmt) id with
        elements := if s.elements.numElements = 0 then {} else
          { elementsOf (s.elems22 wrap32) with minElementTag := lo, maxElementTag := hi } } := by
  have h2 := hfit.two
  obtain ⟨file, h1, h2⟩ := (sls_msh22 cfg (rd := reread cfg.fmt) s (by rw [hfmt]) (by rw [hfmt]) hs hf hc hblk hw
    (fun x hx => (hreal x hx).dtok) hfit.coords22 (by omega) hfit.entries22).sl.load
  refine ⟨file, (rawElementsB s).minElementTag, (rawElementsB s).maxElementTag, h1, h2.trans ?_⟩
  rw [post22 cfg s (by rw [hfmt]) hs hc cfg.nanospline wrap32 wrap32 (reread cfg.fmt) id (rawElementsB s)
    ⟨rfl, rfl, rfl⟩ hr hfit]

theorem post_C03 (cfg : Cfg) (s : MshSpec) {d : Int32} (hfmt : s.meshFormat = ⟨b! "2.2", 1, d⟩) (hs : s.Ok) (hc : s.Counted)
    (hntag : ∀ b ∈ s.nodes.entityBlocks, ∀ t ∈ b.tags, t.toNat < 2 ^ 31)
    (hetag : ∀ b ∈ s.elements.entityBlocks, ∀ t ∈ b.data, t.toNat < 2 ^ 31)
    (htag : ∀ t ∈ s.dataTags, t.toNat < 2 ^ 31)
    (hr : NodesInRange s.nodes.list s.elements.list) (hfit : Fits22 cfg s.nodes.list s.elements.list) (rd : Double → Double) :
    loadPostProcess cfg (MshSpec.withTail cfg.nanospline wrap32 rd id s (s.mid22 (s.nodes22 wrap32 id) (rawElementsB s))) =
      .ok (s.convert22 cfg.nanospline id id rd id) := by
  have hn : s.nodes22 wrap32 id = s.nodes22 id id := nodes22_congr fun b hb t ht => wrap32_small (hntag b hb t ht)
  have he : s.elems22 wrap32 = s.elems22 id := elems22_congr hs fun b hb t ht => wrap32_small (hetag b hb t ht)
  have hr' := hr.convert id
  have hfit' := hfit.convert id
  rw [hn]
  rw [post22 cfg s (by rw [hfmt]) hs hc cfg.nanospline wrap32 id rd id (rawElementsB s)
    (by rw [← he]; exact ⟨rfl, rfl, rfl⟩) hr' hfit']
  rw [convert22_eq, convert22_eq, tail_congr (t := wrap32) (t' := id) (f' := rd) (g' := id)
    (fun t ht => wrap32_small (htag t ht)) (fun _ _ => rfl) (fun _ _ => rfl)]
  congr 1
  by_cases hz : s.elements.numElements = 0
  · simp only [if_pos hz, MshSpec.front22]
    rfl
  · have hne : s.elements.list ≠ [] := by
      intro h
      have := hc.elements_list
      rw [h] at this
      exact hz (UInt64.toNat_inj.mp this)
    have hrange : binaryRange (s.elements.list.map MeshElem.file) = tagRange ((s.elems22 id).map (·.tag)) := by
      have hmem : ∀ e ∈ s.elements.list, e.tag.toNat < 2 ^ 31 := by
        intro e he'
        obtain ⟨b, hb, he'⟩ := List.mem_flatMap.mp he'
        exact hetag b hb _ (mem_elem_nodes (hs.element b hb) he').2.2.2.1
      rw [binaryRange_eq (by simpa using hne)]
      · congr 1
        rw [List.map_map, show s.elems22 id = s.elements.list.map (MeshElem.reload id) from rfl, List.map_map]
        refine List.map_congr_left fun e he' => ?_
        exact sizeOfInt_small (hmem e he')
      · intro f hf'
        obtain ⟨e, he', rfl⟩ := List.mem_map.mp hf'
        exact intOfSize_small (hmem e he')
    simp only [if_neg hz, MshSpec.front22, rawElementsB, hrange]
    rfl

/-- **C03** A consistent version 2.2 binary spec with all tags below `2^31`, whose elements use nodes in the
range of the node tags and whose element blocks are not empty, is saved, and loading the file gives: the same nodes and elements in
the same order, grouped anew; no entities; the rest of the spec unchanged (real tags of data headers through text). -/
theorem C03_binary22 (cfg : Cfg) (s : MshSpec) {d : Int32} (hfmt : s.meshFormat = ⟨b! "2.2", 1, d⟩) (hs : s.Ok) (hc : s.Counted)
    (hf : s.Fits cfg) (hblk : ∀ b ∈ s.elements.entityBlocks, 0 < b.numElementsInBlock.toNat ∧ b.numElementsInBlock.toNat < 2 ^ 31)
    (hntag : ∀ b ∈ s.nodes.entityBlocks, ∀ t ∈ b.tags, t.toNat < 2 ^ 31)
    (hetag : ∀ b ∈ s.elements.entityBlocks, ∀ t ∈ b.data, t.toNat < 2 ^ 31)
    (htag : ∀ t ∈ s.dataTags, t.toNat < 2 ^ 31)
    (hreal : ∀ x ∈ s.realTags, Printable cfg.fmt x)
    (hr : NodesInRange s.nodes.list s.elements.list) (hfit : Fits22 cfg s.nodes.list s.elements.list)
    (hw : cfg.nanospline = true → Word s.nanosplineVersion) :
    ∃ file, saveMsh cfg s = (file, .ok ()) ∧
      loadMsh cfg file = .ok (s.convert22 cfg.nanospline id id (reread cfg.fmt) id) := by
  have h2 := hfit.two
  obtain ⟨file, h1, h2⟩ := (sls_msh22 cfg (rd := reread cfg.fmt) s (by rw [hfmt]) (by rw [hfmt]) hs hf hc hblk hw
    (fun x hx => (hreal x hx).dtok) hfit.coords (by omega) hfit.entries).sl.load
  exact ⟨file, h1, h2.trans (post_C03 cfg s hfmt hs hc hntag hetag htag hr hfit _)⟩

/-! ## C04 -/

theorem post_C04 (cfg : Cfg) (s : MshSpec) {d : Int32} (hfmt : s.meshFormat = ⟨b! "2.2", 0, d⟩) (hs : s.Ok) (hc : s.Counted)
    (hetag : ∀ b ∈ s.elements.entityBlocks, ∀ t ∈ b.data, t.toNat < 2 ^ 31)
    (hr : NodesInRange s.nodes.list s.elements.list) (hfit : Fits22 cfg s.nodes.list s.elements.list) (rd : Double → Double) :
    loadPostProcess cfg (MshSpec.withTail cfg.nanospline id rd rd s (s.mid22 (s.nodes22 id rd) (rawElements (s.elems22 wrap32)))) =
      .ok (s.convert22 cfg.nanospline id id rd rd) := by
  have he : s.elems22 wrap32 = s.elems22 id := elems22_congr hs fun b hb t ht => wrap32_small (hetag b hb t ht)
  rw [he, post22 cfg s (by rw [hfmt]) hs hc cfg.nanospline id id rd rd (rawElements (s.elems22 id))
    ⟨rfl, rfl, rfl⟩ (hr.convert rd) (hfit.convert rd)]
  rfl

/-- **C04** A consistent version 2.2 ASCII spec whose doubles have readable text and whose elements have tags below `2^31`
is saved, and loading the file gives the same nodes and elements in the same order, grouped anew, every double
replaced by its reread value; no entities; the rest of the spec unchanged.  Node tags may be any 64-bit numbers. -/
theorem C04_ascii22 (cfg : Cfg) (s : MshSpec) {d : Int32} (hfmt : s.meshFormat = ⟨b! "2.2", 0, d⟩) (hs : s.Ok) (hc : s.Counted)
    (hf : s.Fits cfg) (hetag : ∀ b ∈ s.elements.entityBlocks, ∀ t ∈ b.data, t.toNat < 2 ^ 31)
    (hd : ∀ x ∈ s.doubles22, Printable cfg.fmt x)
    (hr : NodesInRange s.nodes.list s.elements.list) (hfit : Fits22 cfg s.nodes.list s.elements.list)
    (hw : cfg.nanospline = true → Word s.nanosplineVersion) :
    ∃ file, saveMsh cfg s = (file, .ok ()) ∧
      loadMsh cfg file = .ok (s.convert22 cfg.nanospline id id (reread cfg.fmt) (reread cfg.fmt)) := by
  have h2 := hfit.two
  obtain ⟨file, h1, h2⟩ := (slt_msh22 cfg (rd := reread cfg.fmt) s (by rw [hfmt]) (by rw [hfmt]) hs hf hc hetag hw
    (fun x hx => (hd x hx).dtok) hfit.coords (by omega) hfit.entries).sl.load
  exact ⟨file, h1, h2.trans (post_C04 cfg s hfmt hs hc hetag hr hfit _)⟩

end MshIO
