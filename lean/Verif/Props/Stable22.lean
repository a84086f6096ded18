import Verif.Proofs.Convert22

/-!
# C14, C15: version 2.2 specs saved again, and converted to other formats
-/

namespace MshIO

/-! ## C14 -/

/-- **C14** (binary) What comes back from a version 2.2 binary file is a fixed point: saving and loading it once more gives the identical spec.
`hstable`: the real tags of data headers, which are text even in binary files, do not change when printed and read a
second time (C06 gives this for ordinary numbers). -/
theorem C14_binary22_stable (cfg : Cfg) (s : MshSpec) {d : Int32} (hfmt : s.meshFormat = ⟨b! "2.2", 1, d⟩) (hs : s.Ok) (hc : s.Counted)
    (hf : s.Fits cfg) (hblk : ∀ b ∈ s.elements.entityBlocks, 0 < b.numElementsInBlock.toNat)
    (hcount : s.elements.numElements.toNat < 2 ^ 31)
    (hntag : ∀ b ∈ s.nodes.entityBlocks, ∀ t ∈ b.tags, t.toNat < 2 ^ 31)
    (hetag : ∀ b ∈ s.elements.entityBlocks, ∀ t ∈ b.data, t.toNat < 2 ^ 31)
    (htag : ∀ t ∈ s.dataTags, t.toNat < 2 ^ 31)
    (hreal : ∀ x ∈ s.realTags, Printable cfg.fmt x)
    (hstable : ∀ x ∈ s.realTags, Printable cfg.fmt (reread cfg.fmt x) ∧
      reread cfg.fmt (reread cfg.fmt x) = reread cfg.fmt x)
    (hr : NodesInRange s.nodes.list s.elements.list) (hfit : Fits22 cfg s.nodes.list s.elements.list)
    (hw : cfg.nanospline = true → Word s.nanosplineVersion) :
    ∃ file s' file', saveMsh cfg s = (file, .ok ()) ∧ loadMsh cfg file = .ok s' ∧
      saveMsh cfg s' = (file', .ok ()) ∧ loadMsh cfg file' = .ok s' := by
  have hblk' : ∀ b ∈ s.elements.entityBlocks, 0 < b.numElementsInBlock.toNat ∧ b.numElementsInBlock.toNat < 2 ^ 31 := by
    intro b hb
    refine ⟨hblk b hb, lt_of_le_of_lt ?_ hcount⟩
    rw [hc.elements]
    exact le_sum_of_mem (List.mem_map.mpr ⟨b, hb, rfl⟩)
  obtain ⟨file, h1, h2⟩ := C03_binary22 cfg s hfmt hs hc hf hblk' hntag hetag htag hreal hr hfit hw
  have hfit' := hfit.convert id
  have hreg := convert22_regrouped (ext := cfg.nanospline) (t := id) (w := id) (f := reread cfg.fmt) (g := id) hs hc
  have htags := convert22_tags (ext := cfg.nanospline) (t := id) (f := reread cfg.fmt) (g := id) hs hc hfit'
    (P := fun t => t.toNat < 2 ^ 31) hntag hetag
  have hlen := hfit'.es_lt
  obtain ⟨file', h3, h4⟩ := C03_binary22 cfg (s.convert22 cfg.nanospline id id (reread cfg.fmt) id) (d := d) hfmt
    (convert22_ok hs hc hfit') (hreg.counted hfit') (convert22_fits hs hc hf hfit') (by
      intro b hb
      obtain ⟨_, e2, e3, _⟩ := elementsOf_block (by omega) (fun e he => (hreg.typed e he).1) (hreg.element hb)
      refine ⟨e2, lt_of_le_of_lt e3 ?_⟩
      rw [elems22_length, ← hc.elements_list]; exact hcount) htags.1 htags.2 (by
      rw [convert22_dataTags, List.map_id]; exact htag) (by
      rw [convert22_realTags]
      intro x hx
      obtain ⟨y, hy, rfl⟩ := List.mem_map.mp hx
      exact (hstable y hy).1) (hr.again hs hc) (hfit.again hs hc) (by
      intro hn
      show Word (if cfg.nanospline then s.nanosplineVersion else _)
      rw [if_pos hn]; exact hw hn)
  rw [convert22_idem hs hc (g := id) (fun x hx => (hstable x hx).2) (fun _ _ => rfl)] at h4
  exact ⟨file, _, file', h1, h2, h3, h4⟩

/-- **C14** (text) The same for text files when all doubles stored in the file have reached stable text (C06). -/
theorem C14_ascii22_stable (cfg : Cfg) (s : MshSpec) {d : Int32} (hfmt : s.meshFormat = ⟨b! "2.2", 0, d⟩) (hs : s.Ok) (hc : s.Counted)
    (hf : s.Fits cfg) (hetag : ∀ b ∈ s.elements.entityBlocks, ∀ t ∈ b.data, t.toNat < 2 ^ 31)
    (hd : ∀ x ∈ s.doubles22, Printable cfg.fmt x)
    (hstable : ∀ x ∈ s.doubles22, Printable cfg.fmt (reread cfg.fmt x) ∧
      reread cfg.fmt (reread cfg.fmt x) = reread cfg.fmt x)
    (hr : NodesInRange s.nodes.list s.elements.list) (hfit : Fits22 cfg s.nodes.list s.elements.list)
    (hw : cfg.nanospline = true → Word s.nanosplineVersion) :
    ∃ file s' file', saveMsh cfg s = (file, .ok ()) ∧ loadMsh cfg file = .ok s' ∧
      saveMsh cfg s' = (file', .ok ()) ∧ loadMsh cfg file' = .ok s' := by
  obtain ⟨file, h1, h2⟩ := C04_ascii22 cfg s hfmt hs hc hf hetag hd hr hfit hw
  have hfit' := hfit.convert (reread cfg.fmt)
  have hreg := convert22_regrouped (ext := cfg.nanospline) (t := id) (w := id) (f := reread cfg.fmt) (g := reread cfg.fmt) hs hc
  have htags := convert22_tags (ext := cfg.nanospline) (t := id) (f := reread cfg.fmt) (g := reread cfg.fmt) hs hc hfit'
    (P := fun t => t.toNat < 2 ^ 64) (fun _ _ t _ => t.toNat_lt) (fun _ _ t _ => t.toNat_lt)
  have hetag' : ∀ b ∈ (s.convert22 cfg.nanospline id id (reread cfg.fmt) (reread cfg.fmt)).elements.entityBlocks, ∀ t ∈ b.data, t.toNat < 2 ^ 31 := by
    intro b hb t ht
    have hlen := hfit'.es_lt
    obtain ⟨_, _, _, _, h5, _⟩ := elementsOf_block (by omega) (fun e he => (hreg.typed e he).1) (hreg.element hb)
    obtain ⟨e, he', ht'⟩ := h5 t ht
    obtain ⟨e, he'', rfl⟩ := List.mem_map.mp he'
    obtain ⟨b, hb, he3⟩ := List.mem_flatMap.mp he''
    obtain ⟨_, _, _, m1, m2, _⟩ := mem_elem_nodes (hs.element b hb) he3
    rcases ht' with rfl | ht'
    · exact hetag b hb _ m1
    · simp only [List.map_id] at ht'
      exact hetag b hb _ (m2 t ht')
  obtain ⟨file', h3, h4⟩ := C04_ascii22 cfg (s.convert22 cfg.nanospline id id (reread cfg.fmt) (reread cfg.fmt)) (d := d) hfmt
    (convert22_ok hs hc hfit') (hreg.counted hfit') (convert22_fits hs hc hf hfit') hetag' (by
      intro x hx
      rcases mem_convert22_doubles hs hc hx with ⟨y, hy, rfl⟩ | ⟨y, hy, rfl⟩
      · exact (hstable y hy).1
      · exact (hstable y (mem_doubles22.mpr (Or.inr (Or.inl hy)))).1) (hr.again hs hc) (hfit.again hs hc) (by
      intro hn
      show Word (if cfg.nanospline then s.nanosplineVersion else _)
      rw [if_pos hn]; exact hw hn)
  rw [convert22_idem hs hc (fun x hx => (hstable x (mem_doubles22.mpr (Or.inr (Or.inl hx)))).2) (fun x hx => (hstable x hx).2)] at h4
  exact ⟨file, _, file', h1, h2, h3, h4⟩

/-! ## C15 -/

theorem withFormat_ok {s : MshSpec} (h : s.Ok) (m : MeshFormat) : ({ s with meshFormat := m } : MshSpec).Ok :=
  ⟨h.1, h.2, h.3, h.4, h.5, h.6, h.7, h.8, h.9⟩

theorem withFormat_fits {cfg : Cfg} {s : MshSpec} (h : s.Fits cfg) (m : MeshFormat) : ({ s with meshFormat := m } : MshSpec).Fits cfg :=
  ⟨h.1, h.2⟩

theorem withFormat_plain {ext : Bool} {s : MshSpec} (h : s.Plain ext) (m : MeshFormat) : ({ s with meshFormat := m } : MshSpec).Plain ext :=
  ⟨h.1, h.2, h.3, h.4⟩

/-- **C15** (files written by this library, with names and data).  A version 2.2 binary file written from `s` is loaded, switched to 4.1 binary,
saved and loaded again: everything except the format is identical. -/
theorem C15_22_to_41_binary (cfg : Cfg) (s : MshSpec) {d : Int32} (hfmt : s.meshFormat = ⟨b! "2.2", 1, d⟩) (hs : s.Ok) (hc : s.Counted)
    (hf : s.Fits cfg) (hblk : ∀ b ∈ s.elements.entityBlocks, 0 < b.numElementsInBlock.toNat ∧ b.numElementsInBlock.toNat < 2 ^ 31)
    (hntag : ∀ b ∈ s.nodes.entityBlocks, ∀ t ∈ b.tags, t.toNat < 2 ^ 31)
    (hetag : ∀ b ∈ s.elements.entityBlocks, ∀ t ∈ b.data, t.toNat < 2 ^ 31)
    (htag : ∀ t ∈ s.dataTags, t.toNat < 2 ^ 31)
    (hreal : ∀ x ∈ s.realTags, Printable cfg.fmt x)
    (hstable : ∀ x ∈ s.realTags, Printable cfg.fmt (reread cfg.fmt x) ∧
      reread cfg.fmt (reread cfg.fmt x) = reread cfg.fmt x)
    (hr : NodesInRange s.nodes.list s.elements.list) (hfit : Fits22 cfg s.nodes.list s.elements.list)
    (hw : cfg.nanospline = true → Word s.nanosplineVersion) :
    ∃ file s' file', saveMsh cfg s = (file, .ok ()) ∧ loadMsh cfg file = .ok s' ∧
      saveMsh cfg { s' with meshFormat := ⟨b! "4.1", 1, 8⟩ } = (file', .ok ()) ∧
      loadMsh cfg file' = .ok { s' with meshFormat := ⟨b! "4.1", 1, 8⟩ } := by
  obtain ⟨file, h1, h2⟩ := C03_binary22 cfg s hfmt hs hc hf hblk hntag hetag htag hreal hr hfit hw
  have hfit' := hfit.convert id
  obtain ⟨file', h3, h4⟩ := C01_binary41_exact cfg
    { s.convert22 cfg.nanospline id id (reread cfg.fmt) id with meshFormat := ⟨b! "4.1", 1, 8⟩ } rfl
    (withFormat_ok (convert22_ok hs hc hfit') _) (withFormat_fits (convert22_fits hs hc hf hfit') _) (withFormat_plain (convert22_plain hs hc) _)
    (by
      intro t ht
      have ht : t ∈ (s.convert22 cfg.nanospline id id (reread cfg.fmt) id).dataTags := ht
      rw [convert22_dataTags, List.map_id] at ht
      exact htag t ht)
    (by
      intro x hx
      have hx : x ∈ (s.convert22 cfg.nanospline id id (reread cfg.fmt) id).realTags := hx
      rw [convert22_realTags] at hx
      obtain ⟨y, hy, rfl⟩ := List.mem_map.mp hx
      exact hstable y hy)
    (by
      intro hn
      show Word (if cfg.nanospline then s.nanosplineVersion else _)
      rw [if_pos hn]; exact hw hn)
  exact ⟨file, _, file', h1, h2, h3, h4⟩

/-- What `load22` says a version 2.2 file with nodes and elements loads to. -/
private def loaded (ft : Int32) (lo hi : UInt64) (ns : List MeshNode) (fs : List FileElem) : MshSpec :=
  { spec22 ft ns (fs.map FileElem.elem) (physOf fs) with
    elements := { elementsOf (fs.map FileElem.elem) with minElementTag := lo, maxElementTag := hi } }

section
variable {cfg : Cfg} {ft : Int32} {lo hi : UInt64} {ns : List MeshNode} {fs : List FileElem}

private theorem loaded_regrouped (ho : ∀ f ∈ fs, f.Ok) : Regrouped ns (fs.map FileElem.elem) (loaded ft lo hi ns fs) :=
  ⟨Or.inl rfl, Or.inl ⟨lo, hi, rfl⟩, typed_file ho⟩

private theorem loaded_ok (ho : ∀ f ∈ fs, f.Ok) (hf : Fits22 cfg ns (fs.map FileElem.elem)) : (loaded ft lo hi ns fs).Ok :=
  (loaded_regrouped ho).ok hf (fun _ h => absurd h (by simp [loaded, spec22])) (fun _ h => absurd h (by simp [loaded, spec22]))
    (fun _ h => absurd h (by simp [loaded, spec22])) (fun _ h => absurd h (by simp [loaded, spec22])) (fun _ h => absurd h (by simp [loaded, spec22]))

private theorem loaded_fits (ho : ∀ f ∈ fs, f.Ok) (hf : Fits22 cfg ns (fs.map FileElem.elem)) : (loaded ft lo hi ns fs).Fits cfg := by
  have hle := hf.es_le
  have htwo := hf.two
  rw [List.length_map] at hle
  refine ⟨?_, by show (0 : Nat) < _; omega⟩
  obtain ⟨z1, z2, z3, z4⟩ := (loaded_regrouped (ft := ft) (lo := lo) (hi := hi) (ns := ns) ho).sizes hf
  have hp : ∀ d, (physOf fs d).length ≤ cfg.maxCount := fun d => Nat.le_trans (physOf_length fs d) hle
  have hpt : ∀ d, ∀ p ∈ physOf fs d, p.2.length ≤ cfg.maxCount := fun d p hp => Nat.le_trans (physOf_tags_length fs d p hp) hle
  intro n hn
  rcases mem_sizes.mp hn with h | h | h | h | h | h | h | h
  · have h : n ∈ [0, ((physOf fs 0).map (fun p => ({ tag := p.1, physicalGroupTags := p.2 } : PointEntity))).length,
      ((physOf fs 1).map (fun p => ({ tag := p.1, physicalGroupTags := p.2 } : BoxEntity))).length,
      ((physOf fs 2).map (fun p => ({ tag := p.1, physicalGroupTags := p.2 } : BoxEntity))).length,
      ((physOf fs 3).map (fun p => ({ tag := p.1, physicalGroupTags := p.2 } : BoxEntity))).length,
      (loaded ft lo hi ns fs).nodes.entityBlocks.length, (loaded ft lo hi ns fs).elements.entityBlocks.length, 0, 0, 0, 0, 0] := h
    simp only [List.mem_cons, List.not_mem_nil, or_false, List.length_map] at h
    have p0 := hp 0
    have p1 := hp 1
    have p2 := hp 2
    have p3 := hp 3
    omega
  · obtain ⟨p, hp', rfl⟩ := List.mem_map.mp h
    obtain ⟨q, hq, rfl⟩ := List.mem_map.mp hp'
    exact hpt 0 q hq
  · obtain ⟨p, hp', hn'⟩ := List.mem_flatMap.mp h
    simp only [List.mem_append] at hp'
    have : ∀ d, p ∈ (physOf fs d).map (fun p => ({ tag := p.1, physicalGroupTags := p.2 } : BoxEntity)) → n ≤ cfg.maxCount := by
      intro d hp'
      obtain ⟨q, hq, rfl⟩ := List.mem_map.mp hp'
      have := hpt d q hq
      have hn' : n ∈ [q.2.length, 0] := hn'
      simp only [List.mem_cons, List.not_mem_nil, or_false] at hn'
      omega
    rcases hp' with (hp' | hp') | hp'
    · exact this 1 hp'
    · exact this 2 hp'
    · exact this 3 hp'
  · obtain ⟨b, hb, hn'⟩ := List.mem_flatMap.mp h
    have := z3 b hb
    simp only [List.mem_cons, List.not_mem_nil, or_false] at hn'
    omega
  · obtain ⟨b, hb, hn'⟩ := List.mem_map.mp h
    have := z4 b hb
    omega
  · exact absurd h (by simp [loaded, spec22])
  · exact absurd h (by simp [loaded, spec22])
  · exact absurd h (by simp [loaded, spec22])

private theorem loaded_plain (ho : ∀ f ∈ fs, f.Ok) (hf : Fits22 cfg ns (fs.map FileElem.elem)) (hn : ns ≠ []) (he : fs ≠ []) (ext : Bool) :
    (loaded ft lo hi ns fs).Plain ext := by
  have hreg := loaded_regrouped (ft := ft) (lo := lo) (hi := hi) (ns := ns) ho
  have hlt := hf.es_lt
  have hlt' := hf.ns_lt
  refine ⟨fun h => ?_, fun h => ?_, fun d hd => absurd hd (by simp [loaded, spec22]), fun _ => ⟨rfl, rfl, rfl⟩⟩
  · have := (hreg.nodeBlocks (by omega)).2.2
    rw [h] at this
    exact absurd (List.length_eq_zero_iff.mp this.symm) hn
  · have := (hreg.elementBlocks (by omega)).2.2
    rw [h, List.length_map] at this
    exact absurd (List.length_eq_zero_iff.mp this.symm) he

private theorem nodesOf_mapCoords (g : Double → Double) (ns : List MeshNode) (es : List MeshElem) :
    nodesOf (ns.map (MeshNode.convert g)) es = (nodesOf ns es).mapCoords g := by
  have hb : (nodesOf (ns.map (MeshNode.convert g)) es).entityBlocks = ((nodesOf ns es).mapCoords g).entityBlocks := by
    show runBlocks _ _ _ = List.map _ (runBlocks _ _ _)
    rw [runBlocks_of_map, map_runBlocks]
    congr 1
    funext k r
    simp [nodeBlockOf, MeshNode.convert, List.flatMap_map, List.map_flatMap, Function.comp_def]
  have ht : (ns.map (MeshNode.convert g)).map (·.tag) = ns.map (·.tag) := by rw [List.map_map]; rfl
  have hl : (nodesOf (ns.map (MeshNode.convert g)) es).entityBlocks.length = (nodesOf ns es).entityBlocks.length := by
    rw [hb]; exact List.length_map _
  unfold nodesOf Nodes.mapCoords at *
  simp only [Nodes.mk.injEq, List.length_map, ht, true_and] at *
  exact ⟨congrArg UInt64.ofNat hl, hb⟩

private theorem word_one : Word (b! "1.0") := ⟨by decide, by decide⟩

private theorem loaded_doubles (hf : Fits22 cfg ns (fs.map FileElem.elem)) {x : Double} (h : x ∈ (loaded ft lo hi ns fs).doubles) :
    x = Double.zero ∨ ∃ n ∈ ns, x = n.x ∨ x = n.y ∨ x = n.z := by
  have hlt := hf.ns_lt
  rcases mem_doubles.mp h with h | h | h | h | h | h
  · left
    simp only [Entities.doubles, loaded, spec22, entitiesFrom, List.mem_append, List.mem_flatMap, List.mem_map] at h
    rcases h with ⟨_, ⟨_, _, rfl⟩, h⟩ | ⟨_, h', h⟩
    · simpa using h
    · rcases h' with (⟨_, _, rfl⟩ | ⟨_, _, rfl⟩) | ⟨_, _, rfl⟩ <;> simpa using h
  · obtain ⟨b, hb, hx⟩ := List.mem_flatMap.mp h
    obtain ⟨_, _, _, _, _, _, h7⟩ := nodesOf_block (by omega) hb
    exact Or.inr (h7 x hx)
  all_goals exact absurd h (by simp [loaded, spec22, MshSpec.realTags])

private theorem loaded_convert (ho : ∀ f ∈ fs, f.Ok) (hf : Fits22 cfg ns (fs.map FileElem.elem)) (hn : ns ≠ []) (he : fs ≠ []) (ext : Bool)
    (m : MeshFormat) (P : Fmt) (hz : reread P Double.zero = Double.zero) :
    ({ loaded ft lo hi ns fs with meshFormat := m } : MshSpec).convert ext id (reread P) (reread P) =
      { loaded ft lo hi ns fs with meshFormat := m, nodes := (loaded ft lo hi ns fs).nodes.mapCoords (reread P) } := by
  have hp := loaded_plain (ft := ft) (lo := lo) (hi := hi) ho hf hn he ext
  have h1 : ¬ (loaded ft lo hi ns fs).nodes.numNodes = 0 := by
    intro h
    have := hp.nodes h
    have := congrArg (fun n => n.list) this
    simp only [(loaded_regrouped ho).nodes_list] at this
    exact hn this
  have h2 : ¬ (loaded ft lo hi ns fs).elements.numElements = 0 := by
    intro h
    have := hp.elements h
    have := congrArg (fun n => n.list) this
    have hlt := hf.es_lt
    simp only [(loaded_regrouped ho).elements_list (by omega)] at this
    exact he (List.map_eq_nil_iff.mp this)
  unfold MshSpec.convert
  simp only [if_neg h1, if_neg h2]
  congr 1
  · simp only [loaded, spec22, entitiesFrom, List.map_map, Function.comp_def, PointEntity.convert, BoxEntity.convert, hz]
  · cases ext <;> rfl
  · cases ext <;> rfl
  · cases ext <;> rfl

end

/-- **C15** (any version 2.2 file to 4.1 binary).  Loading a version 2.2 file of nodes and elements, switching to version 4.1 binary, saving and loading again
gives the identical spec: the nodes `ns` with all bits of their coordinates, the elements, their blocks, the entities with their physical tags. -/
theorem C15_any22_to_41_binary (cfg : Cfg) {file : Bytes} {ns : List MeshNode} {fs : List FileElem} (h : Is22 cfg file ns fs)
    (hr : NodesInRange ns (fs.map FileElem.elem)) (hf : Fits22 cfg ns (fs.map FileElem.elem)) (hn : ns ≠ []) (he : fs ≠ []) :
    ∃ s file', loadMsh cfg file = .ok s ∧ s.nodes.list = ns ∧ s.elements.list = fs.map FileElem.elem ∧
      saveMsh cfg { s with meshFormat := ⟨b! "4.1", 1, 8⟩ } = (file', .ok ()) ∧
      loadMsh cfg file' = .ok { s with meshFormat := ⟨b! "4.1", 1, 8⟩ } := by
  obtain ⟨ho, ft, lo, hi, h1, -⟩ := load22 h hr hf
  have hlt := hf.es_lt
  obtain ⟨file', h3, h4⟩ := C01_binary41_exact cfg { loaded ft lo hi ns fs with meshFormat := ⟨b! "4.1", 1, 8⟩ } rfl
    (withFormat_ok (loaded_ok ho hf) _) (withFormat_fits (loaded_fits ho hf) _) (withFormat_plain (loaded_plain ho hf hn he _) _)
    (fun t ht => absurd ht (by simp [loaded, spec22, MshSpec.dataTags])) (fun t ht => absurd ht (by simp [loaded, spec22, MshSpec.realTags]))
    (fun _ => word_one)
  exact ⟨loaded ft lo hi ns fs, file', h1, (loaded_regrouped ho).nodes_list, (loaded_regrouped ho).elements_list (by omega), h3, h4⟩

/-- **C15** (any version 2.2 file to 4.1 text).  As above; the coordinates become what their text reads back as, nothing else changes.
(The loaded entities have zero bounding boxes, so the stream must print zero as zero, as `printable_zero` says the default format does.) -/
theorem C15_any22_to_41_ascii (cfg : Cfg) {file : Bytes} {ns : List MeshNode} {fs : List FileElem} (h : Is22 cfg file ns fs)
    (hr : NodesInRange ns (fs.map FileElem.elem)) (hf : Fits22 cfg ns (fs.map FileElem.elem)) (hn : ns ≠ []) (he : fs ≠ [])
    (hd : ∀ n ∈ ns, Printable cfg.fmt n.x ∧ Printable cfg.fmt n.y ∧ Printable cfg.fmt n.z)
    (hz : Printable cfg.fmt Double.zero ∧ reread cfg.fmt Double.zero = Double.zero) :
    ∃ s file', loadMsh cfg file = .ok s ∧ s.nodes.list = ns ∧ s.elements.list = fs.map FileElem.elem ∧
      saveMsh cfg { s with meshFormat := ⟨b! "4.1", 0, 8⟩ } = (file', .ok ()) ∧
      loadMsh cfg file' = .ok { s with meshFormat := ⟨b! "4.1", 0, 8⟩, nodes := s.nodes.mapCoords (reread cfg.fmt) } := by
  obtain ⟨ho, ft, lo, hi, h1, -⟩ := load22 h hr hf
  have hlt := hf.es_lt
  have hlt' := hf.ns_lt
  obtain ⟨file', h3, h4⟩ := C02_ascii41 cfg { loaded ft lo hi ns fs with meshFormat := ⟨b! "4.1", 0, 8⟩ } rfl
    (withFormat_ok (loaded_ok ho hf) _) (withFormat_fits (loaded_fits ho hf) _)
    (fun x hx => by
      rcases loaded_doubles (ft := ft) (lo := lo) (hi := hi) hf hx with rfl | ⟨n, hn, rfl | rfl | rfl⟩
      · exact hz.1
      · exact (hd n hn).1
      · exact (hd n hn).2.1
      · exact (hd n hn).2.2)
    (fun _ b hb => by rw [(nodesOf_block (by omega) hb).2.1]; decide)
    (fun _ => word_one)
  rw [loaded_convert ho hf hn he _ _ _ hz.2] at h4
  exact ⟨loaded ft lo hi ns fs, file', h1, (loaded_regrouped ho).nodes_list, (loaded_regrouped ho).elements_list (by omega), h3, h4⟩

section
variable {cfg : Cfg} {ft : Int32} {lo hi : UInt64} {ns : List MeshNode} {fs : List FileElem}

private theorem loaded_convert22 (ho : ∀ f ∈ fs, f.Ok) (hf : Fits22 cfg ns (fs.map FileElem.elem)) (hn : ns ≠ []) (he : fs ≠ []) (ext : Bool)
    (hlohi : (lo, hi) = tagRange ((fs.map FileElem.elem).map (·.tag))) (m : MeshFormat) (f g : Double → Double) :
    ({ loaded ft lo hi ns fs with meshFormat := m } : MshSpec).convert22 ext id id f g =
      { loaded ft lo hi ns fs with meshFormat := m, entities := {}, nodes := (loaded ft lo hi ns fs).nodes.mapCoords g } := by
  have hp := loaded_plain (ft := ft) (lo := lo) (hi := hi) ho hf hn he ext
  have hreg := loaded_regrouped (ft := ft) (lo := lo) (hi := hi) (ns := ns) ho
  have hlt := hf.es_lt
  have h1 : ¬ (loaded ft lo hi ns fs).nodes.numNodes = 0 := by
    intro h
    have := hp.nodes h
    have := congrArg (fun n => n.list) this
    simp only [hreg.nodes_list] at this
    exact hn this
  have h2 : ¬ (loaded ft lo hi ns fs).elements.numElements = 0 := by
    intro h
    have := hp.elements h
    have := congrArg (fun n => n.list) this
    simp only [hreg.elements_list (by omega)] at this
    exact he (List.map_eq_nil_iff.mp this)
  have hnn : ({ loaded ft lo hi ns fs with meshFormat := m } : MshSpec).nodes22 id g = ns.map (MeshNode.convert g) := by
    show List.map _ (loaded ft lo hi ns fs).nodes.list = _
    rw [hreg.nodes_list]; rfl
  have hee : ({ loaded ft lo hi ns fs with meshFormat := m } : MshSpec).elems22 id = fs.map FileElem.elem := by
    show List.map _ (loaded ft lo hi ns fs).elements.list = _
    rw [hreg.elements_list (by omega)]
    conv_rhs => rw [← List.map_id (fs.map FileElem.elem)]
    refine List.map_congr_left fun e he => ?_
    have := (hreg.typed e he).2
    cases e
    simp only [List.map_id, id] at this ⊢
    rw [this]
  have hel : (loaded ft lo hi ns fs).elements = elementsOf (fs.map FileElem.elem) := by
    have e1 : lo = (elementsOf (fs.map FileElem.elem)).minElementTag := congrArg Prod.fst hlohi
    have e2 : hi = (elementsOf (fs.map FileElem.elem)).maxElementTag := congrArg Prod.snd hlohi
    show ({ elementsOf (fs.map FileElem.elem) with minElementTag := lo, maxElementTag := hi } : Elements) = _
    rw [e1, e2]
  unfold MshSpec.convert22
  rw [hnn, hee, nodesOf_mapCoords]
  unfold MshSpec.convert
  simp only [if_neg h1, if_neg h2]
  congr 1
  · exact hel.symm
  · cases ext <;> rfl
  · cases ext <;> rfl
  · cases ext <;> rfl

private theorem loaded_again (ho : ∀ f ∈ fs, f.Ok) (hf : Fits22 cfg ns (fs.map FileElem.elem))
    (hr : NodesInRange ns (fs.map FileElem.elem)) (hnum : ∀ f ∈ fs, 0 ≤ f.num.toInt) (htag : ∀ n ∈ ns, n.tag.toNat < 2 ^ 31) :
    (loaded ft lo hi ns fs).Counted ∧
    NodesInRange (loaded ft lo hi ns fs).nodes.list (loaded ft lo hi ns fs).elements.list ∧
    Fits22 cfg (loaded ft lo hi ns fs).nodes.list (loaded ft lo hi ns fs).elements.list ∧
    (∀ b ∈ (loaded ft lo hi ns fs).nodes.entityBlocks, ∀ t ∈ b.tags, t.toNat < 2 ^ 31) ∧
    (∀ b ∈ (loaded ft lo hi ns fs).elements.entityBlocks, ∀ t ∈ b.data, t.toNat < 2 ^ 31) ∧
    (∀ b ∈ (loaded ft lo hi ns fs).elements.entityBlocks, 0 < b.numElementsInBlock.toNat ∧ b.numElementsInBlock.toNat ≤ fs.length) := by
  have hreg := loaded_regrouped (ft := ft) (lo := lo) (hi := hi) (ns := ns) ho
  have hlt := hf.es_lt
  have hlt' := hf.ns_lt
  refine ⟨hreg.counted hf, ?_, ?_, ?_, ?_, ?_⟩
  · rw [hreg.nodes_list, hreg.elements_list (by omega)]; exact hr
  · rw [hreg.nodes_list, hreg.elements_list (by omega)]; exact hf
  · intro b hb t ht
    obtain ⟨_, _, _, _, _, h6, _⟩ := nodesOf_block (by omega) (hreg.node hb)
    obtain ⟨n, hn, rfl⟩ := h6 t ht
    exact htag n hn
  · intro b hb t ht
    obtain ⟨_, _, _, _, h5, _⟩ := elementsOf_block (by omega) (fun e he => (hreg.typed e he).1) (hreg.element hb)
    obtain ⟨e, he, h⟩ := h5 t ht
    rcases h with rfl | h
    · obtain ⟨f, hf, rfl⟩ := List.mem_map.mp he
      show (sizeOfInt f.num).toNat < _
      have := f.num.toInt_lt
      have h0 := hnum f hf
      rw [sizeOfInt_toNat h0]
      omega
    · obtain ⟨-, n, hn, hle⟩ := hr e he t h
      exact lt_of_le_of_lt hle (htag n hn)
  · intro b hb
    obtain ⟨_, e2, e3, _⟩ := elementsOf_block (by omega) (fun e he => (hreg.typed e he).1) (hreg.element hb)
    rw [List.length_map] at e3
    exact ⟨e2, e3⟩

end

/-- **C15** (any version 2.2 file to 2.2 binary).  Staying in version 2.2 keeps nodes, elements and blocks identical, but the entities and their physical tags
are not written by `save_msh` and are gone. -/
theorem C15_any22_to_22_binary (cfg : Cfg) {file : Bytes} {ns : List MeshNode} {fs : List FileElem} (h : Is22 cfg file ns fs)
    (hr : NodesInRange ns (fs.map FileElem.elem)) (hf : Fits22 cfg ns (fs.map FileElem.elem)) (hn : ns ≠ []) (he : fs ≠ [])
    (hnum : ∀ f ∈ fs, 0 ≤ f.num.toInt) (htag : ∀ n ∈ ns, n.tag.toNat < 2 ^ 31) (hcount : fs.length < 2 ^ 31) :
    ∃ s file', loadMsh cfg file = .ok s ∧ s.nodes.list = ns ∧ s.elements.list = fs.map FileElem.elem ∧
      saveMsh cfg { s with meshFormat := ⟨b! "2.2", 1, 8⟩ } = (file', .ok ()) ∧
      loadMsh cfg file' = .ok { s with meshFormat := ⟨b! "2.2", 1, 8⟩, entities := {} } := by
  obtain ⟨ho, ft, lo, hi, h1, h2⟩ := load22 h hr hf
  have hlt := hf.es_lt
  obtain ⟨a1, a2, a3, a4, a5, a6⟩ := loaded_again (ft := ft) (lo := lo) (hi := hi) ho hf hr hnum htag
  obtain ⟨file', h3, h4⟩ := C03_binary22 cfg { loaded ft lo hi ns fs with meshFormat := ⟨b! "2.2", 1, 8⟩ } (d := 8) rfl
    (withFormat_ok (loaded_ok ho hf) _) ⟨a1.1, a1.2⟩ (withFormat_fits (loaded_fits ho hf) _)
    (fun b hb => ⟨(a6 b hb).1, lt_of_le_of_lt (a6 b hb).2 hcount⟩) a4 a5
    (fun t ht => absurd ht (by simp [loaded, spec22, MshSpec.dataTags])) (fun t ht => absurd ht (by simp [loaded, spec22, MshSpec.realTags]))
    a2 a3 (fun _ => word_one)
  rw [loaded_convert22 ho hf hn he _ (h2 he hnum)] at h4
  refine ⟨loaded ft lo hi ns fs, file', h1, (loaded_regrouped ho).nodes_list, (loaded_regrouped ho).elements_list (by omega), h3, h4.trans ?_⟩
  have : (loaded ft lo hi ns fs).nodes.mapCoords id = (loaded ft lo hi ns fs).nodes := by
    unfold Nodes.mapCoords; simp
  rw [this]

/-- **C15** (any version 2.2 file to 2.2 text).  As above, with the coordinates' text. -/
theorem C15_any22_to_22_ascii (cfg : Cfg) {file : Bytes} {ns : List MeshNode} {fs : List FileElem} (h : Is22 cfg file ns fs)
    (hr : NodesInRange ns (fs.map FileElem.elem)) (hf : Fits22 cfg ns (fs.map FileElem.elem)) (hn : ns ≠ []) (he : fs ≠ [])
    (hnum : ∀ f ∈ fs, 0 ≤ f.num.toInt) (htag : ∀ n ∈ ns, n.tag.toNat < 2 ^ 31)
    (hd : ∀ n ∈ ns, Printable cfg.fmt n.x ∧ Printable cfg.fmt n.y ∧ Printable cfg.fmt n.z) :
    ∃ s file', loadMsh cfg file = .ok s ∧ s.nodes.list = ns ∧ s.elements.list = fs.map FileElem.elem ∧
      saveMsh cfg { s with meshFormat := ⟨b! "2.2", 0, 8⟩ } = (file', .ok ()) ∧
      loadMsh cfg file' = .ok { s with meshFormat := ⟨b! "2.2", 0, 8⟩, entities := {}, nodes := s.nodes.mapCoords (reread cfg.fmt) } := by
  obtain ⟨ho, ft, lo, hi, h1, h2⟩ := load22 h hr hf
  have hlt := hf.es_lt
  obtain ⟨a1, a2, a3, a4, a5, a6⟩ := loaded_again (ft := ft) (lo := lo) (hi := hi) ho hf hr hnum htag
  obtain ⟨file', h3, h4⟩ := C04_ascii22 cfg { loaded ft lo hi ns fs with meshFormat := ⟨b! "2.2", 0, 8⟩ } (d := 8) rfl
    (withFormat_ok (loaded_ok ho hf) _) ⟨a1.1, a1.2⟩ (withFormat_fits (loaded_fits ho hf) _) a5
    (fun x hx => by
      rcases mem_doubles22.mp hx with h | h | h | h | h
      · have h : x ∈ (loaded ft lo hi ns fs).nodes.list.flatMap (fun n => [n.x, n.y, n.z]) := h
        rw [(loaded_regrouped ho).nodes_list] at h
        obtain ⟨n, hn, hx⟩ := List.mem_flatMap.mp h
        simp only [List.mem_cons, List.not_mem_nil, or_false] at hx
        rcases hx with rfl | rfl | rfl
        · exact (hd n hn).1
        · exact (hd n hn).2.1
        · exact (hd n hn).2.2
      all_goals exact absurd h (by simp [loaded, spec22, MshSpec.realTags]))
    a2 a3 (fun _ => word_one)
  rw [loaded_convert22 ho hf hn he _ (h2 he hnum)] at h4
  exact ⟨loaded ft lo hi ns fs, file', h1, (loaded_regrouped ho).nodes_list, (loaded_regrouped ho).elements_list (by omega), h3, h4⟩

end MshIO
