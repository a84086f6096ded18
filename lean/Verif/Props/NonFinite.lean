import Verif.Proofs.SunkFile
import Verif.Props.Save
import Verif.Props.Demo22

/-!
# C31 and C37: numbers that cannot be read back as text

`Printable P x` says that the characters `operator<<` prints for `x` in the format `P` are read by `operator>>` as a
number ; no infinity or NaN is printable (`not_printable_of_not_finite`), every finite double is at precision 17 and above
(C07) and with `std::fixed` (C50).
-/

namespace MshIO

/-- A load that brings nothing back: no spec and no exception the caller could handle. -/
def Fruitless (o : Outcome MshSpec) : Prop := o = .abort ∨ o = .hang ∨ o = .ub

theorem Fruitless.not_loaded {o : Outcome MshSpec} (h : Fruitless o) : (∀ s, o ≠ .ok s) ∧ ∀ e, o ≠ .throw e := by
  rcases h with rfl | rfl | rfl <;> exact ⟨by simp, by simp⟩

/-- Every double that a version 4.1 ASCII file contains.  Nodes are left out of the file when `num_nodes` is zero,
curves and patches by builds without the extension (`ext`). -/
def MshSpec.textDoubles41 (ext : Bool) (s : MshSpec) : List Double :=
  s.entities.points.flatMap (fun p => [p.x, p.y, p.z]) ++
  (s.entities.curves ++ s.entities.surfaces ++ s.entities.volumes).flatMap
    (fun b => [b.minX, b.minY, b.minZ, b.maxX, b.maxY, b.maxZ]) ++
  (if s.nodes.numNodes = 0 then [] else s.nodes.entityBlocks.flatMap (·.data)) ++
  s.realTags ++
  (s.nodeData ++ s.elementData ++ s.elementNodeData).flatMap (fun d => d.entries.flatMap (·.data)) ++
  (if ext then s.curves.flatMap (·.data) ++ s.patches.flatMap (·.data) else [])

/-- Every double that a version 2.2 ASCII file contains: three coordinates per node, no entities. -/
def MshSpec.textDoubles22 (ext : Bool) (s : MshSpec) : List Double :=
  s.nodes.list.flatMap (fun n => [n.x, n.y, n.z]) ++
  s.realTags ++
  (s.nodeData ++ s.elementData ++ s.elementNodeData).flatMap (fun d => d.entries.flatMap (·.data)) ++
  (if ext then s.curves.flatMap (·.data) ++ s.patches.flatMap (·.data) else [])

theorem MshSpec.Ok.shaped {s : MshSpec} (h : s.Ok) (ext : Bool) : s.Shaped ext where
  nodeBlocks := h.nodeBlocks
  node := h.node
  elementBlocks := h.elementBlocks
  element := by
    intro b hb n hn
    obtain ⟨m, hm, hl⟩ := h.element b hb
    rw [hm] at hn
    cases hn
    exact hl
  curve := fun _ => h.curve
  patch := fun _ => h.patch

theorem MshSpec.Fits.inMemory {cfg : Cfg} {s : MshSpec} (h : s.Fits cfg) : s.InMemory :=
  fun n hn => lt_of_le_of_lt (h.all n hn) cfg.maxCount_lt

theorem MshSpec.Ok.saved {cfg : Cfg} {s : MshSpec} (h : s.Ok) (hf : s.Fits cfg) (hv : s.KnownVersion) :
    saveMsh cfg s = ((saveMsh cfg s).1, .ok ()) := by
  have := C38_saves cfg s (h.shaped _) hf.inMemory hv fun b hb hn => by
    obtain ⟨m, hm, _⟩ := h.element b hb
    rw [hm] at hn
    cases hn
  exact Prod.ext rfl this

theorem tailPrints_of {cfg : Cfg} {s : MshSpec}
    (h1 : ∀ x ∈ s.realTags, Printable cfg.fmt x)
    (h2 : ∀ x ∈ (s.nodeData ++ s.elementData ++ s.elementNodeData).flatMap (fun d => d.entries.flatMap (·.data)), Printable cfg.fmt x)
    (h3 : ∀ x ∈ (if cfg.nanospline then s.curves.flatMap (·.data) ++ s.patches.flatMap (·.data) else []), Printable cfg.fmt x) :
    s.TailPrints cfg True where
  data := fun d hd => ⟨fun x hx => h1 x (List.mem_flatMap.mpr ⟨d, hd, hx⟩), fun _ e he x hx =>
    h2 x (List.mem_flatMap.mpr ⟨d, hd, List.mem_flatMap.mpr ⟨e, he, hx⟩⟩)⟩
  curves := fun hn _ c hc x hx => h3 x (by
    rw [if_pos hn]; exact List.mem_append_left _ (List.mem_flatMap.mpr ⟨c, hc, hx⟩))
  patches := fun hn _ c hc x hx => h3 x (by
    rw [if_pos hn]; exact List.mem_append_right _ (List.mem_flatMap.mpr ⟨c, hc, hx⟩))

theorem tailPrints_get {cfg : Cfg} {s : MshSpec} (h : s.TailPrints cfg True) :
    (∀ x ∈ s.realTags, Printable cfg.fmt x) ∧
    (∀ x ∈ (s.nodeData ++ s.elementData ++ s.elementNodeData).flatMap (fun d => d.entries.flatMap (·.data)), Printable cfg.fmt x) ∧
    (∀ x ∈ (if cfg.nanospline then s.curves.flatMap (·.data) ++ s.patches.flatMap (·.data) else []), Printable cfg.fmt x) := by
  refine ⟨fun x hx => ?_, fun x hx => ?_, fun x hx => ?_⟩
  · obtain ⟨d, hd, hx⟩ := List.mem_flatMap.mp hx
    exact (h.data d hd).1 x hx
  · obtain ⟨d, hd, hx⟩ := List.mem_flatMap.mp hx
    obtain ⟨e, he, hx⟩ := List.mem_flatMap.mp hx
    exact (h.data d hd).2 trivial e he x hx
  · split at hx
    · next hn =>
      rcases List.mem_append.mp hx with hx | hx
      · obtain ⟨c, hc, hx⟩ := List.mem_flatMap.mp hx
        exact h.curves hn trivial c hc x hx
      · obtain ⟨c, hc, hx⟩ := List.mem_flatMap.mp hx
        exact h.patches hn trivial c hc x hx
    · cases hx

theorem prints41_iff {cfg : Cfg} {s : MshSpec} :
    s.Prints41 cfg ↔ ∀ x ∈ s.textDoubles41 cfg.nanospline, Printable cfg.fmt x := by
  have hent : s.entities.doubles = s.entities.points.flatMap (fun p => [p.x, p.y, p.z]) ++
    (s.entities.curves ++ s.entities.surfaces ++ s.entities.volumes).flatMap
      (fun b => [b.minX, b.minY, b.minZ, b.maxX, b.maxY, b.maxZ]) := rfl
  constructor
  · intro h x hx
    unfold MshSpec.textDoubles41 at hx
    rw [← hent] at hx
    obtain ⟨t1, t2, t3⟩ := tailPrints_get h.tail
    simp only [List.mem_append] at hx
    rcases hx with (((hx | hx) | hx) | hx) | hx
    · exact h.entities x hx
    · split at hx
      · cases hx
      · next h0 =>
        obtain ⟨b, hb, hx⟩ := List.mem_flatMap.mp hx
        exact h.nodes h0 b hb x hx
    · exact t1 x hx
    · refine t2 x ?_
      simpa only [List.mem_append] using hx
    · exact t3 x hx
  · intro h
    unfold MshSpec.textDoubles41 at h
    rw [← hent] at h
    have m : ∀ x, _ := fun x => h x
    refine ⟨fun x hx => h x ?_, fun h0 b hb x hx => h x ?_, tailPrints_of (fun x hx => h x ?_) (fun x hx => h x ?_) fun x hx => h x ?_⟩
    · simp only [List.mem_append]; exact Or.inl (Or.inl (Or.inl (Or.inl hx)))
    · refine List.mem_append_left _ (List.mem_append_left _ (List.mem_append_left _ (List.mem_append_right _ ?_)))
      rw [if_neg h0]
      exact List.mem_flatMap.mpr ⟨b, hb, hx⟩
    · exact List.mem_append_left _ (List.mem_append_left _ (List.mem_append_right _ hx))
    · exact List.mem_append_left _ (List.mem_append_right _ hx)
    · exact List.mem_append_right _ hx

/-! ## C37 -/

/-- **C37**, version 4.1.  A spec with a coordinate that is NaN or infinite is saved without complaint as ASCII, and
loading that file aborts on an assertion in builds that have assertions and never returns in builds that have not.
The doubles of `$Entities`, which precede the nodes, are supposed readable; if they are not, see
`C37_ascii41_fruitless`. -/
theorem C37_nodes41 (cfg : Cfg) (s : MshSpec) (hfmt : s.meshFormat = ⟨b! "4.1", 0, 8⟩) (hs : s.Ok) (hf : s.Fits cfg)
    (hpar : cfg.asserts = true → ∀ b ∈ s.nodes.entityBlocks, 0 ≤ b.parametric.toInt ∧ b.parametric.toInt ≤ 3)
    (he : ∀ p ∈ s.entities.points, ∀ x ∈ [p.x, p.y, p.z], Printable cfg.fmt x)
    (he' : ∀ e ∈ s.entities.curves ++ s.entities.surfaces ++ s.entities.volumes,
      ∀ x ∈ [e.minX, e.minY, e.minZ, e.maxX, e.maxY, e.maxZ], Printable cfg.fmt x)
    (h0 : s.nodes.numNodes ≠ 0)
    (hbad : ∃ b ∈ s.nodes.entityBlocks, ∃ x ∈ b.data, x.isFinite = false) :
    ∃ file, saveMsh cfg s = (file, .ok ()) ∧ loadMsh cfg file = if cfg.asserts then .abort else .hang := by
  refine ⟨_, hs.saved hf (Or.inl (by rw [hfmt])), ?_⟩
  refine Breaks.load (wb_msh41_nodes cfg s (by rw [hfmt]) (by rw [hfmt]) (by rw [hfmt]) hs hf hpar ?_ h0 ?_)
  · intro d hd
    rcases List.mem_append.mp (show d ∈ _ ++ _ from hd) with hd | hd
    · obtain ⟨p, hp, hx⟩ := List.mem_flatMap.mp hd
      exact he p hp d hx
    · obtain ⟨p, hp, hx⟩ := List.mem_flatMap.mp hd
      exact he' p hp d hx
  · obtain ⟨b, hb, x, hx, hn⟩ := hbad
    exact ⟨b, hb, x, hx, not_printable_of_not_finite hn⟩

/-- **C37**, version 2.2. -/
theorem C37_nodes22 (cfg : Cfg) (s : MshSpec) {d : Int32} (hfmt : s.meshFormat = ⟨b! "2.2", 0, d⟩) (hs : s.Ok) (hf : s.Fits cfg)
    (hc : s.Counted) (h3 : 3 * s.nodes.list.length ≤ cfg.maxCount)
    (hbad : ∃ n ∈ s.nodes.list, ∃ x ∈ [n.x, n.y, n.z], x.isFinite = false) :
    ∃ file, saveMsh cfg s = (file, .ok ()) ∧ loadMsh cfg file = if cfg.asserts then .abort else .hang := by
  refine ⟨_, hs.saved hf (Or.inr (by rw [hfmt])), ?_⟩
  obtain ⟨n, hn, x, hx, hfin⟩ := hbad
  have hl : 0 < s.nodes.list.length := List.length_pos_of_mem hn
  exact Breaks.load (wb_msh22_nodes cfg s (by rw [hfmt]) (by rw [hfmt]) hs hf hc h3 (by omega)
    ⟨n, hn, x, hx, not_printable_of_not_finite hfin⟩)

/-- **C37** A version 4.1 ASCII file can be loaded if and only if every number in it can be read: otherwise loading
neither returns nor throws. -/
theorem C37_ascii41_iff (cfg : Cfg) (s : MshSpec) (hfmt : s.meshFormat = ⟨b! "4.1", 0, 8⟩) (hs : s.Ok) (hf : s.Fits cfg)
    (hpar : cfg.asserts = true → ∀ b ∈ s.nodes.entityBlocks, 0 ≤ b.parametric.toInt ∧ b.parametric.toInt ≤ 3)
    (hw : cfg.nanospline = true → Word s.nanosplineVersion) :
    ∃ file, saveMsh cfg s = (file, .ok ()) ∧
      ((∀ x ∈ s.textDoubles41 cfg.nanospline, Printable cfg.fmt x) →
        loadMsh cfg file = .ok (s.convert cfg.nanospline id (reread cfg.fmt) (reread cfg.fmt))) ∧
      ((∃ x ∈ s.textDoubles41 cfg.nanospline, ¬ Printable cfg.fmt x) → Fruitless (loadMsh cfg file)) := by
  have h := sx_msh41 cfg s (by rw [hfmt]) (by rw [hfmt]) (by rw [hfmt]) hs hf hpar hw
  refine ⟨_, hs.saved hf (Or.inl (by rw [hfmt])), fun hp => ?_, fun ⟨x, hx, hn⟩ => ?_⟩
  · obtain ⟨file, e1, e2⟩ := (h.1 (prints41_iff.mpr hp)).load41 (by show s.meshFormat.version = _; rw [hfmt])
    rw [e1]
    exact e2
  · exact Breaks.load (h.2 fun hp => hn (prints41_iff.mp hp x hx))

/-- **C37** A NaN or an infinity anywhere in a version 4.1 ASCII file makes it unreadable. -/
theorem C37_ascii41_fruitless (cfg : Cfg) (s : MshSpec) (hfmt : s.meshFormat = ⟨b! "4.1", 0, 8⟩) (hs : s.Ok) (hf : s.Fits cfg)
    (hpar : cfg.asserts = true → ∀ b ∈ s.nodes.entityBlocks, 0 ≤ b.parametric.toInt ∧ b.parametric.toInt ≤ 3)
    (hw : cfg.nanospline = true → Word s.nanosplineVersion)
    (hbad : ∃ x ∈ s.textDoubles41 cfg.nanospline, x.isFinite = false) :
    ∃ file, saveMsh cfg s = (file, .ok ()) ∧ Fruitless (loadMsh cfg file) := by
  obtain ⟨file, e1, _, e2⟩ := C37_ascii41_iff cfg s hfmt hs hf hpar hw
  obtain ⟨x, hx, hn⟩ := hbad
  exact ⟨file, e1, e2 ⟨x, hx, not_printable_of_not_finite hn⟩⟩

/-- **C37** A number that cannot be read, such as a NaN or an infinity, anywhere in a version 2.2 ASCII file makes it
unreadable. -/
theorem C37_ascii22_fruitless (cfg : Cfg) (s : MshSpec) {d : Int32} (hfmt : s.meshFormat = ⟨b! "2.2", 0, d⟩) (hs : s.Ok) (hf : s.Fits cfg)
    (hc : s.Counted) (htag : ∀ b ∈ s.elements.entityBlocks, ∀ t ∈ b.data, t.toNat < 2 ^ 31)
    (h3 : 3 * s.nodes.list.length ≤ cfg.maxCount) (h1 : 1 ≤ cfg.maxCount)
    (hfit : (s.elements.list.map fun e => e.nodes.length + 1).sum ≤ cfg.maxCount)
    (hw : cfg.nanospline = true → Word s.nanosplineVersion)
    (hbad : ∃ x ∈ s.textDoubles22 cfg.nanospline, ¬ Printable cfg.fmt x) :
    ∃ file, saveMsh cfg s = (file, .ok ()) ∧ Fruitless (loadMsh cfg file) := by
  refine ⟨_, hs.saved hf (Or.inr (by rw [hfmt])), ?_⟩
  by_cases hn : ∀ n ∈ s.nodes.list, ∀ x ∈ [n.x, n.y, n.z], Printable cfg.fmt x
  · refine Breaks.load (wb_msh22_tail cfg s (by rw [hfmt]) (by rw [hfmt]) hs hf hc htag hw hn h3 h1 hfit fun ht => ?_)
    obtain ⟨x, hx, hp⟩ := hbad
    obtain ⟨t1, t2, t3⟩ := tailPrints_get ht
    unfold MshSpec.textDoubles22 at hx
    rw [List.mem_append, List.mem_append, List.mem_append] at hx
    rcases hx with ((hx | hx) | hx) | hx
    · obtain ⟨n, hm, hx⟩ := List.mem_flatMap.mp hx
      exact hp (hn n hm x hx)
    · exact hp (t1 x hx)
    · exact hp (t2 x hx)
    · exact hp (t3 x hx)
  · push Not at hn
    have := Breaks.load (wb_msh22_nodes cfg s (by rw [hfmt]) (by rw [hfmt]) hs hf hc h3 h1 hn)
    unfold deadEnd at this
    rw [this]
    split
    · exact Or.inl rfl
    · exact Or.inr (Or.inl rfl)

/-! ## C31 -/

/-- The real tags of all data sections, section by section. -/
def MshSpec.realTagLists (s : MshSpec) : List (List Double) :=
  (s.nodeData ++ s.elementData ++ s.elementNodeData).map (·.header.realTags)

/-- **C31** In a version 4.1 binary file the real tags are rounded as text in the stream's format would be
(`reread`), although the data values themselves are bit-identical. -/
theorem C31_rounded41 (cfg : Cfg) (s : MshSpec) (hfmt : s.meshFormat = ⟨b! "4.1", 1, 8⟩) (hs : s.Ok)
    (hf : s.Fits cfg) (hreal : ∀ x ∈ s.realTags, Printable cfg.fmt x)
    (hw : cfg.nanospline = true → Word s.nanosplineVersion) :
    ∃ file s', saveMsh cfg s = (file, .ok ()) ∧ loadMsh cfg file = .ok s' ∧
      s'.realTagLists = s.realTagLists.map (·.map (reread cfg.fmt)) ∧
      (s'.nodeData ++ s'.elementData ++ s'.elementNodeData).map (fun d => d.entries.map (·.data)) =
        (s.nodeData ++ s.elementData ++ s.elementNodeData).map (fun d => d.entries.map (·.data)) := by
  obtain ⟨file, h1, h2⟩ := C01_binary41 cfg s hfmt hs hf hreal hw
  refine ⟨file, _, h1, h2, ?_, ?_⟩
  · simp only [MshSpec.realTagLists, MshSpec.convert, List.map_append, List.map_map]
    rfl
  · simp only [MshSpec.convert, List.map_append, List.map_map]
    simp only [Function.comp_def, Data.convert, List.map_map, List.map_id, List.map_id_fun, id]

/-- **C31** The same for version 2.2 binary files. -/
theorem C31_rounded22 (cfg : Cfg) (s : MshSpec) {d : Int32} (hfmt : s.meshFormat = ⟨b! "2.2", 1, d⟩) (hs : s.Ok) (hc : s.Counted)
    (hf : s.Fits cfg) (hblk : ∀ b ∈ s.elements.entityBlocks, 0 < b.numElementsInBlock.toNat ∧ b.numElementsInBlock.toNat < 2 ^ 31)
    (hntag : ∀ b ∈ s.nodes.entityBlocks, ∀ t ∈ b.tags, t.toNat < 2 ^ 31)
    (hetag : ∀ b ∈ s.elements.entityBlocks, ∀ t ∈ b.data, t.toNat < 2 ^ 31)
    (htag : ∀ t ∈ s.dataTags, t.toNat < 2 ^ 31)
    (hreal : ∀ x ∈ s.realTags, Printable cfg.fmt x)
    (hr : NodesInRange s.nodes.list s.elements.list) (hfit : Fits22 cfg s.nodes.list s.elements.list)
    (hw : cfg.nanospline = true → Word s.nanosplineVersion) :
    ∃ file s', saveMsh cfg s = (file, .ok ()) ∧ loadMsh cfg file = .ok s' ∧
      s'.realTagLists = s.realTagLists.map (·.map (reread cfg.fmt)) ∧
      (s'.nodeData ++ s'.elementData ++ s'.elementNodeData).map (fun d => d.entries.map (·.data)) =
        (s.nodeData ++ s.elementData ++ s.elementNodeData).map (fun d => d.entries.map (·.data)) := by
  obtain ⟨file, h1, h2⟩ := C03_binary22 cfg s hfmt hs hc hf hblk hntag hetag htag hreal hr hfit hw
  refine ⟨file, _, h1, h2, ?_, ?_⟩
  · simp only [MshSpec.realTagLists, MshSpec.convert22, MshSpec.convert, List.map_append, List.map_map]
    rfl
  · simp only [MshSpec.convert22, MshSpec.convert, List.map_append, List.map_map]
    simp only [Function.comp_def, Data.convert, List.map_map, List.map_id, List.map_id_fun, id]

/-- **C31** With a format that loses nothing (precision 17 and above, C07; `std::scientific` from 16, C50) finite real tags of a version 4.1 binary file are exact. -/
theorem C31_exact41 (cfg : Cfg) (hP : cfg.fmt.Lossless) (s : MshSpec) (hfmt : s.meshFormat = ⟨b! "4.1", 1, 8⟩) (hs : s.Ok)
    (hf : s.Fits cfg) (hreal : ∀ x ∈ s.realTags, x.isFinite = true)
    (hw : cfg.nanospline = true → Word s.nanosplineVersion) :
    ∃ file s', saveMsh cfg s = (file, .ok ()) ∧ loadMsh cfg file = .ok s' ∧ s'.realTagLists = s.realTagLists := by
  obtain ⟨file, s', h1, h2, h3, _⟩ := C31_rounded41 cfg s hfmt hs hf (fun x hx => (hP _ (hreal x hx)).1) hw
  refine ⟨file, s', h1, h2, h3.trans ?_⟩
  rw [List.map_congr_left (g := id) fun l hl => ?_, List.map_id]
  refine (List.map_congr_left (g := id) fun x hx => ?_).trans (List.map_id _)
  obtain ⟨d, hd, rfl⟩ := List.mem_map.mp hl
  exact (hP _ (hreal x (List.mem_flatMap.mpr ⟨d, hd, hx⟩))).2

/-- **C31** A real tag that is NaN or infinite makes a version 4.1 binary file unreadable: it is saved without
complaint, and loading it uses an uninitialised number. -/
theorem C31_unreadable41 (cfg : Cfg) (s : MshSpec) (hfmt : s.meshFormat = ⟨b! "4.1", 1, 8⟩) (hs : s.Ok)
    (hf : s.Fits cfg) (hw : cfg.nanospline = true → Word s.nanosplineVersion)
    (hbad : ∃ x ∈ s.realTags, x.isFinite = false) :
    ∃ file, saveMsh cfg s = (file, .ok ()) ∧ loadMsh cfg file = .ub := by
  obtain ⟨x, hx, hn⟩ := hbad
  exact ⟨_, hs.saved hf (Or.inl (by rw [hfmt])), Breaks.load (wb_msh41_tags cfg s (by rw [hfmt]) (by rw [hfmt]) (by rw [hfmt]) hs hf hw
    ⟨x, hx, not_printable_of_not_finite hn⟩)⟩

/-- **C31** The same for version 2.2 binary files. -/
theorem C31_unreadable22 (cfg : Cfg) (s : MshSpec) {d : Int32} (hfmt : s.meshFormat = ⟨b! "2.2", 1, d⟩) (hs : s.Ok)
    (hf : s.Fits cfg) (hc : s.Counted)
    (hsize : ∀ b ∈ s.elements.entityBlocks, 0 < b.numElementsInBlock.toNat ∧ b.numElementsInBlock.toNat < 2 ^ 31)
    (h3 : 3 * s.nodes.list.length ≤ cfg.maxCount) (h1 : 1 ≤ cfg.maxCount)
    (hfit : (s.elements.list.map fun e => e.nodes.length + 1).sum ≤ cfg.maxCount)
    (hw : cfg.nanospline = true → Word s.nanosplineVersion)
    (hbad : ∃ x ∈ s.realTags, x.isFinite = false) :
    ∃ file, saveMsh cfg s = (file, .ok ()) ∧ loadMsh cfg file = .ub := by
  obtain ⟨x, hx, hn⟩ := hbad
  exact ⟨_, hs.saved hf (Or.inr (by rw [hfmt])), Breaks.load (wb_msh22_tags cfg s (by rw [hfmt]) (by rw [hfmt]) hs hf hc hsize hw
    h3 h1 hfit ⟨x, hx, not_printable_of_not_finite hn⟩)⟩

/-! ## Concrete cases -/

/-- `demoSpec` with another data section whose real tag is `y`. -/
def demoTagged (fmt : MeshFormat) (y : Double) : MshSpec :=
  { demoSpec fmt dOne with elementData := [⟨⟨[b! "r"], [dOne, y], [0, 1, 0]⟩, []⟩] }

theorem demoTagged_ok (fmt : MeshFormat) (y : Double) : (demoTagged fmt y).Ok :=
  let h := demoSpec_ok fmt dOne
  ⟨h.1, h.2, h.3, h.4, h.5, by
    intro d hd
    simp only [demoTagged, List.mem_cons, List.not_mem_nil, or_false] at hd
    subst hd
    exact ⟨0, 1, 0, [], rfl, rfl, by decide, by simp⟩, h.7, h.8, h.9⟩

theorem demoTagged_fits {cfg : Cfg} (h : 6 ≤ cfg.maxCount) (fmt : MeshFormat) (y : Double) :
    (demoTagged fmt y).Fits cfg where
  all := by
    intro n hn
    have : n ∈ [1,1,0,1,0,2,1,1,1,1,0,0,1,1,2,1,5,2,6,4,1,1,3,2,1,1,1,2,3,0,1,0,3,1,3] := hn
    simp only [List.mem_cons, List.not_mem_nil, or_false] at this
    omega
  groups := by simp [demoTagged, demoSpec]

theorem demoSpec_entities (fmt : MeshFormat) (x : Double) :
    (∀ p ∈ (demoSpec fmt x).entities.points, ∀ x ∈ [p.x, p.y, p.z], Printable (.general 6) x) ∧
    ∀ e ∈ (demoSpec fmt x).entities.curves ++ (demoSpec fmt x).entities.surfaces ++ (demoSpec fmt x).entities.volumes,
      ∀ x ∈ [e.minX, e.minY, e.minZ, e.maxX, e.maxY, e.maxZ], Printable (.general 6) x := by
  obtain ⟨h1, _, h2, _⟩ := demo_exact
  constructor
  · simp [demoSpec, h1, h2]
  · simp [demoSpec, h1, h2]

theorem demoSpec_parametric (fmt : MeshFormat) (x : Double) :
    ∀ b ∈ (demoSpec fmt x).nodes.entityBlocks, 0 ≤ b.parametric.toInt ∧ b.parametric.toInt ≤ 3 := by
  simp only [demoSpec, List.mem_cons, List.not_mem_nil, or_false, forall_eq_or_imp, forall_eq]
  decide

/-- C37: a mesh with a NaN coordinate, saved as ASCII by a debug build, aborts on load. -/
example : ∃ file, saveMsh demoDebug (demoSpec ⟨b! "4.1", 0, 8⟩ dNaN) = (file, .ok ()) ∧ loadMsh demoDebug file = .abort :=
  C37_nodes41 demoDebug _ rfl (demoSpec_ok _ _) (demoSpec_fits (by decide) _ _) (fun _ => demoSpec_parametric _ _)
    (demoSpec_entities _ _).1 (demoSpec_entities _ _).2 (by simp [demoSpec])
    ⟨_, List.mem_cons_self, dNaN, by simp, by decide⟩

/-- C37: saved and loaded by a release build, it hangs. -/
example : ∃ file, saveMsh demoCfg (demoSpec ⟨b! "4.1", 0, 8⟩ dNaN) = (file, .ok ()) ∧ loadMsh demoCfg file = .hang :=
  C37_nodes41 demoCfg _ rfl (demoSpec_ok _ _) (demoSpec_fits (by decide) _ _) (by decide)
    (demoSpec_entities _ _).1 (demoSpec_entities _ _).2 (by simp [demoSpec])
    ⟨_, List.mem_cons_self, dNaN, by simp, by decide⟩

/-- C37: the same in version 2.2. -/
example : ∃ file, saveMsh demoCfg (demoSpec ⟨b! "2.2", 0, 8⟩ dNaN) = (file, .ok ()) ∧ loadMsh demoCfg file = .hang :=
  C37_nodes22 demoCfg _ (d := 8) rfl (demoSpec_ok _ _) (demoSpec_fits (by decide) _ _) (demo22_counted _ _) (show 3 * 3 ≤ 1000000 by decide)
    ⟨⟨1, dOne, dTenth, dNaN⟩, List.mem_cons_self, dNaN, by simp, by decide⟩

/-- C37: a NaN in a curve makes the whole file unreadable. -/
example : ∃ file, saveMsh demoExt (demoNano ⟨b! "4.1", 0, 8⟩ dNaN) = (file, .ok ()) ∧ Fruitless (loadMsh demoExt file) :=
  C37_ascii41_fruitless demoExt _ rfl (demoNano_ok _ _) (demoNano_fits (by decide) _ _) (fun _ => demoSpec_parametric ⟨b! "4.1", 0, 8⟩ dNaN)
    (fun _ => show Word (b! "1.0") by unfold Word; decide) ⟨dNaN, List.mem_append_right _ (by simp [demoExt, demoNano]), by decide⟩

/-- C37: a NaN in a data section of a version 2.2 file. -/
example : ∃ file, saveMsh demoDebug (demoSpec ⟨b! "2.2", 0, 8⟩ dNaN) = (file, .ok ()) ∧ Fruitless (loadMsh demoDebug file) :=
  C37_ascii22_fruitless demoDebug _ (d := 8) rfl (demoSpec_ok _ _) (demoSpec_fits (by decide) _ _) (demo22_counted _ _) (demo22_tags _ _).2.1
    (show 3 * 3 ≤ 1000000 by decide) (by decide) (show 4 ≤ 1000000 by decide) (by simp [demoDebug])
    ⟨dNaN, List.mem_append_left _ (List.mem_append_right _ (by simp [demoSpec])), not_printable_of_not_finite (by decide)⟩

/-- C31: π as a real tag comes back from a binary file rounded to six digits, 3.14159. -/
example : ∃ file s', saveMsh demoDebug (demoTagged ⟨b! "4.1", 1, 8⟩ dPi) = (file, .ok ()) ∧ loadMsh demoDebug file = .ok s' ∧
    s'.realTagLists = [[dTenth], [dOne, ⟨0x400921F9F01B866E⟩], []] := by
  have hp : Printable (.general 6) dPi ∧ reread (.general 6) dPi = ⟨0x400921F9F01B866E⟩ := by
    unfold Printable reread
    exact ⟨by decide +kernel, by decide +kernel⟩
  obtain ⟨h1, e1, h2, e2⟩ := demo_exact
  obtain ⟨file, s', a, b, c, _⟩ := C31_rounded41 demoDebug (demoTagged ⟨b! "4.1", 1, 8⟩ dPi) rfl (demoTagged_ok _ _)
    (demoTagged_fits (by decide) _ _) (by
      intro x hx
      have : x ∈ [dTenth, dOne, dPi] := hx
      simp only [List.mem_cons, List.not_mem_nil, or_false] at this
      rcases this with rfl | rfl | rfl
      · exact h2
      · exact h1
      · exact hp.1) (by simp [demoDebug])
  refine ⟨file, s', a, b, c.trans ?_⟩
  show [[reread (.general 6) dTenth], [reread (.general 6) dOne, reread (.general 6) dPi], []] = _
  rw [e1, e2, hp.2]

/-- C31: at precision 17 it is exact. -/
example : ∃ file s', saveMsh demo17 (demoTagged ⟨b! "4.1", 1, 8⟩ dPi) = (file, .ok ()) ∧ loadMsh demo17 file = .ok s' ∧
    s'.realTagLists = [[dTenth], [dOne, dPi], []] :=
  C31_exact41 demo17 (C07_lossless_general 17 (le_refl 17)) (demoTagged ⟨b! "4.1", 1, 8⟩ dPi) rfl (demoTagged_ok _ _) (demoTagged_fits (by decide) _ _) (by
      intro x hx
      have : x ∈ [dTenth, dOne, dPi] := hx
      simp only [List.mem_cons, List.not_mem_nil, or_false] at this
      rcases this with rfl | rfl | rfl <;> decide) (fun _ => show Word (b! "1.0") by unfold Word; decide)

/-- C31: a NaN as a real tag. -/
example : ∃ file, saveMsh demoDebug (demoTagged ⟨b! "4.1", 1, 8⟩ dNaN) = (file, .ok ()) ∧ loadMsh demoDebug file = .ub :=
  C31_unreadable41 demoDebug _ rfl (demoTagged_ok _ _) (demoTagged_fits (by decide) _ _) (by simp [demoDebug])
    ⟨dNaN, by simp [MshSpec.realTags, demoTagged, demoSpec], by decide⟩

example : ∃ file, saveMsh demoDebug (demoTagged ⟨b! "2.2", 1, 8⟩ dNaN) = (file, .ok ()) ∧ loadMsh demoDebug file = .ub :=
  C31_unreadable22 demoDebug _ (d := 8) rfl (demoTagged_ok _ _) (demoTagged_fits (by decide) _ _) ⟨rfl, rfl⟩
    (demo22_tags ⟨b! "2.2", 1, 8⟩ dOne).2.2 (show 3 * 3 ≤ 1000000 by decide) (by decide) (show 4 ≤ 1000000 by decide) (by simp [demoDebug])
    ⟨dNaN, by simp [MshSpec.realTags, demoTagged, demoSpec], by decide⟩

end MshIO
