import Verif.Proofs.PythonCut
import Verif.Props.Demo
import Verif.Props.Numeral

/-!
# C79, C80: `repr` in the Python binding

`Utf8` (a byte string that is the encoding of characters) and `MshSpec.shown` (what is shown of a spec) are explained in
`Spec/Python.lean`; `none` means that Python raises `UnicodeDecodeError`.
-/

namespace MshIO

/-! ## C79 -/

/-- **C79** A `std::string` arrives in Python, byte for byte, exactly if it is valid UTF-8. -/
theorem C79_decodes (b t : Bytes) : pyStr b = some t ↔ t = b ∧ Utf8 b := by
  rw [pyStr_some, utf8Ok_iff]
  exact and_congr_left fun _ => eq_comm

/-- **C79** `repr(spec)` raises exactly if the version or the name of a physical group is not valid UTF-8. -/
theorem C79_spec_raises (s : MshSpec) :
    s.pyRepr = none ↔ ¬ Utf8 s.meshFormat.version ∨ ∃ g ∈ s.physicalGroups, ¬ Utf8 g.name := by
  have h := spec_ok s
  simp only [utf8Ok_iff] at h
  rw [Option.eq_none_iff_forall_ne_some, ← not_exists, h, not_and_or]
  simp only [not_forall, exists_prop]

/-- **C79** So do the format and a group by themselves. -/
theorem C79_format_raises (m : MeshFormat) : m.pyRepr = none ↔ ¬ Utf8 m.version := by
  rw [Option.eq_none_iff_forall_ne_some, ← not_exists, format_ok, utf8Ok_iff]

theorem C79_group_raises (g : PhysicalGroup) : g.pyRepr = none ↔ ¬ Utf8 g.name := by
  rw [Option.eq_none_iff_forall_ne_some, ← not_exists, group_ok, utf8Ok_iff]

/-- **C79** No other object's `repr` ever raises, whatever it contains. -/
theorem C79_others (nb : NodeBlock) (n : Nodes) (eb : ElementBlock) (e : Elements) (h : DataHeader) (de : DataEntry) (d : Data)
    (p : PointEntity) (b : BoxEntity) (i : Entities) :
    nb.pyRepr ≠ none ∧ n.pyRepr ≠ none ∧ eb.pyRepr ≠ none ∧ e.pyRepr ≠ none ∧ h.pyRepr ≠ none ∧ de.pyRepr ≠ none ∧
      d.pyRepr ≠ none ∧ p.pyRepr ≠ none ∧ b.pyReprCurve ≠ none ∧ b.pyReprSurface ≠ none ∧ b.pyReprVolume ≠ none ∧
      i.pyRepr ≠ none := by
  have ne : ∀ {o : Option Bytes}, Shows o → o ≠ none := fun h e => by
    obtain ⟨t, ht⟩ := h.get
    rw [ht] at e; cases e
  exact ⟨ne (shows_nodeBlock _), ne (shows_nodes _), ne (shows_elementBlock _), ne (shows_elements _), ne (shows_header _),
    ne (shows_entry _), ne (shows_data _), ne (shows_point _), ne (shows_curve _), ne (shows_surface _), ne (shows_volume _),
    ne (shows_entities _)⟩

/-- **C79** A name in a file need not be UTF-8: the file loads, and `repr` of what was loaded raises. -/
theorem C79_loaded_raises : ∃ (file : Bytes) (s : MshSpec), loadMsh demoCfg file = .ok s ∧ s.pyRepr = none := by
  refine ⟨b! "$MeshFormat\n4.1 0 8\n$EndMeshFormat\n$PhysicalNames\n1\n2 7 \"" ++ [0xE9] ++ b! "\"\n$EndPhysicalNames\n",
    { physicalGroups := [⟨2, 7, [0xE9]⟩] }, by decide +kernel, by decide +kernel⟩

-- é alone in Latin-1 is not UTF-8, é in UTF-8 is; a lone surrogate and an overlong zero are not
example : ¬ Utf8 [0xE9] ∧ Utf8 [0xC3, 0xA9] ∧ ¬ Utf8 [0xED, 0xA0, 0x80] ∧ ¬ Utf8 [0xC0, 0x80] ∧ Utf8 [0xF0, 0x9F, 0x98, 0x80] ∧
    ¬ Utf8 [0xF4, 0x90, 0x80, 0x80] := by
  simp only [← utf8Ok_iff]; decide +kernel

/-! ## C80 -/

/-- **C80** `repr(spec)` shows what `MshSpec.shown` says and nothing more … -/
theorem C80_shown (s s' : MshSpec) (h : s.shown = s'.shown) : s.pyRepr = s'.pyRepr := spec_repr_congr h

/-- **C80** … and all of it: two specs with the same `repr` agree in everything shown, if no version has a comma in it and no
group name a closing parenthesis. -/
theorem C80_faithful (s s' : MshSpec) (hs : s.Sized) (hs' : s'.Sized) (hd : s.Delimited) (hd' : s'.Delimited)
    (h : s.pyRepr = s'.pyRepr) (hr : s.pyRepr ≠ none) : s.shown = s'.shown := by
  cases e : s.pyRepr with
  | none => exact absurd e hr
  | some t => exact (cuts_spec (r := []) (r' := []) ⟨hs, hd⟩ ⟨hs', hd'⟩ e (h ▸ e) rfl).1

/-- **C80** Without that the text is ambiguous: a group can look like two. -/
theorem C80_ambiguous : ∃ s s' : MshSpec, s.pyRepr = s'.pyRepr ∧ s.pyRepr ≠ none ∧ s.physicalGroups.length = 1 ∧
    s'.physicalGroups.length = 2 :=
  ⟨{ physicalGroups := [⟨1, 2, b! "a), PhysicalGroup(dim=3, tag=4, name=b"⟩] },
   { physicalGroups := [⟨1, 2, b! "a"⟩, ⟨3, 4, b! "b"⟩] }, by decide +kernel, by decide +kernel, rfl, rfl⟩

/-- **C80** A spec whose vectors can be allocated is `Sized`. -/
theorem C80_sized (cfg : Cfg) (s : MshSpec) (h : s.Fits cfg) : s.Sized := by
  have lt : ∀ n ∈ s.sizes, n < 2 ^ 64 := fun n hn => by
    have := h.all n hn
    have := cfg.maxCount_lt
    omega
  refine ⟨lt _ ?_, lt _ ?_, lt _ ?_, lt _ ?_, fun d hd => ?_⟩
  · simp [MshSpec.sizes]
  · simp [MshSpec.sizes]
  · simp [MshSpec.sizes]
  · simp [MshSpec.sizes]
  have hm : ∀ n ∈ d.sizes, n < 2 ^ 64 := fun n hn => lt n (by
    have : n ∈ (s.nodeData ++ s.elementData ++ s.elementNodeData).flatMap Data.sizes := List.mem_flatMap.mpr ⟨d, hd, hn⟩
    unfold MshSpec.sizes
    simp only [List.mem_append] at this ⊢
    tauto)
  exact ⟨hm _ (by simp [Data.sizes]), hm _ (by simp [Data.sizes]), hm _ (by simp [Data.sizes]),
    fun e he => hm _ (by
      unfold Data.sizes
      exact List.mem_cons_of_mem _ (List.mem_cons_of_mem _ (List.mem_cons_of_mem _ (List.mem_cons_of_mem _
        (List.mem_map.mpr ⟨e, he, rfl⟩)))))⟩

private theorem data_shown_convert (b : Bool) (t : UInt64 → UInt64) (f g f' g' : Double → Double) (d : Data) :
    (d.convert b t f g).shown = (d.convert b t f' g').shown := by
  unfold Data.convert Data.shown
  simp only [List.length_map, List.map_map, DataShown.mk.injEq, true_and]
  refine List.map_congr_left fun e _ => ?_
  simp only [Function.comp, DataEntry.shown, List.length_map]

private theorem shown_convert (ext : Bool) (t : UInt64 → UInt64) (f g f' g' : Double → Double) (s : MshSpec) :
    (s.convert ext t f g).shown = (s.convert ext t f' g').shown := by
  have hd : ∀ (b : Bool) (l : List Data), (l.map (Data.convert b t f g)).map Data.shown = (l.map (Data.convert b t f' g')).map Data.shown := by
    intro b l
    rw [List.map_map, List.map_map]
    exact List.map_congr_left fun d _ => data_shown_convert b t f g f' g' d
  unfold MshSpec.convert MshSpec.shown
  simp only [List.length_map, hd, SpecShown.mk.injEq, true_and, and_true]
  split <;> rfl

/-- **C80** Saving and loading through an ASCII 4.1 file does not change the `repr`, although the coordinates and data are
rounded. -/
theorem C80_roundtrip_ascii (cfg : Cfg) (s : MshSpec) (hfmt : s.meshFormat = ⟨b! "4.1", 0, 8⟩) (hs : s.Ok)
    (hf : s.Fits cfg) (hp : s.Plain cfg.nanospline) (hd : ∀ x ∈ s.doubles, Printable cfg.fmt x)
    (hpar : cfg.asserts = true → ∀ b ∈ s.nodes.entityBlocks, 0 ≤ b.parametric.toInt ∧ b.parametric.toInt ≤ 3)
    (hw : cfg.nanospline = true → Word s.nanosplineVersion) :
    ∃ file s', saveMsh cfg s = (file, .ok ()) ∧ loadMsh cfg file = .ok s' ∧ s'.shown = s.shown ∧ s'.pyRepr = s.pyRepr := by
  obtain ⟨file, h1, h2⟩ := C02_ascii41 cfg s hfmt hs hf hd hpar hw
  have e := (shown_convert cfg.nanospline id (reread cfg.fmt) (reread cfg.fmt) id id s).trans (congrArg _ hp.convert_self)
  exact ⟨file, _, h1, h2, e, C80_shown _ _ e⟩

/-- **C80** The same for a binary 4.1 file, with data entry tags below `2^31`. -/
theorem C80_roundtrip_binary (cfg : Cfg) (s : MshSpec) (hfmt : s.meshFormat = ⟨b! "4.1", 1, 8⟩) (hs : s.Ok)
    (hf : s.Fits cfg) (hp : s.Plain cfg.nanospline) (htag : ∀ t ∈ s.dataTags, t.toNat < 2 ^ 31)
    (hreal : ∀ x ∈ s.realTags, Printable cfg.fmt x)
    (hw : cfg.nanospline = true → Word s.nanosplineVersion) :
    ∃ file s', saveMsh cfg s = (file, .ok ()) ∧ loadMsh cfg file = .ok s' ∧ s'.shown = s.shown ∧ s'.pyRepr = s.pyRepr := by
  obtain ⟨file, h1, h2⟩ := C01_binary41_tags cfg s hfmt hs hf htag hreal hw
  have e := (shown_convert cfg.nanospline id (reread cfg.fmt) id id id s).trans (congrArg _ hp.convert_self)
  exact ⟨file, _, h1, h2, e, C80_shown _ _ e⟩

private theorem comma_toStringD {d : Double} (hd : d.isFinite = true) : (44 : UInt8) ∉ toStringD d := by
  unfold toStringD
  obtain ⟨n, _, e⟩ := fmtDouble_numeral (.fixed 6) hd
  rw [e]
  intro hc
  rcases n.text_chars _ hc with h | h | h | h | h | h <;> revert h <;> decide

private theorem near {x y : Double} (hx : x.isFinite = true) (hy : y.isFinite = true) (h : toStringD x = toStringD y) :
    |x.val - y.val| ≤ 2 / 10 ^ 6 := by
  have a := (C50_fixed_error 6 x hx).2.2
  have b := (C50_fixed_error 6 y hy).2.2
  have e : reread (.fixed 6) x = reread (.fixed 6) y := by
    unfold toStringD at h
    unfold reread; rw [h]
  rw [e] at a
  rw [abs_le] at *
  constructor <;> norm_num at * <;> linarith [a.1, a.2, b.1, b.2]

/-- **C80** `repr` of a point prints coordinates as `%f`: points shown alike have the same tag and lie within two millionths of
each other in each coordinate … -/
theorem C80_point (p q : PointEntity) (hp : p.x.isFinite = true ∧ p.y.isFinite = true ∧ p.z.isFinite = true)
    (hq : q.x.isFinite = true ∧ q.y.isFinite = true ∧ q.z.isFinite = true) (h : p.pyRepr = q.pyRepr) :
    p.tag = q.tag ∧ |p.x.val - q.x.val| ≤ 2 / 10 ^ 6 ∧ |p.y.val - q.y.val| ≤ 2 / 10 ^ 6 ∧ |p.z.val - q.z.val| ≤ 2 / 10 ^ 6 := by
  obtain ⟨t, ht⟩ := (shows_point p).get
  have h' := spelt (r := []) (r' := []) ht (h ▸ ht) rfl
  simp only [List.append_assoc] at h'
  obtain ⟨e1, h1⟩ := i32_cut (List.append_cancel_left h')
  obtain ⟨e2, h2⟩ := text_cut (comma_toStringD hp.1) (comma_toStringD hq.1) h1
  obtain ⟨e3, h3⟩ := text_cut (comma_toStringD hp.2.1) (comma_toStringD hq.2.1) h2
  obtain ⟨e4, _⟩ := text_cut (comma_toStringD hp.2.2) (comma_toStringD hq.2.2) h3
  exact ⟨e1, near hp.1 hq.1 e2, near hp.2.1 hq.2.1 e3, near hp.2.2 hq.2.2 e4⟩

/-- **C80** … but need not be the same: `1e-07` is shown as zero. -/
theorem C80_point_ambiguous : ∃ p q : PointEntity, p ≠ q ∧ p.pyRepr = q.pyRepr ∧
    p.pyRepr = some (b! "PointEntity(tag=1, x=0.000000, y=0.000000, z=0.000000, physical_group_tags=0)") :=
  ⟨{ tag := 1, x := ⟨0x3E7AD7F29ABCAF48⟩ }, { tag := 1 }, by decide +kernel, by decide +kernel, by decide +kernel⟩

example : (demoSpec ⟨b! "4.1", 0, 8⟩ dPi).pyRepr = some (b! "MshSpec(mesh_format=MeshFormat(version=4.1, file_type=0, data_size=8), nodes=Nodes(num_entity_blocks=2, num_nodes=3, min_node_tag=1, max_node_tag=3), elements=Elements(num_entity_blocks=1, num_elements=1, min_element_tag=9, max_element_tag=9), entities=Entities(points=1, curves=0, surfaces=1, volumes=0), physical_groups=[PhysicalGroup(dim=2, tag=7, name=upper \"wing\"\n)], node_data=[Data(header=DataHeader(string_tags=1, real_tags=1, int_tags=3), entries=[DataEntry(tag=1, num_nodes_per_elements=0, data=1), DataEntry(tag=2, num_nodes_per_elements=0, data=1)])], element_data=[], element_node_data=[Data(header=DataHeader(string_tags=1, real_tags=0, int_tags=3), entries=[DataEntry(tag=9, num_nodes_per_elements=3, data=3)])])") := by
  decide +kernel

example : ({} : MshSpec).pyRepr = some (b! "MshSpec(mesh_format=MeshFormat(version=4.1, file_type=0, data_size=8), nodes=Nodes(num_entity_blocks=0, num_nodes=0, min_node_tag=0, max_node_tag=0), elements=Elements(num_entity_blocks=0, num_elements=0, min_element_tag=0, max_element_tag=0), entities=Entities(points=0, curves=0, surfaces=0, volumes=0), physical_groups=[], node_data=[], element_data=[], element_node_data=[])") := by
  decide +kernel

example : (⟨-1, dOne, dTenth, dOne, dOne, dOne, dOne, [7], [-1, 2]⟩ : BoxEntity).pyReprVolume =
    some (b! "VolumeEntity(tag=-1, min_x=1.000000, min_y=0.100000, min_z=1.000000, max_x=1.000000, max_y=1.000000, max_z=1.000000, physical_group_tags=1, boundary_surface_tags=2)") := by
  decide +kernel

example : (demoNano ⟨b! "4.1", 1, 8⟩ dNaN).Sized ∧ (demoNano ⟨b! "4.1", 1, 8⟩ dNaN).Delimited :=
  ⟨C80_sized demoExt _ (demoNano_fits (by decide) _ _), by decide, by decide⟩

example : ∃ file s', saveMsh demoExt (demoNano ⟨b! "4.1", 1, 8⟩ dNaN) = (file, .ok ()) ∧ loadMsh demoExt file = .ok s' ∧
    s'.shown = (demoNano ⟨b! "4.1", 1, 8⟩ dNaN).shown ∧ s'.pyRepr = (demoNano ⟨b! "4.1", 1, 8⟩ dNaN).pyRepr :=
  C80_roundtrip_binary demoExt _ rfl (demoNano_ok _ _) (demoNano_fits (by decide) _ _) (demoNano_plain _ _) (demo_tags _ _)
    (fun x hx => (demo_reals _ _ x hx).1) fun _ => word_10

end MshIO
