import Verif.Proofs.PythonCut
import Verif.Props.Demo
import Verif.Props.Numeral
import Verif.Proofs.FormatWords

/-!
# C81: the text of `repr`

Every `repr` is `Class(name=value, …)` with the names under which the attributes are bound; integers are in decimal, vectors
are represented by their length, coordinates are printed as `%f` does. `objText`, `listText` are in `Spec/Python.lean`,
`natText`, `intText` in `Spec/Format.lean`, `PrintsFixed` in `Spec/Numeral.lean`.
-/

namespace MshIO

private theorem size_text {α : Type} {v : List α} (h : v.length < 2 ^ 64) : decU64 (sizeU v) = natText v.length := by
  rw [decU64_eq]
  unfold sizeU
  rw [UInt64.toNat_ofNat', Nat.mod_eq_of_lt h]

/-- Both sides in the same shape. -/
macro "same_text" : tactic => `(tactic|
  simp only [objText, commas, List.map, List.cons_append, List.nil_append,
    List.append_assoc, List.append_nil])

/-- **C81** `repr` of a node block. -/
theorem C81_nodeBlock (n : NodeBlock) (h : n.tags.length < 2 ^ 64) : n.pyRepr = some (objText (b! "NodeBlock")
    [(b! "entity_dim", intText n.entityDim.toInt), (b! "entity_tag", intText n.entityTag.toInt),
     (b! "parametric", intText n.parametric.toInt), (b! "num_nodes_in_block", natText n.numNodesInBlock.toNat),
     (b! "tags", natText n.tags.length)]) := by
  unfold NodeBlock.pyRepr
  rw [pyStr_ok (Ascii.ok (by ascii)), size_text h]
  simp only [decU64_eq, decI32_eq]
  same_text

/-- **C81** `repr` of the nodes. -/
theorem C81_nodes (n : Nodes) : n.pyRepr = some (objText (b! "Nodes")
    [(b! "num_entity_blocks", natText n.numEntityBlocks.toNat), (b! "num_nodes", natText n.numNodes.toNat),
     (b! "min_node_tag", natText n.minNodeTag.toNat), (b! "max_node_tag", natText n.maxNodeTag.toNat)]) := by
  unfold Nodes.pyRepr
  rw [pyStr_ok (Ascii.ok (by ascii))]
  simp only [decU64_eq]
  same_text

/-- **C81** `repr` of an element block. -/
theorem C81_elementBlock (n : ElementBlock) : n.pyRepr = some (objText (b! "ElementBlock")
    [(b! "entity_dim", intText n.entityDim.toInt), (b! "entity_tag", intText n.entityTag.toInt),
     (b! "element_type", intText n.elementType.toInt), (b! "num_elements_in_block", natText n.numElementsInBlock.toNat)]) := by
  unfold ElementBlock.pyRepr
  rw [pyStr_ok (Ascii.ok (by ascii))]
  simp only [decU64_eq, decI32_eq]
  same_text

/-- **C81** `repr` of the elements. -/
theorem C81_elements (n : Elements) : n.pyRepr = some (objText (b! "Elements")
    [(b! "num_entity_blocks", natText n.numEntityBlocks.toNat), (b! "num_elements", natText n.numElements.toNat),
     (b! "min_element_tag", natText n.minElementTag.toNat), (b! "max_element_tag", natText n.maxElementTag.toNat)]) := by
  unfold Elements.pyRepr
  rw [pyStr_ok (Ascii.ok (by ascii))]
  simp only [decU64_eq]
  same_text

/-- **C81** `repr` of the header of a data section. -/
theorem C81_dataHeader (h : DataHeader) (h1 : h.stringTags.length < 2 ^ 64) (h2 : h.realTags.length < 2 ^ 64)
    (h3 : h.intTags.length < 2 ^ 64) : h.pyRepr = some (objText (b! "DataHeader")
    [(b! "string_tags", natText h.stringTags.length), (b! "real_tags", natText h.realTags.length),
     (b! "int_tags", natText h.intTags.length)]) := by
  unfold DataHeader.pyRepr
  rw [pyStr_ok (Ascii.ok (by ascii)), size_text h1, size_text h2, size_text h3]
  same_text

/-- **C81** `repr` of a data entry. -/
theorem C81_dataEntry (e : DataEntry) (h : e.data.length < 2 ^ 64) : e.pyRepr = some (objText (b! "DataEntry")
    [(b! "tag", natText e.tag.toNat), (b! "num_nodes_per_elements", intText e.numNodesPerElement.toInt),
     (b! "data", natText e.data.length)]) := by
  unfold DataEntry.pyRepr
  rw [pyStr_ok (Ascii.ok (by ascii)), size_text h]
  simp only [decU64_eq, decI32_eq]
  same_text

/-- **C81** `repr` of the entities. -/
theorem C81_entities (e : Entities) (h1 : e.points.length < 2 ^ 64) (h2 : e.curves.length < 2 ^ 64)
    (h3 : e.surfaces.length < 2 ^ 64) (h4 : e.volumes.length < 2 ^ 64) : e.pyRepr = some (objText (b! "Entities")
    [(b! "points", natText e.points.length), (b! "curves", natText e.curves.length),
     (b! "surfaces", natText e.surfaces.length), (b! "volumes", natText e.volumes.length)]) := by
  unfold Entities.pyRepr
  rw [pyStr_ok (Ascii.ok (by ascii)), size_text h1, size_text h2, size_text h3, size_text h4]
  same_text

/-- **C81** `repr` of the format. -/
theorem C81_format (m : MeshFormat) (h : Utf8 m.version) : m.pyRepr = some (objText (b! "MeshFormat")
    [(b! "version", m.version), (b! "file_type", intText m.fileType.toInt), (b! "data_size", intText m.dataSize.toInt)]) := by
  obtain ⟨t, ht⟩ := (format_ok m).mpr ((utf8Ok_iff _).mpr h)
  obtain ⟨rfl, _⟩ := pyStr_some.mp ht
  rw [ht]
  simp only [decI32_eq]
  same_text

/-- **C81** `repr` of a physical group. -/
theorem C81_group (g : PhysicalGroup) (h : Utf8 g.name) : g.pyRepr = some (objText (b! "PhysicalGroup")
    [(b! "dim", intText g.dim.toInt), (b! "tag", intText g.tag.toInt), (b! "name", g.name)]) := by
  obtain ⟨t, ht⟩ := (group_ok g).mpr ((utf8Ok_iff _).mpr h)
  obtain ⟨rfl, _⟩ := pyStr_some.mp ht
  rw [ht]
  simp only [decI32_eq]
  same_text

/-- **C81** `repr` of a point. -/
theorem C81_point (p : PointEntity) (hx : p.x.isFinite = true) (hy : p.y.isFinite = true) (hz : p.z.isFinite = true)
    (h : p.physicalGroupTags.length < 2 ^ 64) : ∃ x y z, PrintsFixed 6 p.x x ∧ PrintsFixed 6 p.y y ∧ PrintsFixed 6 p.z z ∧
    p.pyRepr = some (objText (b! "PointEntity")
      [(b! "tag", intText p.tag.toInt), (b! "x", x), (b! "y", y), (b! "z", z),
       (b! "physical_group_tags", natText p.physicalGroupTags.length)]) := by
  refine ⟨_, _, _, C50_fixed_printed 6 _ hx, C50_fixed_printed 6 _ hy, C50_fixed_printed 6 _ hz, ?_⟩
  unfold PointEntity.pyRepr
  rw [pyStr_ok (Ascii.ok (by ascii)), size_text h]
  simp only [decI32_eq, toStringD]
  same_text

private theorem box_text (e : BoxEntity) (h1 : e.physicalGroupTags.length < 2 ^ 64) (h2 : e.boundaryTags.length < 2 ^ 64)
    (cls bnd : Bytes) (hc : Ascii cls) (hb : Ascii bnd) : e.pyRepr cls bnd = some (objText cls
      [(b! "tag", intText e.tag.toInt), (b! "min_x", toStringD e.minX), (b! "min_y", toStringD e.minY),
       (b! "min_z", toStringD e.minZ), (b! "max_x", toStringD e.maxX), (b! "max_y", toStringD e.maxY),
       (b! "max_z", toStringD e.maxZ), (b! "physical_group_tags", natText e.physicalGroupTags.length),
       (bnd, natText e.boundaryTags.length)]) := by
  unfold BoxEntity.pyRepr
  rw [pyStr_ok (Ascii.ok (by
    repeat' first
      | assumption | with_reducible exact ascii_decI32 _ | with_reducible exact ascii_decU64 _
      | with_reducible exact ascii_toStringD _ | with_reducible refine Ascii.append ?_ ?_ | decide)), size_text h1, size_text h2]
  simp only [decI32_eq]
  same_text

/-- **C81** The `repr`s of curves, surfaces and volumes: the box, and the number of boundary tags under the right name. -/
theorem C81_box (e : BoxEntity) (h1 : e.physicalGroupTags.length < 2 ^ 64) (h2 : e.boundaryTags.length < 2 ^ 64)
    (hf : ∀ d ∈ [e.minX, e.minY, e.minZ, e.maxX, e.maxY, e.maxZ], d.isFinite = true) :
    ∃ ax ay az bx b_y bz, PrintsFixed 6 e.minX ax ∧ PrintsFixed 6 e.minY ay ∧ PrintsFixed 6 e.minZ az ∧
      PrintsFixed 6 e.maxX bx ∧ PrintsFixed 6 e.maxY b_y ∧ PrintsFixed 6 e.maxZ bz ∧
      ∀ cls bnd repr, (cls, bnd, repr) ∈ [(b! "CurveEntity", b! "boundary_point_tags", e.pyReprCurve),
          (b! "SurfaceEntity", b! "boundary_curve_tags", e.pyReprSurface),
          (b! "VolumeEntity", b! "boundary_surface_tags", e.pyReprVolume)] →
        repr = some (objText cls [(b! "tag", intText e.tag.toInt), (b! "min_x", ax), (b! "min_y", ay), (b! "min_z", az),
          (b! "max_x", bx), (b! "max_y", b_y), (b! "max_z", bz),
          (b! "physical_group_tags", natText e.physicalGroupTags.length), (bnd, natText e.boundaryTags.length)]) := by
  refine ⟨_, _, _, _, _, _, C50_fixed_printed 6 _ (hf _ (by simp)), C50_fixed_printed 6 _ (hf _ (by simp)),
    C50_fixed_printed 6 _ (hf _ (by simp)), C50_fixed_printed 6 _ (hf _ (by simp)), C50_fixed_printed 6 _ (hf _ (by simp)),
    C50_fixed_printed 6 _ (hf _ (by simp)), fun cls bnd repr h => ?_⟩
  simp only [List.mem_cons, Prod.mk.injEq, List.not_mem_nil, or_false] at h
  rcases h with ⟨rfl, rfl, rfl⟩ | ⟨rfl, rfl, rfl⟩ | ⟨rfl, rfl, rfl⟩
  · exact box_text e h1 h2 _ _ (by decide) (by decide)
  · exact box_text e h1 h2 _ _ (by decide) (by decide)
  · exact box_text e h1 h2 _ _ (by decide) (by decide)

private theorem tail_eq : ∀ (t : Bytes) (ts : List Bytes), t ++ pyListTail ts = commas (t :: ts) ++ b! "]"
  | t, [] => rfl
  | t, u :: us => by
    have ih := tail_eq u us
    simp only [pyListTail, ih]
    simp only [commas, List.append_assoc]

private theorem list_eq (ts : List Bytes) : pyList ts = listText ts := by
  cases ts with
  | nil => rfl
  | cons t ts =>
    show [91] ++ (t ++ pyListTail ts) = _
    unfold listText
    rw [tail_eq, List.append_assoc]

/-- **C81** A data section: the `repr` of its header, and those of its entries in a list. -/
theorem C81_data (d : Data) : ∃ header entries, d.header.pyRepr = some header ∧
    List.Forall₂ (fun e t => DataEntry.pyRepr e = some t) d.entries entries ∧
    d.pyRepr = some (objText (b! "Data") [(b! "header", header), (b! "entries", listText entries)]) := by
  obtain ⟨t, ht⟩ := (shows_data d).get
  obtain ⟨h, es, e1, e2, e3⟩ := data_some.mp ht
  refine ⟨h, es, e1, mapM_some e2, ?_⟩
  obtain ⟨rfl, _⟩ := pyStr_some.mp e3
  rw [ht, list_eq]
  same_text

/-- **C81** A spec: the `repr`s of its parts, those of groups and data sections in lists. -/
theorem C81_spec (s : MshSpec) (hv : Utf8 s.meshFormat.version) (hg : ∀ g ∈ s.physicalGroups, Utf8 g.name) :
    ∃ format nodes elements entities groups nodeData elementData elementNodeData,
      s.meshFormat.pyRepr = some format ∧ s.nodes.pyRepr = some nodes ∧ s.elements.pyRepr = some elements ∧
      s.entities.pyRepr = some entities ∧
      List.Forall₂ (fun g t => PhysicalGroup.pyRepr g = some t) s.physicalGroups groups ∧
      List.Forall₂ (fun d t => Data.pyRepr d = some t) s.nodeData nodeData ∧
      List.Forall₂ (fun d t => Data.pyRepr d = some t) s.elementData elementData ∧
      List.Forall₂ (fun d t => Data.pyRepr d = some t) s.elementNodeData elementNodeData ∧
      s.pyRepr = some (objText (b! "MshSpec")
        [(b! "mesh_format", format), (b! "nodes", nodes), (b! "elements", elements), (b! "entities", entities),
         (b! "physical_groups", listText groups), (b! "node_data", listText nodeData),
         (b! "element_data", listText elementData), (b! "element_node_data", listText elementNodeData)]) := by
  obtain ⟨t, ht⟩ := (spec_ok s).mpr ⟨(utf8Ok_iff _).mpr hv, fun g h => (utf8Ok_iff _).mpr (hg g h)⟩
  obtain ⟨f, n, e, i, g, a, b, c, p, hp⟩ := spec_some.mp ht
  refine ⟨f, n, e, i, g, a, b, c, p.format, p.nodes, p.elements, p.entities, mapM_some p.groups, mapM_some p.nodeData,
    mapM_some p.elementData, mapM_some p.elementNodeData, ?_⟩
  obtain ⟨rfl, _⟩ := pyStr_some.mp hp
  rw [ht]
  unfold specText
  simp only [list_eq]
  same_text

-- a box with six different numbers
example : (⟨-1, dOne, dTenth, dPi, Double.zero, ⟨0xC000000000000000⟩, ⟨0x4059000000000000⟩, [7], [-1, 2]⟩ : BoxEntity).pyReprVolume =
    some (b! "VolumeEntity(tag=-1, min_x=1.000000, min_y=0.100000, min_z=3.141593, max_x=0.000000, max_y=-2.000000, max_z=100.000000, physical_group_tags=1, boundary_surface_tags=2)") := by
  decide +kernel

-- the hypotheses are met by a spec with an entry of every kind, and with a name that is not ASCII
example : Utf8 (demoSpec ⟨b! "4.1", 0, 8⟩ dPi).meshFormat.version ∧ ∀ g ∈ (demoSpec ⟨b! "4.1", 0, 8⟩ dPi).physicalGroups, Utf8 g.name := by
  simp only [← utf8Ok_iff]; decide +kernel

example : (⟨1, 2, [0xC3, 0xA9]⟩ : PhysicalGroup).pyRepr = some (b! "PhysicalGroup(dim=1, tag=2, name=" ++ [0xC3, 0xA9] ++ b! ")") := by
  decide +kernel

end MshIO
