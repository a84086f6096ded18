import Verif.Props.Stable22
import Verif.Props.Validate
import Verif.Props.Demo
import Verif.Props.Doubles

/-!
# Concrete cases for the version 2.2 theorems and for `validate_spec`
-/

namespace MshIO

/-! ## C03, C04, C14: specs -/

theorem demo22_counted (fmt : MeshFormat) (x : Double) : (demoSpec fmt x).Counted := ⟨rfl, rfl⟩

theorem demo22_range (fmt : MeshFormat) (x : Double) : NodesInRange (demoSpec fmt x).nodes.list (demoSpec fmt x).elements.list := by
  have e : (demoSpec fmt x).elements.list = [⟨9, 2, 2, 1, [1, 2, 3]⟩] := rfl
  have n : (demoSpec fmt x).nodes.list = [⟨1, dOne, dTenth, x⟩, ⟨2, dOne, dOne, dOne⟩, ⟨3, dTenth, dOne, dTenth⟩] := rfl
  rw [e, n]
  intro e he t ht
  simp only [List.mem_cons, List.not_mem_nil, or_false] at he
  subst he
  exact ⟨⟨⟨1, dOne, dTenth, x⟩, by simp, show 1 ≤ t by revert t; decide⟩, ⟨⟨3, dTenth, dOne, dTenth⟩, by simp, by revert t; decide⟩⟩

theorem demo22_fits {cfg : Cfg} (h : 9 ≤ cfg.maxCount) (fmt : MeshFormat) (x : Double) :
    Fits22 cfg (demoSpec fmt x).nodes.list (demoSpec fmt x).elements.list where
  two := by omega
  coords := h
  span := by
    have n : (demoSpec fmt x).nodes.list = [⟨1, dOne, dTenth, x⟩, ⟨2, dOne, dOne, dOne⟩, ⟨3, dTenth, dOne, dTenth⟩] := rfl
    rw [n]
    intro a ha b hb
    refine lt_of_lt_of_le ?_ h
    have hb : b.tag.toNat ≤ 3 := by
      simp only [List.mem_cons, List.not_mem_nil, or_false] at hb
      rcases hb with rfl | rfl | rfl
      · show (1 : UInt64).toNat ≤ 3; decide
      · decide
      · decide
    omega
  entries := by show 4 ≤ _; omega

theorem demo22_tags (fmt : MeshFormat) (x : Double) :
    (∀ b ∈ (demoSpec fmt x).nodes.entityBlocks, ∀ t ∈ b.tags, t.toNat < 2 ^ 31) ∧
    (∀ b ∈ (demoSpec fmt x).elements.entityBlocks, ∀ t ∈ b.data, t.toNat < 2 ^ 31) ∧
    (∀ b ∈ (demoSpec fmt x).elements.entityBlocks, 0 < b.numElementsInBlock.toNat ∧ b.numElementsInBlock.toNat < 2 ^ 31) := by
  simp only [demoSpec, List.mem_cons, List.not_mem_nil, or_false, forall_eq_or_imp, forall_eq]
  decide

theorem demo22_doubles (fmt : MeshFormat) (x : Double) : ∀ y ∈ (demoSpec fmt x).doubles22, y = dOne ∨ y = dTenth ∨ y = x := by
  intro y hy
  have : y ∈ [dOne, dTenth, x, dOne, dOne, dOne, dTenth, dOne, dTenth, dTenth, dOne, x, dOne, dTenth, dOne] := hy
  simp only [List.mem_cons, List.not_mem_nil, or_false] at this
  tauto

/-- C03: a spec with a NaN coordinate, parametric nodes, physical groups and data is stored in version 2.2 binary. -/
example : ∃ file, saveMsh demoDebug (demoSpec ⟨b! "2.2", 1, 8⟩ dNaN) = (file, .ok ()) ∧
    loadMsh demoDebug file = .ok ((demoSpec ⟨b! "2.2", 1, 8⟩ dNaN).convert22 false id id (reread (.general 6)) id) :=
  C03_binary22 demoDebug _ (d := 8) rfl (demoSpec_ok _ _) (demo22_counted _ _) (demoSpec_fits (by decide) _ _) (demo22_tags _ _).2.2 (demo22_tags _ _).1
    (demo22_tags _ _).2.1 (fun t ht => demo_tags ⟨b! "2.2", 1, 8⟩ dNaN t ht) (fun x hx => (demo_reals ⟨b! "2.2", 1, 8⟩ dNaN x hx).1) (demo22_range _ _)
    (demo22_fits (by decide) _ _) (by simp [demoDebug])

/-- The spec it becomes: one block of nodes without parametric coordinates, the entities gone. -/
example : (demoSpec ⟨b! "2.2", 1, 8⟩ dNaN).convert22 false id id (reread (.general 6)) id =
    { demoSpec ⟨b! "2.2", 1, 8⟩ dNaN with
      entities := {}
      nodes := ⟨1, 3, 1, 3, [⟨2, 1, 0, 3, [1, 2, 3], [dOne, dTenth, dNaN, dOne, dOne, dOne, dTenth, dOne, dTenth]⟩]⟩ } := by
  decide +kernel

/-- C04: the same in text, with π in place of NaN. -/
example : ∃ file, saveMsh demoDebug (demoSpec ⟨b! "2.2", 0, 8⟩ dPi) = (file, .ok ()) ∧
    loadMsh demoDebug file = .ok ((demoSpec ⟨b! "2.2", 0, 8⟩ dPi).convert22 false id id (reread (.general 6)) (reread (.general 6))) := by
  refine C04_ascii22 demoDebug _ (d := 8) rfl (demoSpec_ok _ _) (demo22_counted _ _) (demoSpec_fits (by decide) _ _) (demo22_tags _ _).2.1 (fun y hy => ?_)
    (demo22_range _ _) (demo22_fits (by decide) _ _) (by simp [demoDebug])
  rcases demo22_doubles _ _ y hy with rfl | rfl | rfl
  · exact demo_exact.1
  · exact demo_exact.2.2.1
  · exact C05_default_always_readable _ (by decide)

/-- C14: the loaded spec is a fixed point. -/
example : ∃ file s' file', saveMsh demoDebug (demoSpec ⟨b! "2.2", 1, 8⟩ dNaN) = (file, .ok ()) ∧ loadMsh demoDebug file = .ok s' ∧
    saveMsh demoDebug s' = (file', .ok ()) ∧ loadMsh demoDebug file' = .ok s' :=
  C14_binary22_stable demoDebug _ (d := 8) rfl (demoSpec_ok _ _) (demo22_counted _ _) (demoSpec_fits (by decide) _ _)
    (fun b hb => ((demo22_tags _ _).2.2 b hb).1) (show (1 : UInt64).toNat < 2 ^ 31 by decide) (demo22_tags _ _).1
    (demo22_tags _ _).2.1 (fun t ht => demo_tags ⟨b! "2.2", 1, 8⟩ dNaN t ht) (fun x hx => (demo_reals ⟨b! "2.2", 1, 8⟩ dNaN x hx).1)
    (fun x hx => by
      obtain ⟨h1, h2⟩ := demo_reals ⟨b! "2.2", 1, 8⟩ dNaN x hx
      show Printable (.general 6) (reread (.general 6) x) ∧ reread (.general 6) (reread (.general 6) x) = reread (.general 6) x
      rw [h2]; exact ⟨h1, h2⟩) (demo22_range _ _)
    (demo22_fits (by decide) _ _) (by simp [demoDebug])

/-- C14 in text, with π (which changes once). -/
example : ∃ file s' file', saveMsh demoDebug (demoSpec ⟨b! "2.2", 0, 8⟩ dPi) = (file, .ok ()) ∧ loadMsh demoDebug file = .ok s' ∧
    saveMsh demoDebug s' = (file', .ok ()) ∧ loadMsh demoDebug file' = .ok s' := by
  have hpi : Printable (.general 6) (reread (.general 6) dPi) ∧ reread (.general 6) (reread (.general 6) dPi) = reread (.general 6) dPi := by
    unfold Printable reread; exact ⟨by decide +kernel, by decide +kernel⟩
  obtain ⟨h1, h2, h3, h4⟩ := demo_exact
  refine C14_ascii22_stable demoDebug _ (d := 8) rfl (demoSpec_ok _ _) (demo22_counted _ _) (demoSpec_fits (by decide) _ _) (demo22_tags _ _).2.1
    (fun y hy => ?_) (fun y hy => ?_) (demo22_range _ _) (demo22_fits (by decide) _ _) (by simp [demoDebug])
  · rcases demo22_doubles _ _ y hy with rfl | rfl | rfl
    · exact h1
    · exact h3
    · exact C05_default_always_readable _ (by decide)
  · show Printable (.general 6) (reread (.general 6) y) ∧ reread (.general 6) (reread (.general 6) y) = reread (.general 6) y
    rcases demo22_doubles _ _ y hy with rfl | rfl | rfl
    · rw [h2]; exact ⟨h1, h2⟩
    · rw [h4]; exact ⟨h3, h4⟩
    · exact hpi

/-- C15: from 2.2 binary to 4.1 binary. -/
example : ∃ file s' file', saveMsh demoDebug (demoSpec ⟨b! "2.2", 1, 8⟩ dNaN) = (file, .ok ()) ∧ loadMsh demoDebug file = .ok s' ∧
    saveMsh demoDebug { s' with meshFormat := ⟨b! "4.1", 1, 8⟩ } = (file', .ok ()) ∧
    loadMsh demoDebug file' = .ok { s' with meshFormat := ⟨b! "4.1", 1, 8⟩ } :=
  C15_22_to_41_binary demoDebug _ (d := 8) rfl (demoSpec_ok _ _) (demo22_counted _ _) (demoSpec_fits (by decide) _ _) (demo22_tags _ _).2.2 (demo22_tags _ _).1
    (demo22_tags _ _).2.1 (fun t ht => demo_tags ⟨b! "2.2", 1, 8⟩ dNaN t ht) (fun x hx => (demo_reals ⟨b! "2.2", 1, 8⟩ dNaN x hx).1)
    (fun x hx => by
      obtain ⟨h1, h2⟩ := demo_reals ⟨b! "2.2", 1, 8⟩ dNaN x hx
      show Printable (.general 6) (reread (.general 6) x) ∧ reread (.general 6) (reread (.general 6) x) = reread (.general 6) x
      rw [h2]; exact ⟨h1, h2⟩) (demo22_range _ _)
    (demo22_fits (by decide) _ _) (by simp [demoDebug])

/-- The hypothesis on empty element blocks is needed: here a trailing empty block makes the node data disappear. -/
def demoEmptyBlock : MshSpec where
  meshFormat := ⟨b! "2.2", 1, 8⟩
  elements := ⟨2, 1, 9, 9, [⟨0, 1, 15, 1, [9, 1]⟩, ⟨0, 2, 15, 0, []⟩]⟩
  nodes := ⟨1, 1, 1, 1, [⟨0, 1, 0, 1, [1], [dOne, dOne, dOne]⟩]⟩
  nodeData := [⟨⟨[b! "temp"], [], [0, 1, 1]⟩, [⟨1, 0, [dOne]⟩]⟩]

theorem C03_empty_block_counterexample :
    (saveMsh demoDebug demoEmptyBlock).2 = .ok () ∧
    loadMsh demoDebug (saveMsh demoDebug demoEmptyBlock).1 =
      .ok { demoEmptyBlock with elements := ⟨1, 1, 9, 9, [⟨0, 1, 15, 1, [9, 1]⟩]⟩, nodeData := [] } := by
  decide +kernel

/-! ## C10–C13, C15, C19: files -/

/-- Nodes not in order of their tags. -/
def demoNodes : List MeshNode := [⟨10, dOne, dTenth, dOne⟩, ⟨3, dOne, dOne, dOne⟩, ⟨7, dTenth, dOne, dOne⟩, ⟨5, dOne, dTenth, dTenth⟩]

/-- A point, three triangles on two surfaces, a line; one element has no tags. -/
def demoElems : List FileElem :=
  [⟨4, 15, [2, 1], [10]⟩, ⟨1, 2, [8, 2, 1], [10, 3, 7]⟩, ⟨2, 2, [9, 2], [3, 7, 5]⟩, ⟨7, 2, [8, 1], [3, 5, 10]⟩, ⟨3, 1, [], [3, 5]⟩]

theorem demo_is22_ascii : Is22 demoDebug (Spaced [] ((file22Words (.general 6) demoNodes demoElems).map (·, [10]))) demoNodes demoElems := by
  have h := Is22.ascii (cfg := demoDebug) (P := .general 6) (ns := demoNodes) (fs := demoElems) (lead := [])
    (words := (file22Words (.general 6) demoNodes demoElems).map (·, [10])) ?_ ?_ ?_ ?_ ?_
  · have e : (demoNodes.map fun n => (⟨n.tag, reread (.general 6) n.x, reread (.general 6) n.y, reread (.general 6) n.z⟩ : MeshNode)) = demoNodes := by
      simp only [demoNodes, List.map_cons, List.map_nil, demo_exact.2.1, demo_exact.2.2.2]
    rwa [e] at h
  · intro n hn
    simp only [demoNodes, List.mem_cons, List.not_mem_nil, or_false] at hn
    rcases hn with rfl | rfl | rfl | rfl <;> simp [demo_exact.1, demo_exact.2.2.1]
  · simp only [demoElems, List.mem_cons, List.not_mem_nil, or_false, forall_eq_or_imp, forall_eq, FileElem.Ok, FileElem.Small]
    decide
  · rw [List.map_map]; exact List.map_id _
  · intro c hc; cases hc
  · intro q hq
    obtain ⟨w, _, rfl⟩ := List.mem_map.mp hq
    exact ⟨show ∀ c ∈ ([10] : Bytes), isSpace c = true by decide, show [10] ≠ [] by decide⟩

/-- The text of that file. -/
example : Spaced [] ((file22Words (.general 6) demoNodes demoElems).map (·, [10])) = b! "$MeshFormat\n2.2\n0\n8\n$EndMeshFormat\n$Nodes\n4\n10\n1\n0.1\n1\n3\n1\n1\n1\n7\n0.1\n1\n1\n5\n1\n0.1\n0.1\n$EndNodes\n$Elements\n5\n4\n15\n2\n2\n1\n10\n1\n2\n3\n8\n2\n1\n10\n3\n7\n2\n2\n2\n9\n2\n3\n7\n5\n7\n2\n2\n8\n1\n3\n5\n10\n3\n1\n0\n3\n5\n$EndElements\n" := by
  decide +kernel

/-- The same mesh in groups. -/
def demoGroups : List FileGroup :=
  [⟨15, 2, [⟨4, 15, [2, 1], [10]⟩]⟩, ⟨2, 3, [⟨1, 2, [8, 2, 1], [10, 3, 7]⟩]⟩, ⟨2, 2, [⟨2, 2, [9, 2], [3, 7, 5]⟩, ⟨7, 2, [8, 1], [3, 5, 10]⟩]⟩,
    ⟨1, 0, [⟨3, 1, [], [3, 5]⟩]⟩]

theorem demo_is22_binary : Is22 demoDebug (file22Bytes [10] demoNodes demoGroups) demoNodes demoElems := by
  refine Is22.binary (cfg := demoDebug) (ns := demoNodes) (gs := demoGroups) (lead := []) (w := [10]) ?_ (show ∀ c ∈ ([] : Bytes), isSpace c = true by decide) (show ∀ c ∈ ([10] : Bytes), isSpace c = true by decide)
  intro g hg
  simp only [demoGroups, List.mem_cons, List.not_mem_nil, or_false] at hg
  rcases hg with rfl | rfl | rfl | rfl <;>
    exact ⟨by decide, by unfold FileElem.Ok; decide, by decide, by decide, by decide⟩

theorem demo_inRange : NodesInRange demoNodes (demoElems.map FileElem.elem) := by
  unfold NodesInRange; decide

theorem demo_fits22 : Fits22 demoDebug demoNodes (demoElems.map FileElem.elem) :=
  ⟨by decide, by decide, by decide, by decide⟩

/-- C19 for both files. -/
example : (∃ s, loadMsh demoDebug (Spaced [] ((file22Words (.general 6) demoNodes demoElems).map (·, [10]))) = .ok s ∧ validateSpec s = .ok ()) ∧
    ∃ s, loadMsh demoDebug (file22Bytes [10] demoNodes demoGroups) = .ok s ∧ validateSpec s = .ok () :=
  ⟨C19_loaded22_valid _ _ _ _ demo_is22_ascii demo_inRange demo_fits22 (by decide) (by decide) (by decide),
   C19_loaded22_valid _ _ _ _ demo_is22_binary demo_inRange demo_fits22 (by decide) (by decide) (by decide)⟩

/-- C10–C13: what both load to. -/
example : nodesOf demoNodes (demoElems.map FileElem.elem) =
    ⟨4, 4, 3, 10, [⟨2, 1, 0, 1, [10], [dOne, dTenth, dOne]⟩, ⟨1, 1, 0, 1, [3], [dOne, dOne, dOne]⟩, ⟨2, 2, 0, 1, [7], [dTenth, dOne, dOne]⟩,
      ⟨1, 1, 0, 1, [5], [dOne, dTenth, dTenth]⟩]⟩ := by
  decide +kernel

/-- C15: both files converted to 4.1 and to 2.2. -/
example : ∃ s file', loadMsh demoDebug (file22Bytes [10] demoNodes demoGroups) = .ok s ∧ s.nodes.list = demoNodes ∧ s.elements.list = demoElems.map FileElem.elem ∧
      saveMsh demoDebug { s with meshFormat := ⟨b! "4.1", 1, 8⟩ } = (file', .ok ()) ∧
      loadMsh demoDebug file' = .ok { s with meshFormat := ⟨b! "4.1", 1, 8⟩ } :=
  C15_any22_to_41_binary _ demo_is22_binary demo_inRange demo_fits22 (by decide) (by decide)

example : ∃ s file', loadMsh demoDebug (Spaced [] ((file22Words (.general 6) demoNodes demoElems).map (·, [10]))) = .ok s ∧ s.nodes.list = demoNodes ∧
      s.elements.list = demoElems.map FileElem.elem ∧
      saveMsh demoDebug { s with meshFormat := ⟨b! "2.2", 1, 8⟩ } = (file', .ok ()) ∧
      loadMsh demoDebug file' = .ok { s with meshFormat := ⟨b! "2.2", 1, 8⟩, entities := {} } :=
  C15_any22_to_22_binary _ demo_is22_ascii demo_inRange demo_fits22 (by decide) (by decide) (by decide) (by decide) (by decide)

/-! ## C34 -/

theorem demo_real (fmt : MeshFormat) (x : Double) : (demoSpec fmt x).Real := by
  constructor <;> simp [demoSpec]

/-- A valid spec. -/
example (fmt : MeshFormat) (x : Double) : (demoSpec fmt x).Valid :=
  (C34_accepts_iff _ (demo_real fmt x)).mp (by rfl)

/-- Wrong ones: a block count, an inverted range, a node outside the range: `CorruptData`. -/
example : validateSpec { demoSpec {} dOne with nodes := { (demoSpec {} dOne).nodes with numEntityBlocks := 3 } } = .throw .corruptData ∧
    validateSpec { demoSpec {} dOne with nodes := { (demoSpec {} dOne).nodes with minNodeTag := 4 } } = .throw .corruptData ∧
    validateSpec { demoSpec {} dOne with nodes := { (demoSpec {} dOne).nodes with maxNodeTag := 2 } } = .throw .corruptData := by
  decide +kernel

/-- A spec with an empty element block: integer division by zero. -/
example : validateSpec { demoSpec {} dOne with elements := ⟨1, 0, 9, 9, [⟨2, 1, 2, 0, []⟩]⟩ } = .ub := by
  decide +kernel

end MshIO
