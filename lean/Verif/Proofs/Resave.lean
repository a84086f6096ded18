import Verif.Proofs.PostAll
import Verif.Proofs.Outcome

/-! # Loaded specs can be saved -/

namespace MshIO

theorem entriesPerNode_some {b : NodeBlock} (h : b.parametric = 1 → 3 + b.entityDim.toInt < 2 ^ 31) :
    ∃ e, entriesPerNode b.parametric b.entityDim = .ok e ∧ e.toNat = b.perNode := by
  have hp := entriesPerNode_post b
  have : ∃ e, entriesPerNode b.parametric b.entityDim = .ok e := by
    unfold entriesPerNode
    by_cases hb : b.parametric = 1
    · rw [if_pos hb, if_neg (by have := h hb; omega)]
      exact ⟨_, rfl⟩
    · rw [if_neg hb]
      exact ⟨_, rfl⟩
  obtain ⟨e, he⟩ := this
  exact ⟨e, he, (hp e he).2⟩

/-- The whole save succeeds when its parts do. -/
theorem saveMsh_goes (cfg : Cfg) (s : MshSpec) (hv : s.KnownVersion) (hn : Goes (saveNodes cfg s.meshFormat s.nodes))
    (he : Goes (saveElements s.meshFormat s.elements)) (hc : cfg.nanospline = true → Goes (saveCurves cfg s.meshFormat s.curves))
    (hp : cfg.nanospline = true → Goes (savePatches cfg s.meshFormat s.patches)) : Goes (saveMsh cfg s) := by
  unfold saveMsh
  refine Goes.bind (Goes.bind (Goes.emit _) (Goes.bind (Goes.emit _) (Goes.bind (Goes.when fun _ => Goes.emit _) (Goes.emit _)))) ?_
  refine Goes.bind (Goes.when fun _ => Goes.bind (Goes.emit _) (Goes.bind (Goes.emit _)
    (Goes.bind (Goes.forW _ fun _ _ => Goes.emit _) (Goes.emit _)))) ?_
  refine Goes.bind (Goes.when fun _ => (saveEntities_okIff cfg s.meshFormat s.entities).1 hv) ?_
  refine Goes.bind (Goes.when fun _ => hn) (Goes.bind (Goes.when fun _ => he) ?_)
  refine Goes.bind (Goes.when fun _ => (saveDataSections_okIff cfg _ _ _ _).1 fun _ _ => Or.inr hv) ?_
  refine Goes.bind (Goes.when fun _ => (saveDataSections_okIff cfg _ _ _ _).1 fun _ _ => Or.inr hv) ?_
  refine Goes.bind (Goes.when fun _ => (saveDataSections_okIff cfg _ _ _ _).1 fun _ _ => Or.inr hv) ?_
  exact Goes.when fun h => Goes.bind (Goes.bind (Goes.emit _) (Goes.bind (Goes.emit _) (Goes.emit _)))
    (Goes.bind (Goes.when fun _ => hc h) (Goes.when fun _ => hp h))

theorem writeN_goes {α : Type} (enc : α → Bytes) (v : List α) (n : UInt64) (h : n.toNat = v.length) : Goes (writeN enc v n) := by
  unfold writeN
  rw [if_pos (by rw [h]; exact Nat.mod_le _ _)]
  exact Goes.emit _

theorem nodeBlockBinary41_goes (b : NodeBlock) (h : b.Loaded) : Goes (saveNodeBlockBinary41 b) := by
  obtain ⟨e, he, hn⟩ := entriesPerNode_some h.dim
  refine Goes.bind (Goes.emit _) (Goes.bind (writeN_goes _ _ _ h.tags.symm) (Goes.lift he (writeN_goes _ _ _ ?_)))
  rw [mul_toNat_mod, hn, h.data]

theorem nodeBlockAscii41_goes (cfg : Cfg) (b : NodeBlock) (h : b.Loaded) (hw : b.numNodesInBlock.toNat * b.perNode < 2 ^ 64) :
    Goes (saveNodeBlockAscii41 cfg b) := by
  obtain ⟨e, he, hn⟩ := entriesPerNode_some h.dim
  have hd := h.data
  rw [Nat.mod_eq_of_lt hw] at hd
  refine Goes.bind (Goes.emit _) (Goes.bind (Goes.loopW _ _ fun j _ hj => ?_) (Goes.lift he (Goes.loopW _ _ fun j _ hj =>
    Goes.loopW _ _ fun k _ hk => ?_)))
  · rw [Nat.zero_add] at hj
    exact Goes.lift (vecGet_ok (ofNat_toNat_lt (lt_trans hj b.numNodesInBlock.toNat_lt)) (by rw [h.tags]; exact hj)) (Goes.emit _)
  · rw [Nat.zero_add] at hj hk
    have hlt : j * e.toNat + k < b.data.length := by
      rw [hd, ← hn]
      calc j * e.toNat + k < j * e.toNat + e.toNat := by omega
        _ = (j + 1) * e.toNat := by ring
        _ ≤ _ := Nat.mul_le_mul_right _ hj
    exact Goes.lift (vecGet_ok (idx_toNat (by omega)) hlt) (Goes.bind (Goes.emit _) (Goes.emit _))

theorem NodeBlock.LoadedIn.ok {cfg : Cfg} {b : NodeBlock} (h : b.LoadedIn cfg) (h0 : b.parametric = 0) : b.Ok where
  dim := by rw [h0]; intro h; exact absurd h (by decide)
  tags := h.loaded.tags
  data := by
    have h1 := h.loaded.data
    have h2 := h.tags
    have h3 := cfg.maxCount_lt
    rw [h.loaded.tags] at h2
    rw [NodeBlock.perNode, if_neg (by rw [h0]; decide), Nat.mod_eq_of_lt (by omega)] at h1
    rw [h1, NodeBlock.coords, if_neg (by rw [h0]; decide)]

theorem nodes_goes (cfg cfg' : Cfg) (f : MeshFormat) (n : Nodes) (h : n.LoadedIn cfg) (hv : f.version = b! "4.1" ∨ f.version = b! "2.2")
    (h22 : f.version = b! "2.2" → ∀ b ∈ n.entityBlocks, b.parametric = 0)
    (hw : f.version = b! "4.1" → f.fileType = 0 → ∀ b ∈ n.entityBlocks, b.numNodesInBlock.toNat * b.perNode < 2 ^ 64) :
    Goes (saveNodes cfg' f n) := by
  rcases hv with hv | hv
  · unfold saveNodes
    refine Goes.bind (Goes.emit _) ?_
    dsimp only
    rw [if_pos hv]
    split
    · rename_i ht
      refine Goes.bind ?_ (Goes.emit _)
      unfold saveNodesAscii41
      rw [loopBlocks_eq _ _ _ h.blocks.symm]
      exact Goes.bind (Goes.emit _) (Goes.forW _ fun b hb => nodeBlockAscii41_goes cfg' b (h.block b hb).loaded (hw hv ht b hb))
    · refine Goes.bind ?_ (Goes.emit _)
      unfold saveNodesBinary41
      rw [loopBlocks_eq _ _ _ h.blocks.symm]
      exact Goes.bind (Goes.emit _) (Goes.forW _ fun b hb => nodeBlockBinary41_goes b (h.block b hb).loaded)
  · have hm := cfg.maxCount_lt
    have hg : n.Good cfg'.roomy := by
      refine ⟨h.blocks, fun b hb => (h.block b hb).ok (h22 hv b hb), ?_, fun b hb => ⟨?_, ?_⟩⟩
      · show _ ≤ 2 ^ 60 - 1; have := h.small; omega
      · show _ ≤ 2 ^ 60 - 1; have := (h.block b hb).tags; omega
      · show _ ≤ 2 ^ 60 - 1; have := (h.block b hb).data; omega
    exact (saveNodes_okIff cfg'.roomy f n hg).1 (Or.inr hv)

theorem elements_goes (cfg : Cfg) (f : MeshFormat) (n : Elements) (h : n.LoadedIn cfg) (hv : f.version = b! "4.1" ∨ f.version = b! "2.2")
    (hw : ¬ (f.version = b! "4.1" ∧ f.fileType ≠ 0) → ∀ b ∈ n.entityBlocks, ∀ k, mshNodes b.elementType = some k →
      b.numElementsInBlock.toNat * (k + 1) < 2 ^ 64) : Goes (saveElements f n) := by
  by_cases hb : f.version = b! "4.1" ∧ f.fileType ≠ 0
  · unfold saveElements
    refine Goes.bind (Goes.emit _) ?_
    dsimp only
    rw [if_pos hb.1, if_neg hb.2]
    exact Goes.bind (saveElementsBinary41_writes n h.blocks).goes (Goes.emit _)
  · refine (saveElements_okIff cfg f n h.blocks (fun b hm k hk => ?_) fun b hm => (h.block b hm).data).1 ⟨hv, fun _ b hm => ?_⟩
    · obtain ⟨k', hk', hd⟩ := (h.block b hm).loaded
      rw [hk] at hk'
      cases hk'
      rw [hd, Nat.mod_eq_of_lt (hw hb b hm k hk)]
    · obtain ⟨k', hk', hd⟩ := (h.block b hm).loaded
      rw [hk']; rfl

theorem curves_goes (cfg cfg' : Cfg) (f : MeshFormat) (cs : List Curve) (h : Curves.Good cfg cs)
    (hw : f.fileType = 0 → ∀ c ∈ cs, c.numControlPoints.toNat * (if c.withWeights = 0 then 3 else 4) + c.numKnots.toNat < 2 ^ 64) :
    Goes (saveCurves cfg' f cs) := by
  have hm := cfg.maxCount_lt
  unfold saveCurves
  refine Goes.bind (Goes.emit _) (Goes.bind (Goes.emit _) ?_)
  dsimp only
  split
  · rename_i ht
    refine Goes.bind (Goes.forW _ fun c hc => (saveCurveAscii_writes cfg' c ?_ ?_).goes) (Goes.emit _)
    · have := (h.2 c hc).1
      unfold Curve.Loaded at this
      rwa [Nat.mod_eq_of_lt (hw ht c hc)] at this
    · have := (h.2 c hc).2; omega
  · refine Goes.bind (Goes.forW _ fun c hc => ?_) (Goes.emit _)
    have e : c.numEntries.toNat = c.data.length := by rw [curve_entries, (h.2 c hc).1]
    refine Goes.bind (Goes.emit _) (Goes.bind ?_ (writeN_goes _ _ _ e))
    exact (writesT_assertW cfg' (by simp [eq_sizeU e])).goes

theorem patches_goes (cfg cfg' : Cfg) (f : MeshFormat) (cs : List Patch) (h : Patches.Good cfg cs)
    (hw : f.fileType = 0 → ∀ c ∈ cs, c.numControlPoints.toNat * (if c.withWeights = 0 then 3 else 4) +
      c.numUKnots.toNat + c.numVKnots.toNat < 2 ^ 64) : Goes (savePatches cfg' f cs) := by
  have hm := cfg.maxCount_lt
  unfold savePatches
  refine Goes.bind (Goes.emit _) (Goes.bind (Goes.emit _) ?_)
  dsimp only
  split
  · rename_i ht
    refine Goes.bind (Goes.forW _ fun c hc => (savePatchAscii_writes cfg' c ?_ ?_).goes) (Goes.emit _)
    · have := (h.2 c hc).1
      unfold Patch.Loaded at this
      rwa [Nat.mod_eq_of_lt (hw ht c hc)] at this
    · have := (h.2 c hc).2; omega
  · refine Goes.bind (Goes.forW _ fun c hc => ?_) (Goes.emit _)
    have e : c.numEntries.toNat = c.data.length := by rw [patch_entries, (h.2 c hc).1]
    refine Goes.bind (Goes.emit _) (Goes.bind ?_ (writeN_goes _ _ _ e))
    exact (writesT_assertW cfg' (by simp [eq_sizeU e])).goes

/-! ## From the invariant to the specification -/

theorem MshSpec.Inv.loaded {cfg : Cfg} {s : MshSpec} (h : s.Inv cfg) : s.Loaded where
  version := h.version
  nodeBlocks := h.nodes.blocks
  node := fun b hb => (h.nodes.block b hb).loaded
  elementBlocks := h.elements.blocks
  element := fun b hb => (h.elements.block b hb).loaded
  nodeData := fun d hd => (h.nodeData.each d hd).1
  elementData := fun d hd => (h.elementData.each d hd).1
  elementNodeData := fun d hd => (h.elementNodeData.each d hd).1
  curve := fun c hc => (h.curves.2 c hc).1
  patch := fun c hc => (h.patches.2 c hc).1

theorem Data.Small.sizes {cfg : Cfg} {d : Data} (h : d.Small cfg) : ∀ n ∈ d.sizes, n ≤ cfg.maxCount := by
  intro n hn
  unfold Data.sizes at hn
  simp only [List.mem_cons, List.mem_map] at hn
  rcases hn with rfl | rfl | rfl | rfl | ⟨e, he, rfl⟩
  · exact h.strings
  · exact h.reals
  · exact h.ints
  · exact h.entries
  · exact h.entry e he

theorem MshSpec.Inv.fits {cfg : Cfg} {s : MshSpec} (h : s.Inv cfg) : s.Fits cfg where
  groups := h.groups.2
  all := by
    intro n hn
    rcases mem_sizes.mp hn with hn | hn | hn | hn | hn | hn | hn | hn
    · simp only [List.mem_cons, List.not_mem_nil, or_false] at hn
      rcases hn with rfl | rfl | rfl | rfl | rfl | rfl | rfl | rfl | rfl | rfl | rfl | rfl
      · exact h.groups.1
      · exact h.entities.points
      · exact h.entities.curves
      · exact h.entities.surfaces
      · exact h.entities.volumes
      · exact h.nodes.small
      · exact h.elements.small
      · exact h.nodeData.length
      · exact h.elementData.length
      · exact h.elementNodeData.length
      · exact h.curves.1
      · exact h.patches.1
    · obtain ⟨p, hp, rfl⟩ := List.mem_map.mp hn
      exact h.entities.point p hp
    · obtain ⟨p, hp, hn⟩ := List.mem_flatMap.mp hn
      have hs : p.Small cfg := by
        rcases List.mem_append.mp hp with hp | hp
        · rcases List.mem_append.mp hp with hp | hp
          · exact h.entities.curve p hp
          · exact h.entities.surface p hp
        · exact h.entities.volume p hp
      simp only [List.mem_cons, List.not_mem_nil, or_false] at hn
      rcases hn with rfl | rfl
      · exact hs.1
      · exact hs.2
    · obtain ⟨b, hb, hn⟩ := List.mem_flatMap.mp hn
      simp only [List.mem_cons, List.not_mem_nil, or_false] at hn
      rcases hn with rfl | rfl
      · exact (h.nodes.block b hb).tags
      · exact (h.nodes.block b hb).data
    · obtain ⟨b, hb, rfl⟩ := List.mem_map.mp hn
      exact (h.elements.block b hb).data
    · obtain ⟨d, hd, hn⟩ := List.mem_flatMap.mp hn
      have hs : d.Small cfg := by
        rcases List.mem_append.mp hd with hd | hd
        · rcases List.mem_append.mp hd with hd | hd
          · exact (h.nodeData.each d hd).2
          · exact (h.elementData.each d hd).2
        · exact (h.elementNodeData.each d hd).2
      exact hs.sizes n hn
    · obtain ⟨c, hc, rfl⟩ := List.mem_map.mp hn
      exact (h.curves.2 c hc).2
    · obtain ⟨c, hc, rfl⟩ := List.mem_map.mp hn
      exact (h.patches.2 c hc).2

end MshIO
