import Verif.Proofs.PostFile
import Verif.Proofs.Write
import Verif.Proofs.Loop

/-! # The shape of data, curves, patches, regrouped blocks and whole specs -/

namespace MshIO

/-! ## Data -/

structure Data.Small (cfg : Cfg) (d : Data) : Prop where
  strings : d.header.stringTags.length ≤ cfg.maxCount
  reals : d.header.realTags.length ≤ cfg.maxCount
  ints : d.header.intTags.length ≤ cfg.maxCount
  entries : d.entries.length ≤ cfg.maxCount
  entry : ∀ e ∈ d.entries, e.data.length ≤ cfg.maxCount

structure DataHeader.Small (cfg : Cfg) (h : DataHeader) : Prop where
  strings : h.stringTags.length ≤ cfg.maxCount
  reals : h.realTags.length ≤ cfg.maxCount
  ints : h.intTags.length ≤ cfg.maxCount

theorem loadDataHeader_post (cfg : Cfg) (h : DataHeader) : Post (loadDataHeader cfg h) (·.Small cfg) := by
  unfold loadDataHeader
  refine Post.skip fun _ => Post.skip fun ns => Post.bind (Post.resize cfg _ ns _) fun l1 h1 => Post.bind (Post.forEach_length _ l1) fun m1 g1 =>
    Post.skip fun _ => Post.skip fun nr => Post.bind (Post.resize cfg _ nr _) fun l2 h2 => Post.bind (Post.forEach_length _ l2) fun m2 g2 =>
    Post.skip fun _ => Post.skip fun ni => Post.bind (Post.resize cfg _ ni _) fun l3 h3 => Post.bind (Post.forEach_length _ l3) fun m3 g3 =>
    Post.skip fun _ => Post.pure ⟨by rw [g1]; exact h1.2, by rw [g2]; exact h2.2, by rw [g3]; exact h3.2⟩

/-- What is known of one loaded entry. -/
def EntryOk (cfg : Cfg) (fields : Int32) (isEN : Bool) (e : DataEntry) : Prop :=
  e.data.length ≤ cfg.maxCount ∧
    (e.data.length : Int) = if isEN then fields.toInt * e.numNodesPerElement.toInt % 2 ^ 64 else fields.toInt

theorem mul_sizeOfInt (x y : Int32) : ((sizeOfInt x * sizeOfInt y).toNat : Int) = x.toInt * y.toInt % 2 ^ 64 := by
  have hx := toNat_sizeOfInt x
  have hy := toNat_sizeOfInt y
  have key : ∀ a : Int32, ∃ k : Int, ((sizeOfInt a).toNat : Int) = a.toInt + k * 2 ^ 64 := by
    intro a
    have ha := toNat_sizeOfInt a
    split at ha
    · exact ⟨1, by omega⟩
    · exact ⟨0, by omega⟩
  obtain ⟨k, hk⟩ := key x
  obtain ⟨l, hl⟩ := key y
  rw [mul_toNat_mod, Int.natCast_mod, Int.natCast_mul, hk, hl]
  rw [show (x.toInt + k * 2 ^ 64) * (y.toInt + l * 2 ^ 64) = x.toInt * y.toInt + 2 ^ 64 * (x.toInt * l + k * y.toInt + k * l * 2 ^ 64) by ring]
  exact Int.add_mul_emod_self_left _ _ _

theorem fields_exact {cfg : Cfg} {fields : Int32} {l : List Double} (h : l.length = (sizeOfInt fields).toNat ∧ l.length ≤ cfg.maxCount) :
    (l.length : Int) = fields.toInt := by
  have := (sizeOfInt_le cfg.maxCount_lt (x := fields) (by omega)).2
  omega

theorem loadDataEntryBinary41_post (cfg : Cfg) (fields : Int32) (isEN : Bool) (e : DataEntry) :
    Post (loadDataEntryBinary41 cfg (sizeOfInt fields) isEN e) (EntryOk cfg fields isEN) := by
  unfold loadDataEntryBinary41
  refine Post.skip fun _ => Post.skip fun _ => ?_
  cases isEN with
  | true =>
    refine Post.skip fun npe => Post.bind (Post.resize cfg _ _ _) fun l h => Post.bind (Post.readDoubles l) fun m g => Post.pure ⟨?_, ?_⟩
    · rw [g]; exact h.2
    · rw [g, h.1]; exact mul_sizeOfInt _ _
  | false =>
    refine Post.bind (Post.resize cfg _ _ _) fun l h => Post.bind (Post.readDoubles l) fun m g => Post.pure ⟨?_, ?_⟩
    · rw [g]; exact h.2
    · rw [g]; exact fields_exact h

theorem loadDataEntryBinary22_post (cfg : Cfg) (fields : Int32) (isEN : Bool) (e : DataEntry) :
    Post (loadDataEntryBinary22 cfg (sizeOfInt fields) isEN e) (EntryOk cfg fields isEN) := by
  unfold loadDataEntryBinary22
  refine Post.skip fun _ => Post.skip fun _ => ?_
  cases isEN with
  | true =>
    refine Post.skip fun _ => Post.skip fun npe => Post.bind (Post.resize cfg _ _ _) fun l h => Post.bind (Post.readDoubles l) fun m g =>
      Post.pure ⟨?_, ?_⟩
    · rw [g]; exact h.2
    · rw [g, h.1]; exact mul_sizeOfInt _ _
  | false =>
    refine Post.bind (Post.resize cfg _ _ _) fun l h => Post.bind (Post.readDoubles l) fun m g => Post.pure ⟨?_, ?_⟩
    · rw [g]; exact h.2
    · rw [g]; exact fields_exact h

theorem loadDataEntryAscii_post (cfg : Cfg) (fields : Int32) (isEN : Bool) (e : DataEntry) :
    Post (loadDataEntryAscii cfg (sizeOfInt fields) isEN e) (EntryOk cfg fields isEN) := by
  unfold loadDataEntryAscii
  refine Post.skip fun _ => ?_
  cases isEN with
  | true =>
    refine Post.skip fun npe => Post.bind (Post.resize cfg _ _ _) fun l h => Post.bind
      (Post.loopN_inv (P := fun m => m.length = l.length) (fun j m hm => Post.loopN_inv (P := fun m => m.length = l.length)
        (fun k m hm => (Post.inDoubleAt _ m).mono fun m' h => h.trans hm) _ _ m hm) _ _ l rfl) fun m g => Post.pure ⟨?_, ?_⟩
    · rw [g]; exact h.2
    · rw [g, h.1]; exact mul_sizeOfInt _ _
  | false =>
    refine Post.bind (Post.resize cfg _ _ _) fun l h => Post.bind (Post.forEach_length _ l) fun m g => Post.pure ⟨?_, ?_⟩
    · rw [g]; exact h.2
    · rw [g]; exact fields_exact h

theorem loadData_post (cfg : Cfg) (f : MeshFormat) (isEN : Bool) :
    Post (loadData cfg f isEN) fun d => d.Loaded isEN ∧ d.Small cfg := by
  unfold loadData
  refine Post.bind (loadDataHeader_post cfg _) fun h hh => ?_
  match e : h.intTags with
  | [] => exact Post.throw
  | [_] => exact Post.throw
  | [_, _] => exact Post.throw
  | t0 :: fields :: num :: more =>
    refine Post.bind (Post.resize cfg _ _ _) fun es hes => ?_
    have fin : ∀ es' : List DataEntry, es'.length = es.length ∧ (∀ x ∈ es', EntryOk cfg fields isEN x) →
        (⟨h, es'⟩ : Data).Loaded isEN ∧ (⟨h, es'⟩ : Data).Small cfg := by
      intro es' g
      refine ⟨⟨t0, fields, num, more, e, ?_, fun x hx => (g.2 x hx).2⟩, ⟨hh.1, hh.2, hh.3, by rw [g.1]; exact hes.2, fun x hx => (g.2 x hx).1⟩⟩
      have := (sizeOfInt_le cfg.maxCount_lt (x := num) (by omega)).2
      show num.toInt = (es'.length : Int)
      omega
    refine Post.ite (fun _ => Post.skip fun _ => Post.ite (fun _ => ?_) fun _ => Post.ite (fun _ => ?_) fun _ => Post.throw) fun _ => ?_
    · exact Post.bind (Post.forEach (loadDataEntryBinary41_post cfg fields isEN) es) fun es' g => Post.skip fun _ => Post.pure (fin es' g)
    · exact Post.bind (Post.forEach (loadDataEntryBinary22_post cfg fields isEN) es) fun es' g => Post.skip fun _ => Post.pure (fin es' g)
    · exact Post.bind (Post.forEach (loadDataEntryAscii_post cfg fields isEN) es) fun es' g => Post.skip fun _ => Post.pure (fin es' g)

structure Datas.Good (cfg : Cfg) (isEN : Bool) (ds : List Data) : Prop where
  length : ds.length ≤ cfg.maxCount
  each : ∀ d ∈ ds, d.Loaded isEN ∧ d.Small cfg

theorem loadDataSection_post (cfg : Cfg) (f : MeshFormat) (isEN : Bool) (ds : List Data) (h : Datas.Good cfg isEN ds) :
    Post (loadDataSection cfg f isEN ds) (Datas.Good cfg isEN) := by
  unfold loadDataSection
  refine Post.bind (Post.pushBack cfg _ _) fun l hl => Post.bind (loadData_post cfg f isEN) fun d hd => Post.pure ?_
  obtain ⟨rfl, hl⟩ := hl
  rw [List.length_append] at hl
  rw [List.dropLast_concat]
  refine ⟨by rw [List.length_append]; exact hl, ?_⟩
  intro x hx
  rcases List.mem_append.mp hx with hx | hx
  · exact h.each x hx
  · rw [List.mem_singleton] at hx; subst hx; exact hd

/-! ## Curves and patches -/

theorem curve_entries (c : Curve) : c.numEntries.toNat =
    (c.numControlPoints.toNat * (if c.withWeights = 0 then 3 else 4) + c.numKnots.toNat) % 2 ^ 64 := by
  unfold Curve.numEntries
  have hz : (0 < c.withWeights) ↔ ¬ c.withWeights = 0 := by
    rw [UInt64.lt_iff_toNat_lt, ← UInt64.toNat_inj]
    show 0 < _ ↔ ¬ _ = 0
    omega
  rw [UInt64.toNat_add, mul_toNat_mod]
  by_cases h : c.withWeights = 0
  · rw [if_neg (by rw [hz]; exact not_not.mpr h), if_pos h]
    show (_ * 3 % _ + _) % _ = _
    omega
  · rw [if_pos (hz.mpr h), if_neg h]
    show (_ * 4 % _ + _) % _ = _
    omega

theorem patch_entries (c : Patch) : c.numEntries.toNat =
    (c.numControlPoints.toNat * (if c.withWeights = 0 then 3 else 4) + c.numUKnots.toNat + c.numVKnots.toNat) % 2 ^ 64 := by
  unfold Patch.numEntries
  have hz : (0 < c.withWeights) ↔ ¬ c.withWeights = 0 := by
    rw [UInt64.lt_iff_toNat_lt, ← UInt64.toNat_inj]
    show 0 < _ ↔ ¬ _ = 0
    omega
  rw [UInt64.toNat_add, UInt64.toNat_add, mul_toNat_mod]
  by_cases h : c.withWeights = 0
  · rw [if_neg (by rw [hz]; exact not_not.mpr h), if_pos h]
    show ((_ * 3 % _ + _) % _ + _) % _ = _
    omega
  · rw [if_pos (hz.mpr h), if_neg h]
    show ((_ * 4 % _ + _) % _ + _) % _ = _
    omega

def Curve.Good (cfg : Cfg) (c : Curve) : Prop := c.Loaded ∧ c.data.length ≤ cfg.maxCount
def Patch.Good (cfg : Cfg) (c : Patch) : Prop := c.Loaded ∧ c.data.length ≤ cfg.maxCount

theorem loadCurveAscii_post (cfg : Cfg) (c : Curve) : Post (loadCurveAscii cfg c) (·.Good cfg) := by
  unfold loadCurveAscii
  refine Post.skip fun c => Post.bind (Post.resize cfg _ _ _) fun l h => Post.bind (Post.forEach_length _ l) fun m g =>
    Post.pure ⟨?_, by rw [g]; exact h.2⟩
  show m.length = _
  rw [g, h.1, curve_entries]

theorem loadCurveBinary_post (cfg : Cfg) (c : Curve) : Post (loadCurveBinary cfg c) (·.Good cfg) := by
  unfold loadCurveBinary
  refine Post.skip fun c => Post.skip fun _ => Post.bind (Post.resize cfg _ _ _) fun l h => Post.bind (Post.readDoubles l) fun m g =>
    Post.pure ⟨?_, by rw [g]; exact h.2⟩
  show m.length = _
  rw [g, h.1, curve_entries]

theorem loadPatchAscii_post (cfg : Cfg) (c : Patch) : Post (loadPatchAscii cfg c) (·.Good cfg) := by
  unfold loadPatchAscii
  refine Post.skip fun c => Post.bind (Post.resize cfg _ _ _) fun l h => Post.bind (Post.forEach_length _ l) fun m g =>
    Post.pure ⟨?_, by rw [g]; exact h.2⟩
  show m.length = _
  rw [g, h.1, patch_entries]

theorem loadPatchBinary_post (cfg : Cfg) (c : Patch) : Post (loadPatchBinary cfg c) (·.Good cfg) := by
  unfold loadPatchBinary
  refine Post.skip fun c => Post.bind (Post.resize cfg _ _ _) fun l h => Post.skip fun _ => Post.bind (Post.readDoubles l) fun m g =>
    Post.pure ⟨?_, by rw [g]; exact h.2⟩
  show m.length = _
  rw [g, h.1, patch_entries]

def Curves.Good (cfg : Cfg) (cs : List Curve) : Prop := cs.length ≤ cfg.maxCount ∧ ∀ c ∈ cs, c.Good cfg
def Patches.Good (cfg : Cfg) (cs : List Patch) : Prop := cs.length ≤ cfg.maxCount ∧ ∀ c ∈ cs, c.Good cfg

theorem loadCurves_post (cfg : Cfg) (f : MeshFormat) (cs : List Curve) (h : Curves.Good cfg cs) : Post (loadCurves cfg f cs) (Curves.Good cfg) := by
  unfold loadCurves
  refine Post.ite (fun _ => Post.skip fun _ => Post.skip fun n => Post.bind (Post.resize cfg _ n _) fun l hl => Post.ite (fun _ => ?_) fun _ => ?_)
    fun _ => Post.pure h
  · exact (Post.forEach (loadCurveAscii_post cfg) l).mono fun m g => ⟨by rw [g.1]; exact hl.2, g.2⟩
  · exact (Post.forEach (loadCurveBinary_post cfg) l).mono fun m g => ⟨by rw [g.1]; exact hl.2, g.2⟩

theorem loadPatches_post (cfg : Cfg) (f : MeshFormat) (cs : List Patch) (h : Patches.Good cfg cs) : Post (loadPatches cfg f cs) (Patches.Good cfg) := by
  unfold loadPatches
  refine Post.ite (fun _ => Post.skip fun _ => Post.skip fun n => Post.bind (Post.resize cfg _ n _) fun l hl => Post.ite (fun _ => ?_) fun _ => ?_)
    fun _ => Post.pure h
  · exact (Post.forEach (loadPatchAscii_post cfg) l).mono fun m g => ⟨by rw [g.1]; exact hl.2, g.2⟩
  · exact (Post.forEach (loadPatchBinary_post cfg) l).mono fun m g => ⟨by rw [g.1]; exact hl.2, g.2⟩

/-! ## Whole specs -/

structure MshSpec.Inv (cfg : Cfg) (s : MshSpec) : Prop where
  version : s.KnownVersion
  nodes : s.nodes.LoadedIn cfg
  elements : s.elements.LoadedIn cfg
  entities : s.entities.Small cfg
  groups : s.physicalGroups.length ≤ cfg.maxCount ∧ s.physicalGroups.length < 2 ^ 31
  nodeData : Datas.Good cfg false s.nodeData
  elementData : Datas.Good cfg false s.elementData
  elementNodeData : Datas.Good cfg true s.elementNodeData
  curves : Curves.Good cfg s.curves
  patches : Patches.Good cfg s.patches

theorem inv_start (cfg : Cfg) : MshSpec.Inv cfg {} where
  version := Or.inl rfl
  nodes := ⟨rfl, Nat.zero_le _, by simp⟩
  elements := ⟨rfl, Nat.zero_le _, by simp⟩
  entities := ⟨Nat.zero_le _, Nat.zero_le _, Nat.zero_le _, Nat.zero_le _, by simp, by simp, by simp, by simp⟩
  groups := ⟨Nat.zero_le _, by simp⟩
  nodeData := ⟨Nat.zero_le _, by simp⟩
  elementData := ⟨Nat.zero_le _, by simp⟩
  elementNodeData := ⟨Nat.zero_le _, by simp⟩
  curves := ⟨Nat.zero_le _, by simp⟩
  patches := ⟨Nat.zero_le _, by simp⟩

theorem loadSection_post (cfg : Cfg) (buf : Bytes) (s : MshSpec) (h : s.Inv cfg) : Post (loadSection cfg buf s) (·.Inv cfg) := by
  unfold loadSection
  refine Post.ite (fun _ => Post.bind (loadMeshFormat_post _) fun x hx => Post.pure { h with version := hx }) fun _ => ?_
  refine Post.ite (fun _ => Post.bind (loadEntities_post cfg _ _ h.entities) fun x hx => Post.pure { h with entities := hx }) fun _ => ?_
  refine Post.ite (fun _ => Post.bind (loadPhysicalGroups_post cfg _) fun x hx => Post.pure { h with groups := hx }) fun _ => ?_
  refine Post.ite (fun _ => Post.bind (loadNodes_post cfg _ _ h.nodes) fun x hx => Post.pure { h with nodes := hx }) fun _ => ?_
  refine Post.ite (fun _ => Post.bind (loadElements_post cfg _ _ _ h.elements h.entities) fun x hx =>
    Post.pure { h with elements := hx.1, entities := hx.2 }) fun _ => ?_
  refine Post.ite (fun _ => Post.bind (loadDataSection_post cfg _ _ _ h.nodeData) fun x hx => Post.pure { h with nodeData := hx }) fun _ => ?_
  refine Post.ite (fun _ => Post.bind (loadDataSection_post cfg _ _ _ h.elementData) fun x hx => Post.pure { h with elementData := hx }) fun _ => ?_
  refine Post.ite (fun _ => Post.bind (loadDataSection_post cfg _ _ _ h.elementNodeData) fun x hx =>
    Post.pure { h with elementNodeData := hx }) fun _ => ?_
  refine Post.ite (fun _ => Post.skip fun x => Post.pure { h with }) fun _ => ?_
  refine Post.ite (fun _ => Post.bind (loadCurves_post cfg _ _ h.curves) fun x hx => Post.pure { h with curves := hx }) fun _ => ?_
  exact Post.ite (fun _ => Post.bind (loadPatches_post cfg _ _ h.patches) fun x hx => Post.pure { h with patches := hx }) fun _ => Post.pure h

theorem loadRound_post (cfg : Cfg) (s : MshSpec) (h : s.Inv cfg) : Post (loadRound cfg s) (·.Inv cfg) := by
  unfold loadRound
  refine Post.skip fun buf => ?_
  split
  · exact Post.bind (loadSection_post cfg _ s h) fun s' h' => Post.skip fun _ => Post.pure h'
  · exact Post.pure h

theorem loadLoop_post (cfg : Cfg) (n : Nat) : ∀ s : MshSpec, s.Inv cfg → Post (loadLoop cfg n s) (·.Inv cfg) := by
  induction n with
  | zero => intro s _ t a t' e; cases e
  | succ n ih =>
    intro s h t a t' e
    rw [loadLoop_succ] at e
    split at e
    · cases e; exact h
    · exact Post.bind (loadRound_post cfg s h) ih t a t' e

/-! ## Regrouping -/

theorem regroupNode_post (cfg : Cfg) (m : UInt64) (ds ts : List UInt64) (b : NodeBlock) (i : Nat) (st : Regroup)
    (h : st.blocks.length ≤ cfg.maxCount ∧ ∀ c ∈ st.blocks, c.parametric = 0 ∧ c.data.length = 3 * c.tags.length ∧
      c.data.length ≤ cfg.maxCount) :
    OPost (regroupNode cfg m ds ts b i st) fun st => st.blocks.length ≤ cfg.maxCount ∧
      ∀ c ∈ st.blocks, c.parametric = 0 ∧ c.data.length = 3 * c.tags.length ∧ c.data.length ≤ cfg.maxCount := by
  unfold regroupNode
  refine OPost.skip fun t => OPost.skip fun dim => OPost.skip fun tag => ?_
  suffices hs : ∀ st : Regroup, (st.blocks.length ≤ cfg.maxCount ∧ ∀ c ∈ st.blocks, c.parametric = 0 ∧
      c.data.length = 3 * c.tags.length ∧ c.data.length ≤ cfg.maxCount) →
      OPost (if cfg.asserts && st.blocks.isEmpty then .abort
      else do
        let blocks ← vecModifyBack st.blocks (fun c => do
          let ts ← vecPush cfg c.tags t
          let d ← vecPush cfg c.data (← vecGet b.data (UInt64.ofNat i * 3))
          let d ← vecPush cfg d (← vecGet b.data (UInt64.ofNat i * 3 + 1))
          let d ← vecPush cfg d (← vecGet b.data (UInt64.ofNat i * 3 + 2))
          return { c with tags := ts, data := d })
        return { st with blocks }) fun st : Regroup => st.blocks.length ≤ cfg.maxCount ∧
      ∀ c ∈ st.blocks, c.parametric = 0 ∧ c.data.length = 3 * c.tags.length ∧ c.data.length ≤ cfg.maxCount by
    dsimp only
    split
    · refine OPost.skip fun _ => OPost.skip fun _ => OPost.bind (OPost.vecPush cfg _ _) fun bs hbs => OPost.bind (P := fun st' : Regroup => st'.blocks = bs)
        (OPost.pure rfl) fun st' h' => hs st' ?_
      rw [h']
      obtain ⟨rfl, hl⟩ := hbs
      refine ⟨hl, ?_⟩
      intro c hc
      rcases List.mem_append.mp hc with hc | hc
      · exact h.2 c hc
      · rw [List.mem_singleton] at hc
        subst hc
        exact ⟨rfl, rfl, Nat.zero_le _⟩
    · exact OPost.bind (OPost.pure (Q := fun st' => st' = st) rfl) fun st' e => hs st' (by rw [e]; exact h)
  intro st h
  refine OPost.ite (fun _ => OPost.abort) fun _ => OPost.bind (OPost.vecModifyBack
    (Q := fun c : NodeBlock => c.parametric = 0 ∧ c.data.length = 3 * c.tags.length ∧ c.data.length ≤ cfg.maxCount) fun c hc => ?_)
    fun bs hbs => OPost.pure ?_
  · have hmem := h.2 c (List.mem_of_getLast? hc)
    refine OPost.bind (OPost.vecPush cfg _ _) fun ts h1 => OPost.skip fun x => OPost.bind (OPost.vecPush cfg _ _) fun d1 h2 =>
      OPost.skip fun y => OPost.bind (OPost.vecPush cfg _ _) fun d2 h3 => OPost.skip fun z => OPost.bind (OPost.vecPush cfg _ _) fun d3 h4 =>
      OPost.pure ⟨hmem.1, ?_, h4.2⟩
    obtain ⟨rfl, -⟩ := h1
    obtain ⟨rfl, -⟩ := h2
    obtain ⟨rfl, -⟩ := h3
    obtain ⟨rfl, -⟩ := h4
    have := hmem.2.1
    simp only [List.length_append, List.length_cons, List.length_nil]
    omega
  · obtain ⟨hz, a, ha, rfl⟩ := hbs
    refine ⟨?_, ?_⟩
    · have : 0 < st.blocks.length := List.length_pos_iff.mpr hz
      have := h.1
      simp only [List.length_append, List.length_dropLast, List.length_cons, List.length_nil]
      omega
    · intro c hc
      rcases List.mem_append.mp hc with hc | hc
      · exact h.2 c (List.mem_of_mem_dropLast hc)
      · rw [List.mem_singleton] at hc; subst hc; exact ha

theorem regroupNodes_post (cfg : Cfg) (nodes : Nodes) (elements : Elements) :
    OPost (regroupNodes cfg nodes elements) fun n => n.LoadedIn cfg ∧ ∀ b ∈ n.entityBlocks, b.parametric = 0 := by
  unfold regroupNodes
  refine OPost.skip fun dims => OPost.skip fun tags => OPost.skip fun p => OPost.bind
    (OPost.foldO _ (fun b _ st hst => OPost.loopO (fun i st h => regroupNode_post cfg _ _ _ b i st h) _ _ st hst) _
      ⟨Nat.zero_le _, by simp⟩) fun st hst => OPost.pure ?_
  have hm := cfg.maxCount_lt
  have hl : (st.blocks.map fun c => { c with numNodesInBlock := sizeU c.tags }).length = st.blocks.length := List.length_map _
  refine ⟨⟨?_, ?_, ?_⟩, ?_⟩
  · show _ = (sizeU _).toNat
    rw [sizeU_toNat (by rw [hl]; have := hst.1; omega)]
  · show List.length (List.map _ _) ≤ _
    rw [hl]; exact hst.1
  · intro b hb
    obtain ⟨c, hc, rfl⟩ := List.mem_map.mp hb
    obtain ⟨h0, h1, h2⟩ := hst.2 c hc
    have ht : (sizeU c.tags).toNat = c.tags.length := sizeU_toNat (by omega)
    refine ⟨⟨?_, ht.symm, ?_⟩, ?_, h2⟩
    · intro h; simp only [h0] at h; exact absurd h (by decide)
    · show c.data.length = (sizeU c.tags).toNat * _ % _
      rw [ht, NodeBlock.perNode, if_neg (by show ¬ c.parametric = 1; rw [h0]; decide), h1]
      omega
    · show c.tags.length ≤ _
      omega
  · intro b hb
    obtain ⟨c, hc, rfl⟩ := List.mem_map.mp hb
    exact (hst.2 c hc).1

/-- What the accumulated element blocks satisfy: the last one has the current type. -/
structure RegroupE.Good (cfg : Cfg) (st : RegroupE) : Prop where
  small : st.blocks.length ≤ cfg.maxCount
  block : ∀ b ∈ st.blocks, b.LoadedIn cfg
  last : ∀ b, st.blocks.getLast? = some b → sizeOfInt b.elementType = st.type

theorem regroupElement_post (cfg : Cfg) (b : ElementBlock) (hb : b.LoadedIn cfg) (st : RegroupE) (h : st.Good cfg) :
    OPost (regroupElement cfg b st) (·.Good cfg) := by
  obtain ⟨n, hn, hd⟩ := hb.loaded
  unfold regroupElement
  suffices hs : ∀ st : RegroupE, st.Good cfg → st.type = sizeOfInt b.elementType → OPost (do
        let blocks ← vecModifyBack st.blocks (fun c =>
          if c.data.length + b.data.length ≤ cfg.maxCount then
            .ok { c with numElementsInBlock := c.numElementsInBlock + b.numElementsInBlock
                         data := c.data ++ b.data }
          else .throw .alloc)
        return { st with blocks }) fun st : RegroupE => st.Good cfg by
    dsimp only
    split
    · refine OPost.bind (OPost.vecPush cfg _ _) fun bs hbs => OPost.bind
        (P := fun st' : RegroupE => st'.blocks = bs ∧ st'.type = sizeOfInt b.elementType)
        (OPost.pure ⟨rfl, rfl⟩) fun st' h' => hs st' ?_ h'.2
      obtain ⟨rfl, hl⟩ := hbs
      refine ⟨by rw [h'.1]; exact hl, ?_, ?_⟩
      · intro c hc
        rw [h'.1] at hc
        rcases List.mem_append.mp hc with hc | hc
        · exact h.block c hc
        · rw [List.mem_singleton] at hc
          subst hc
          exact ⟨⟨n, hn, by show 0 = 0 * _ % _; simp⟩, Nat.zero_le _⟩
      · intro c hc
        rw [h'.1, List.getLast?_concat] at hc
        cases hc
        exact h'.2.symm
    · rename_i hc
      exact OPost.bind (OPost.pure (Q := fun st' => st' = st) rfl) fun st' e => hs st' (by rw [e]; exact h)
        (by rw [e]; by_contra hne; exact hc (Or.inr (Or.inr fun h => hne h.symm)))
  intro st h ht
  refine OPost.bind (OPost.vecModifyBack (Q := fun c : ElementBlock => c.LoadedIn cfg ∧ c.elementType = b.elementType) fun c hc =>
    OPost.ite (fun hle => OPost.ok ?_) fun _ => OPost.throw) fun bs hbs => OPost.pure ?_
  · have e : c.elementType = b.elementType := sizeOfInt_inj (by rw [h.last c hc, ht])
    obtain ⟨n', hn', hd'⟩ := (h.block c (List.mem_of_getLast? hc)).loaded
    have : n' = n := by rw [e, hn] at hn'; cases hn'; rfl
    subst this
    refine ⟨⟨⟨n', hn', ?_⟩, by rw [List.length_append]; exact hle⟩, e⟩
    show (c.data ++ b.data).length = _
    rw [List.length_append, UInt64.toNat_add]
    have hlt : c.data.length + b.data.length < 2 ^ 64 := by have := cfg.maxCount_lt; omega
    rw [← Nat.mod_eq_of_lt hlt, hd, hd', ← Nat.add_mod, Nat.mod_mul_mod, Nat.add_mul]
  · obtain ⟨hz, a, ha, rfl⟩ := hbs
    refine ⟨?_, ?_, ?_⟩
    · have : 0 < st.blocks.length := List.length_pos_iff.mpr hz
      have := h.small
      simp only [List.length_append, List.length_dropLast, List.length_cons, List.length_nil]
      omega
    · intro c hc
      rcases List.mem_append.mp hc with hc | hc
      · exact h.block c (List.mem_of_mem_dropLast hc)
      · rw [List.mem_singleton] at hc; subst hc; exact ha.1
    · intro c hc
      rw [List.getLast?_concat] at hc
      cases hc
      rw [ha.2]; exact ht.symm

theorem regroupElements_post (cfg : Cfg) (e : Elements) (h : e.LoadedIn cfg) : OPost (regroupElements cfg e) (·.LoadedIn cfg) := by
  unfold regroupElements
  refine OPost.skip fun _ => OPost.bind (OPost.foldO _ (fun b hb st hst => regroupElement_post cfg b (h.block b hb) st hst) {}
    ⟨Nat.zero_le _, by simp, by simp⟩) fun st hst => OPost.pure ⟨?_, hst.small, hst.block⟩
  show _ = (sizeU _).toNat
  rw [sizeU_toNat (by have := hst.small; have := cfg.maxCount_lt; omega)]

theorem loadPostProcess_post (cfg : Cfg) (s : MshSpec) (h : s.Inv cfg) : OPost (loadPostProcess cfg s) fun s =>
    s.Inv cfg ∧ (s.meshFormat.version = b! "2.2" → ∀ b ∈ s.nodes.entityBlocks, b.parametric = 0) := by
  unfold loadPostProcess
  refine OPost.ite (fun hv => OPost.bind (regroupNodes_post cfg _ _) fun n hn => OPost.bind (regroupElements_post cfg _ h.elements)
    fun e he => OPost.pure ⟨{ h with nodes := hn.1, elements := he }, fun _ => hn.2⟩) fun hv => OPost.ok ⟨h, fun hv' => absurd hv' hv⟩

theorem loadMsh_inv {cfg : Cfg} {bytes : Bytes} {s : MshSpec} (h : loadMsh cfg bytes = .ok s) :
    s.Inv cfg ∧ (s.meshFormat.version = b! "2.2" → ∀ b ∈ s.nodes.entityBlocks, b.parametric = 0) := by
  unfold loadMsh loadStream at h
  split at h
  · rename_i spec s' e
    exact loadPostProcess_post cfg spec (loadLoop_post cfg _ _ (inv_start cfg) _ _ _ e) _ h
  all_goals cases h

end MshIO
