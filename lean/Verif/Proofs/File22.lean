import Verif.Proofs.Read22
import Verif.Proofs.File41

/-!
# Version 2.2 files: sections and post-processing
-/

namespace MshIO

/-! ## Tag ranges -/

theorem foldl_min_le (ts : List UInt64) (a : UInt64) : ts.foldl min a ≤ a ∧ ∀ t ∈ ts, ts.foldl min a ≤ t := by
  induction ts generalizing a with
  | nil => exact ⟨UInt64.le_refl a, by simp⟩
  | cons t ts ih =>
    obtain ⟨h1, h2⟩ := ih (min a t)
    rw [List.foldl_cons]
    have e : min a t ≤ a ∧ min a t ≤ t := by
      show (if a ≤ t then a else t) ≤ a ∧ (if a ≤ t then a else t) ≤ t
      simp only [UInt64.le_iff_toNat_le]
      split <;> constructor <;> omega
    refine ⟨UInt64.le_trans h1 e.1, ?_⟩
    intro x hx
    rcases List.mem_cons.mp hx with rfl | hx
    · exact UInt64.le_trans h1 e.2
    · exact h2 x hx

theorem foldl_max_ge (ts : List UInt64) (a : UInt64) : a ≤ ts.foldl max a ∧ ∀ t ∈ ts, t ≤ ts.foldl max a := by
  induction ts generalizing a with
  | nil => exact ⟨UInt64.le_refl a, by simp⟩
  | cons t ts ih =>
    obtain ⟨h1, h2⟩ := ih (max a t)
    rw [List.foldl_cons]
    have e : a ≤ max a t ∧ t ≤ max a t := by
      show a ≤ (if a ≤ t then t else a) ∧ t ≤ (if a ≤ t then t else a)
      simp only [UInt64.le_iff_toNat_le]
      split <;> constructor <;> omega
    refine ⟨UInt64.le_trans e.1 h1, ?_⟩
    intro x hx
    rcases List.mem_cons.mp hx with rfl | hx
    · exact UInt64.le_trans e.2 h1
    · exact h2 x hx

theorem foldl_min_mem (ts : List UInt64) (a : UInt64) : ts.foldl min a = a ∨ ts.foldl min a ∈ ts := by
  induction ts generalizing a with
  | nil => exact Or.inl rfl
  | cons t ts ih =>
    rw [List.foldl_cons]
    have e : min a t = a ∨ min a t = t := by
      show (if a ≤ t then a else t) = a ∨ (if a ≤ t then a else t) = t
      split <;> simp
    rcases ih (min a t) with h | h
    · rcases e with e | e
      · rw [e] at h; rw [e]; exact Or.inl h
      · rw [h, e]; exact Or.inr (by simp)
    · exact Or.inr (by simp [h])

theorem foldl_max_mem (ts : List UInt64) (a : UInt64) : ts.foldl max a = a ∨ ts.foldl max a ∈ ts := by
  induction ts generalizing a with
  | nil => exact Or.inl rfl
  | cons t ts ih =>
    rw [List.foldl_cons]
    have e : max a t = a ∨ max a t = t := by
      show (if a ≤ t then t else a) = a ∨ (if a ≤ t then t else a) = t
      split <;> simp
    rcases ih (max a t) with h | h
    · rcases e with e | e
      · rw [e] at h; rw [e]; exact Or.inl h
      · rw [h, e]; exact Or.inr (by simp)
    · exact Or.inr (by simp [h])

theorem sizeMax_toNat : (UInt64.ofNat (2 ^ 64 - 1)).toNat = 2 ^ 64 - 1 := rfl

/-- The range of a non-empty list is attained. -/
theorem tagRange_mem {ts : List UInt64} (h : ts ≠ []) : (tagRange ts).1 ∈ ts ∧ (tagRange ts).2 ∈ ts := by
  obtain ⟨t, r, rfl⟩ := List.exists_cons_of_ne_nil h
  unfold tagRange
  constructor
  · rcases foldl_min_mem (t :: r) (UInt64.ofNat (2 ^ 64 - 1)) with e | e
    · have h1 := (foldl_min_le (t :: r) (UInt64.ofNat (2 ^ 64 - 1))).2 t (by simp)
      rw [e] at h1
      rw [UInt64.le_iff_toNat_le, sizeMax_toNat] at h1
      have h2 := t.toNat_lt
      have : t = UInt64.ofNat (2 ^ 64 - 1) := by
        apply UInt64.toNat_inj.mp
        rw [sizeMax_toNat]; omega
      show (t :: r).foldl min (UInt64.ofNat (2 ^ 64 - 1)) ∈ _
      rw [e, ← this]; simp
    · exact e
  · rcases foldl_max_mem (t :: r) 0 with e | e
    · have h1 := (foldl_max_ge (t :: r) 0).2 t (by simp)
      rw [e, UInt64.le_iff_toNat_le] at h1
      have : t = 0 := by
        apply UInt64.toNat_inj.mp
        simp at h1 ⊢; omega
      show (t :: r).foldl max 0 ∈ _
      rw [e, ← this]; simp
    · exact e

theorem tagRange_bounds {ts : List UInt64} {t : UInt64} (h : t ∈ ts) : (tagRange ts).1 ≤ t ∧ t ≤ (tagRange ts).2 :=
  ⟨(foldl_min_le ts _).2 t h, (foldl_max_ge ts _).2 t h⟩

theorem sizeOfInt_lt_iff {a b : Int32} (ha : 0 ≤ a.toInt) (hb : 0 ≤ b.toInt) : sizeOfInt a < sizeOfInt b ↔ a < b := by
  rw [UInt64.lt_iff_toNat_lt, Int32.lt_iff_toInt_lt, sizeOfInt_toNat ha, sizeOfInt_toNat hb]
  omega

theorem minNum_fold (es : List FileElem) (h : ∀ e ∈ es, 0 ≤ e.num.toInt) (a : Int32) (ha : 0 ≤ a.toInt) :
    0 ≤ (es.foldl (fun m e => if e.num < m then e.num else m) a).toInt ∧
    sizeOfInt (es.foldl (fun m e => if e.num < m then e.num else m) a) =
      (es.map fun e => sizeOfInt e.num).foldl (fun a b => if b < a then b else a) (sizeOfInt a) := by
  induction es generalizing a with
  | nil => exact ⟨ha, rfl⟩
  | cons e es ih =>
    have he := h e (by simp)
    simp only [List.foldl_cons, List.map_cons]
    have hlt := sizeOfInt_lt_iff he ha
    by_cases hc : e.num < a
    · rw [if_pos hc, if_pos (hlt.mpr hc)]
      exact ih (fun x hx => h x (by simp [hx])) e.num he
    · rw [if_neg hc, if_neg (fun h => hc (hlt.mp h))]
      exact ih (fun x hx => h x (by simp [hx])) a ha

theorem maxNum_fold (es : List FileElem) (h : ∀ e ∈ es, 0 ≤ e.num.toInt) (a : Int32) (ha : 0 ≤ a.toInt) :
    sizeOfInt (es.foldl (fun m e => if m < e.num then e.num else m) a) =
      (es.map fun e => sizeOfInt e.num).foldl (fun a b => if a < b then b else a) (sizeOfInt a) := by
  induction es generalizing a with
  | nil => rfl
  | cons e es ih =>
    have he := h e (by simp)
    simp only [List.foldl_cons, List.map_cons]
    have hlt := sizeOfInt_lt_iff ha he
    by_cases hc : a < e.num
    · rw [if_pos hc, if_pos (hlt.mpr hc)]
      exact ih (fun x hx => h x (by simp [hx])) e.num he
    · rw [if_neg hc, if_neg (fun h => hc (hlt.mp h))]
      exact ih (fun x hx => h x (by simp [hx])) a ha

/-- For non-empty lists of nonnegative numbers the binary reader's range is the exact one. -/
theorem binaryRange_eq {es : List FileElem} (hne : es ≠ []) (h : ∀ e ∈ es, 0 ≤ e.num.toInt) :
    binaryRange es = tagRange (es.map fun e => sizeOfInt e.num) := by
  obtain ⟨e, r, rfl⟩ := List.exists_cons_of_ne_nil hne
  have he := h e (by simp)
  have h1 := (minNum_fold (e :: r) h 2147483647 (by decide)).2
  have h2 := maxNum_fold (e :: r) h 0 (by decide)
  have hcap : sizeOfInt e.num < sizeOfInt 2147483647 ∨ sizeOfInt e.num = sizeOfInt 2147483647 := by
    rw [UInt64.lt_iff_toNat_lt, sizeOfInt_toNat he, ← UInt64.toNat_inj, sizeOfInt_toNat he]
    have : (sizeOfInt 2147483647).toNat = 2147483647 := by decide
    rw [this]
    have := e.num.toInt_lt
    omega
  have hlt : sizeOfInt e.num < sizeMax := by
    have h1 := sizeOfInt_toNat he
    have h2 := e.num.toInt_lt
    rw [UInt64.lt_iff_toNat_lt]
    have : sizeMax.toNat = 2 ^ 64 - 1 := rfl
    rw [this, h1]; omega
  have e1 : sizeOfInt (minNum (e :: r)) = (tagRange ((e :: r).map fun e => sizeOfInt e.num)).1 := by
    unfold minNum
    rw [h1]
    unfold tagRange
    simp only [← fold_min]
    simp only [List.map_cons, List.foldl_cons]
    congr 1
    rw [if_pos (show sizeOfInt e.num < UInt64.ofNat (2 ^ 64 - 1) from hlt)]
    rcases hcap with hc | hc
    · rw [if_pos hc]
    · rw [hc]; simp
  have e2 : sizeOfInt (maxNum (e :: r)) = (tagRange ((e :: r).map fun e => sizeOfInt e.num)).2 := by
    unfold maxNum
    rw [h2]
    unfold tagRange
    simp only [← fold_max]
    rfl
  unfold binaryRange
  rw [e1, e2]
  have hm := (tagRange_bounds (ts := (e :: r).map fun e => sizeOfInt e.num) (t := sizeOfInt e.num) (by simp)).1
  refine Prod.ext ?_ ?_
  · show (if _ then _ else _) = _
    rw [if_pos]
    rw [UInt64.lt_iff_toNat_lt] at hlt ⊢
    rw [UInt64.le_iff_toNat_le] at hm
    omega
  · show (if _ then _ else _) = _
    split
    · rfl
    · rename_i hz
      rw [UInt64.lt_iff_toNat_lt] at hz
      apply UInt64.toNat_inj.mp
      simp at hz ⊢; omega

/-! ## Post-processing -/

theorem elemEntries_eq (es : List MeshElem) : elemEntries es = (es.map fun e => e.nodes.length + 1).sum := by
  unfold elemEntries
  rw [List.length_flatMap]
  rfl

/-- The elements of a version 2.2 file: known types, dimensions of the types. -/
def Typed (es : List MeshElem) : Prop :=
  ∀ e ∈ es, mshNodes e.type = some e.nodes.length ∧ e.dim = Int32.ofNat ((mshDim e.type).getD 0)

theorem Typed.dim {es : List MeshElem} (h : Typed es) : ∀ e ∈ es, 0 ≤ e.dim.toInt := by
  intro e he
  obtain ⟨h1, h2⟩ := h e he
  obtain ⟨d, hd, hd3⟩ := mshDim_of_mshNodes h1
  rw [h2, hd]
  have : d = 0 ∨ d = 1 ∨ d = 2 ∨ d = 3 := by omega
  rcases this with rfl | rfl | rfl | rfl <;> decide

theorem Typed.type {es : List MeshElem} (h : Typed es) : ∀ e ∈ es, e.type ≠ 0 := by
  intro e he h0
  have := mshNodes_range (h e he).1
  rw [h0] at this
  exact absurd this.1 (by decide)

theorem typed_file {fs : List FileElem} (h : ∀ f ∈ fs, f.Ok) : Typed (fs.map FileElem.elem) := by
  intro e he
  obtain ⟨f, hf, rfl⟩ := List.mem_map.mp he
  refine ⟨?_, rfl⟩
  show mshNodes f.type = some (f.nodes.map sizeOfInt).length
  rw [List.length_map]
  exact h f hf

/-- Nodes of a version 2.2 file before the post-processing: one section, or none and no nodes. -/
def NodesState (ns : List MeshNode) (n : Nodes) : Prop := n = rawNodes ns ∨ (ns = [] ∧ n = {})

/-- Elements of a version 2.2 file before the post-processing, up to the range. -/
def ElemsState (es : List MeshElem) (e : Elements) : Prop :=
  e.entityBlocks = es.map MeshElem.block ∧ e.numEntityBlocks = UInt64.ofNat es.length

theorem loadPostProcess22 (cfg : Cfg) (s : MshSpec) (hv : s.meshFormat.version = b! "2.2") (ns : List MeshNode)
    (es : List MeshElem) (hn : NodesState ns s.nodes) (he : ElemsState es s.elements) (ht : Typed es)
    (hr : NodesInRange ns es) (hf : Fits22 cfg ns es) :
    loadPostProcess cfg s = .ok { s with
      nodes := if ns = [] ∧ s.nodes = {} then {} else nodesOf ns es
      elements := { s.elements with
        numEntityBlocks := (elementsOf es).numEntityBlocks, entityBlocks := (elementsOf es).entityBlocks } } := by
  have hlt := cfg.maxCount_lt
  have h2 := hf.two
  unfold loadPostProcess
  rw [if_pos hv]
  have hb : s.nodes.entityBlocks = [rawNodeBlock ns] ∨ ns = [] ∧ s.nodes.entityBlocks = [] := by
    rcases hn with h | ⟨h, h'⟩
    · rw [h]; exact Or.inl rfl
    · rw [h']; exact Or.inr ⟨h, rfl⟩
  have hrng : ns ≠ [] → s.nodes.minNodeTag = (tagRange (ns.map (·.tag))).1 ∧ s.nodes.maxNodeTag = (tagRange (ns.map (·.tag))).2 := by
    intro hne
    rcases hn with h | ⟨h, h'⟩
    · rw [h]; exact ⟨rfl, rfl⟩
    · exact absurd h hne
  have hsz : (s.nodes.maxNodeTag - s.nodes.minNodeTag).toNat + 1 ≤ cfg.maxCount := by
    by_cases hne : ns = []
    · subst hne
      rcases hn with h | ⟨_, h'⟩
      · rw [h]
        have : ((rawNodes []).maxNodeTag - (rawNodes []).minNodeTag).toNat = 1 := by decide
        omega
      · rw [h']
        have : (({} : Nodes).maxNodeTag - ({} : Nodes).minNodeTag).toNat = 0 := by decide
        omega
    · obtain ⟨e1, e2⟩ := hrng hne
      obtain ⟨m1, m2⟩ := tagRange_mem (ts := ns.map (·.tag)) (by simpa using hne)
      obtain ⟨a, ha, ea⟩ := List.mem_map.mp m1
      obtain ⟨b, hb', eb⟩ := List.mem_map.mp m2
      rw [e1, e2, ← ea, ← eb]
      have hle : a.tag ≤ b.tag := by
        rw [ea]
        exact (tagRange_bounds (List.mem_map.mpr ⟨b, hb', rfl⟩)).1
      rw [tag_sub hle]
      have := hf.span a ha b hb'
      omega
  have hin : ∀ e ∈ es, ∀ t ∈ e.nodes, s.nodes.minNodeTag ≤ t ∧ t ≤ s.nodes.maxNodeTag := by
    intro e he' t ht'
    obtain ⟨⟨a, ha, h1⟩, ⟨b, hb', h2⟩⟩ := hr e he' t ht'
    obtain ⟨e1, e2⟩ := hrng (List.ne_nil_of_mem ha)
    rw [e1, e2]
    exact ⟨UInt64.le_trans (tagRange_bounds (List.mem_map.mpr ⟨a, ha, rfl⟩)).1 h1,
      UInt64.le_trans h2 (tagRange_bounds (List.mem_map.mpr ⟨b, hb', rfl⟩)).2⟩
  have hinn : ∀ n ∈ ns, s.nodes.minNodeTag ≤ n.tag ∧ n.tag ≤ s.nodes.maxNodeTag := by
    intro n hn'
    obtain ⟨e1, e2⟩ := hrng (List.ne_nil_of_mem hn')
    rw [e1, e2]
    exact tagRange_bounds (List.mem_map.mpr ⟨n, hn', rfl⟩)
  have r1 := regroupNodes_spec cfg ns es s.nodes s.elements hb he.1 (fun e h => (ht e h).1) ht.dim hsz hin hinn hf.coords
  have r2 := regroupElements_spec cfg es s.elements he.1 he.2 ht.type (by rw [elemEntries_eq]; exact hf.entries)
  rw [Outcome.bind_ok _ r1, Outcome.bind_ok _ r2]
  show Outcome.ok _ = _
  congr 1
  have : ({ s.nodes with numEntityBlocks := UInt64.ofNat (runBlocks (fun n => lastEntity es n.tag) nodeBlockOf ns).length, entityBlocks := runBlocks (fun n => lastEntity es n.tag) nodeBlockOf ns } : Nodes) =
      if ns = [] ∧ s.nodes = {} then {} else nodesOf ns es := by
    rcases hn with h | ⟨h, h'⟩
    · rw [h, if_neg]
      · rfl
      · rintro ⟨_, h⟩
        have := congrArg Nodes.entityBlocks h
        simp [rawNodes] at this
    · rw [if_pos ⟨h, h'⟩, h', h]
      rfl
  rw [this]
  rfl

/-! ## Sections -/

theorem readsT_nodes22 (cfg : Cfg) (spec : MshSpec) (hv : spec.meshFormat.version = b! "2.2") (ht : spec.meshFormat.fileType = 0)
    (h0 : spec.nodes = {}) (P : Fmt) (rd : Double → Double) (ns : List MeshNode)
    (hd : ∀ n ∈ ns, DTok P rd n.x ∧ DTok P rd n.y ∧ DTok P rd n.z)
    (h3 : 3 * ns.length ≤ cfg.maxCount) (h1 : 1 ≤ cfg.maxCount) :
    ReadsT (loadSection cfg (36 :: b! "Nodes") spec) (decU64 (UInt64.ofNat ns.length) :: ns.flatMap (nodeWords P))
      { spec with nodes := rawNodes (ns.map (MeshNode.convert rd)) } := by
  rw [loadSection_nodes]
  refine ReadsT.map ?_ rfl
  unfold loadNodes
  rw [h0, hv, ht]
  exact loadNodesAscii22_reads cfg P rd ns hd h3 h1 _ rfl

theorem readsM_nodes22 (cfg : Cfg) (spec : MshSpec) (hv : spec.meshFormat.version = b! "2.2") (ht : spec.meshFormat.fileType ≠ 0)
    (h0 : spec.nodes = {}) (ns : List MeshNode)
    (h3 : 3 * ns.length ≤ cfg.maxCount) (h1 : 1 ≤ cfg.maxCount) {sep : Bytes} (hs : One sep) :
    ReadsM (loadSection cfg (36 :: b! "Nodes") spec) (decU64 (UInt64.ofNat ns.length) ++ sep ++ ns.flatMap nodeBytes)
      { spec with nodes := rawNodes (ns.map MeshNode.wrap) } := by
  rw [loadSection_nodes]
  intro w rest hw hr
  refine Eq.trans (Rd.bind_ok (a := rawNodes (ns.map MeshNode.wrap)) (s' := gs rest) ?_) rfl
  unfold loadNodes
  rw [h0, hv]
  simp only [ht, if_false]
  exact loadNodesBinary22_reads cfg ns h3 h1 _ rfl sep hs w rest hw hr

theorem readsT_elements22 (cfg : Cfg) (spec : MshSpec) (hv : spec.meshFormat.version = b! "2.2") (ht : spec.meshFormat.fileType = 0)
    (h0 : spec.elements = {}) (h0' : spec.entities = {}) (fs : List FileElem) (ho : ∀ f ∈ fs, f.Ok) (hs : ∀ f ∈ fs, f.Small cfg)
    (hfit : elemEntries (fs.map FileElem.elem) ≤ cfg.maxCount) :
    ReadsT (loadSection cfg (36 :: b! "Elements") spec) (decU64 (UInt64.ofNat fs.length) :: fs.flatMap elemWords)
      { spec with elements := rawElements (fs.map FileElem.elem), entities := entitiesFrom (physOf fs) } := by
  rw [loadSection_elements]
  refine ReadsT.map (a := (rawElements (fs.map FileElem.elem), entitiesFrom (physOf fs))) ?_ rfl
  unfold loadElements
  rw [h0, h0', hv, ht]
  exact loadElementsAscii22_reads cfg fs ho hs hfit _ rfl

theorem readsM_elements22 (cfg : Cfg) (spec : MshSpec) (hv : spec.meshFormat.version = b! "2.2") (ht : spec.meshFormat.fileType ≠ 0)
    (h0 : spec.elements = {}) (h0' : spec.entities = {}) (gs' : List FileGroup) (hg : ∀ g ∈ gs', g.Ok cfg)
    (hfit : elemEntries ((gs'.flatMap FileGroup.elems).map FileElem.elem) ≤ cfg.maxCount) {sep : Bytes} (hs : One sep) :
    ReadsM (loadSection cfg (36 :: b! "Elements") spec)
      (decU64 (UInt64.ofNat (gs'.flatMap FileGroup.elems).length) ++ sep ++ gs'.flatMap FileGroup.bytes)
      { spec with
        elements := { rawElements ((gs'.flatMap FileGroup.elems).map FileElem.elem) with
          minElementTag := (binaryRange (gs'.flatMap FileGroup.elems)).1
          maxElementTag := (binaryRange (gs'.flatMap FileGroup.elems)).2 }
        entities := entitiesFrom (physOf (gs'.flatMap FileGroup.elems)) } := by
  rw [loadSection_elements]
  intro w rest hw hr
  refine Eq.trans (Rd.bind_ok (s' := gs rest) (a := ({ rawElements ((gs'.flatMap FileGroup.elems).map FileElem.elem) with minElementTag := (binaryRange (gs'.flatMap FileGroup.elems)).1, maxElementTag := (binaryRange (gs'.flatMap FileGroup.elems)).2 }, entitiesFrom (physOf (gs'.flatMap FileGroup.elems)))) ?_) rfl
  unfold loadElements
  rw [h0, h0', hv]
  simp only [ht, if_false]
  exact loadElementsBinary22_reads cfg gs' hg hfit _ rfl sep hs w rest hw hr

/-! ## Whole files -/

/-- Loading a whole file after leading white space. -/
theorem Parses.load_lead {cfg : Cfg} {spec : MshSpec} {lead b : Bytes} (h : Parses cfg {} b spec) (hl : Ws lead) :
    loadMsh cfg (lead ++ b) = loadPostProcess cfg spec := by
  refine Parses.load (b := lead ++ b) ?_
  intro w rest hw
  obtain ⟨w', hw', e⟩ := h (w ++ lead) rest (fun c hc => by
    rcases List.mem_append.mp hc with h | h
    · exact hw c h
    · exact hl c h)
  exact ⟨w', hw', by rw [← e]; simp⟩

theorem parsesT_header22 (cfg : Cfg) : ParsesT cfg {} [b! "$MeshFormat", b! "2.2", b! "0", b! "8", b! "$EndMeshFormat"]
    { meshFormat := ⟨b! "2.2", 0, 8⟩ } := by
  refine ParsesT.section (name := b! "MeshFormat") (ts := [b! "2.2", b! "0", b! "8"]) (by decide) ?_
  rw [loadSection_meshFormat]
  have := loadMeshFormat_ascii (({} : MshSpec).meshFormat) ⟨b! "2.2", 0, 8⟩ (Or.inl rfl) rfl (fun h => absurd h (by decide))
  have e : ([b! "2.2", decI32 0, decI32 8] : List Bytes) = [b! "2.2", b! "0", b! "8"] := by decide
  rw [← e]
  exact ReadsT.map this rfl

theorem parses_header22 (cfg : Cfg) : Parses cfg {} (b! "$MeshFormat\n2.2 1 8\n" ++ encI32 1 ++ b! "\n$EndMeshFormat\n")
    { meshFormat := ⟨b! "2.2", 1, 8⟩ } := by
  have h := loadMeshFormat_binary (({} : MshSpec).meshFormat) ⟨b! "2.2", 1, 8⟩ (Or.inl rfl) rfl (fun h => absurd h (by decide))
  have h2 : Rds (loadSection cfg (36 :: b! "MeshFormat") {}) ([10] ++ (b! "2.2 1 8\n" ++ encI32 1) ++ [10]) { meshFormat := ⟨b! "2.2", 1, 8⟩ } := by
    rw [loadSection_meshFormat]
    refine Rds.map (a := ⟨b! "2.2", 1, 8⟩) ?_ rfl
    intro rest hr
    refine ⟨[10], one_nl.sep.1, ?_⟩
    have := h [10] ([10] ++ rest) one_nl.sep.1 (by simp)
    rw [List.append_assoc]
    exact this
  exact Parses.cast (Parses.section (name := b! "MeshFormat") (tail := [10]) (by decide) ⟨10, _, rfl, by decide⟩ one_nl.sep h2)
    (by simp [endTag]) rfl

/-- What a version 2.2 file with these nodes, elements and entities stands for. -/
def spec22 (ft : Int32) (ns : List MeshNode) (es : List MeshElem) (ents : Nat → List (Int32 × List Int32)) : MshSpec where
  meshFormat := ⟨b! "2.2", ft, 8⟩
  nodes := nodesOf ns es
  elements := elementsOf es
  entities := entitiesFrom ents

theorem load22_ascii (cfg : Cfg) (P : Fmt) (rd : Double → Double) (ns : List MeshNode) (fs : List FileElem)
    (hd : ∀ n ∈ ns, DTok P rd n.x ∧ DTok P rd n.y ∧ DTok P rd n.z)
    (ho : ∀ f ∈ fs, f.Ok) (hs : ∀ f ∈ fs, f.Small cfg) (hr : NodesInRange ns (fs.map FileElem.elem))
    (hf : Fits22 cfg ns (fs.map FileElem.elem)) {lead : Bytes} (hl : Ws lead) (ps : List (Bytes × Bytes))
    (hps : ps.map Prod.fst = file22Words P ns fs) (hsep : ∀ q ∈ ps, Sep q.2) :
    loadMsh cfg (lead ++ flat ps) =
      .ok (spec22 0 (ns.map (MeshNode.convert rd)) (fs.map FileElem.elem) (physOf fs)) := by
  have h2 := hf.two
  have hN := readsT_nodes22 cfg { meshFormat := ⟨b! "2.2", 0, 8⟩ } rfl rfl rfl P rd ns hd hf.coords (by omega)
  have hE := readsT_elements22 cfg { meshFormat := ⟨b! "2.2", 0, 8⟩, nodes := rawNodes (ns.map (MeshNode.convert rd)) } rfl rfl rfl rfl
    fs ho hs (by rw [elemEntries_eq]; exact hf.entries)
  have hp := ((parsesT_header22 cfg).append (ParsesT.section (name := b! "Nodes") (by decide) hN)).append
    (ParsesT.section (name := b! "Elements") (by decide) hE)
  rw [(hp ps (hps.trans (by simp [file22Words, nodesWords, elementsWords, endTag])) hsep).load_lead hl]
  have tags : ∀ n : MeshNode, (n.convert rd).tag = n.tag := fun _ => rfl
  rw [loadPostProcess22 cfg _ rfl (ns.map (MeshNode.convert rd)) (fs.map FileElem.elem) (Or.inl rfl) ⟨rfl, rfl⟩ (typed_file ho) ?_ ?_]
  · congr 1
    rw [if_neg]
    · rfl
    · rintro ⟨_, h⟩
      have := congrArg Nodes.entityBlocks h
      simp [rawNodes] at this
  · intro e he t ht
    obtain ⟨⟨a, ha, h1⟩, ⟨b, hb, h2⟩⟩ := hr e he t ht
    exact ⟨⟨_, List.mem_map.mpr ⟨a, ha, rfl⟩, h1⟩, ⟨_, List.mem_map.mpr ⟨b, hb, rfl⟩, h2⟩⟩
  · refine ⟨h2, by simpa using hf.coords, ?_, hf.entries⟩
    intro a ha b hb
    obtain ⟨a, ha', rfl⟩ := List.mem_map.mp ha
    obtain ⟨b, hb', rfl⟩ := List.mem_map.mp hb
    exact hf.span a ha' b hb'

theorem load22_binary (cfg : Cfg) (ns : List MeshNode) (gs' : List FileGroup) (hg : ∀ g ∈ gs', g.Ok cfg)
    (hr : NodesInRange (ns.map MeshNode.wrap) ((gs'.flatMap FileGroup.elems).map FileElem.elem))
    (hf : Fits22 cfg (ns.map MeshNode.wrap) ((gs'.flatMap FileGroup.elems).map FileElem.elem))
    {lead w : Bytes} (hl : Ws lead) (hw : Ws w) :
    loadMsh cfg (lead ++ file22Bytes w ns gs') =
      .ok { spec22 1 (ns.map MeshNode.wrap) ((gs'.flatMap FileGroup.elems).map FileElem.elem) (physOf (gs'.flatMap FileGroup.elems)) with
        elements := { elementsOf ((gs'.flatMap FileGroup.elems).map FileElem.elem) with
          minElementTag := (binaryRange (gs'.flatMap FileGroup.elems)).1
          maxElementTag := (binaryRange (gs'.flatMap FileGroup.elems)).2 } } := by
  have h2 := hf.two
  have hc := hf.coords
  rw [List.length_map] at hc
  have hN := readsM_nodes22 cfg { meshFormat := ⟨b! "2.2", 1, 8⟩ } rfl (by decide) rfl ns hc (by omega) one_nl
  have hE := readsM_elements22 cfg { meshFormat := ⟨b! "2.2", 1, 8⟩, nodes := rawNodes (ns.map MeshNode.wrap) } rfl (show (1 : Int32) ≠ 0 by decide) rfl rfl
    gs' hg (by rw [elemEntries_eq]; exact hf.entries) one_nl
  have lift : ∀ {name bs : Bytes} {s s' : MshSpec}, (∀ c ∈ name, isSpace c = false) →
      ReadsM (loadSection cfg (36 :: name) s) bs s' →
      Parses cfg s ((36 :: name) ++ ([10] ++ bs ++ w) ++ endTag name ++ [10]) s' := by
    intro name bs s s' hn h
    refine Parses.section hn ⟨10, _, rfl, by decide⟩ one_nl.sep ?_
    intro rest hrest
    refine ⟨w, hw, ?_⟩
    have := h [10] (w ++ rest) one_nl.sep.1 (by simp [hrest])
    rw [← this]; simp
  have hp := ((parses_header22 cfg).append (lift (name := b! "Nodes") (by decide) hN)).append (lift (name := b! "Elements") (by decide) hE)
  rw [(hp.cast (b := file22Bytes w ns gs') (by simp [file22Bytes, nodesBytes, elementsBytes, endTag]) rfl).load_lead hl]
  have ho : ∀ f ∈ gs'.flatMap FileGroup.elems, f.Ok := by
    intro f hf
    obtain ⟨g, hg', hf⟩ := List.mem_flatMap.mp hf
    exact (hg g hg').elems f hf
  rw [loadPostProcess22 cfg _ rfl (ns.map MeshNode.wrap) ((gs'.flatMap FileGroup.elems).map FileElem.elem) (Or.inl rfl) ⟨rfl, rfl⟩
    (typed_file ho) hr hf]
  congr 1
  rw [if_neg]
  · rfl
  · rintro ⟨_, h⟩
    have := congrArg Nodes.entityBlocks h
    simp [rawNodes] at this

end MshIO
