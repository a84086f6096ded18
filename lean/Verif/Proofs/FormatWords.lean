import Verif.Spec.Format
import Verif.Proofs.Quoted
import Verif.Proofs.RoundTrip22
import Mathlib.Data.Nat.Digits.Lemmas

/-!
# The tokens of saved text files are those of the layout specification
-/

namespace MshIO

/-! ## The words of the lines -/

/-- `$X`, the words of the section, `$EndX`. -/
def sectionWords (name : Bytes) (body : List Bytes) : List Bytes := (b! "$" ++ name) :: (body ++ [b! "$End" ++ name])

/-- Numbers of points, curves, surfaces, volumes; then the points, curves, surfaces, volumes. -/
def entitiesWords (P : Fmt) (e : Entities) : List Bytes :=
  [natText e.points.length, natText e.curves.length, natText e.surfaces.length, natText e.volumes.length] ++
    e.points.flatMap (pointWords P) ++ e.curves.flatMap (boxWords P) ++ e.surfaces.flatMap (boxWords P) ++
    e.volumes.flatMap (boxWords P)

/-- A block of nodes: dimension and tag of its entity, whether there are parametric coordinates, number of nodes;
then all tags; then the coordinates of all nodes. -/
def nodeBlockWords (P : Fmt) (b : NodeBlock) : List Bytes :=
  [intText b.entityDim.toInt, intText b.entityTag.toInt, intText b.parametric.toInt, natText b.tags.length] ++
    b.tags.map (fun t => natText t.toNat) ++ b.data.map (fmtDouble P)

/-- Number of blocks, number of nodes, least tag, greatest tag; then the blocks. -/
def nodes41Words (P : Fmt) (n : Nodes) : List Bytes :=
  [natText n.entityBlocks.length, natText n.numNodes.toNat, natText n.minNodeTag.toNat, natText n.maxNodeTag.toNat] ++
    n.entityBlocks.flatMap (nodeBlockWords P)

/-- A block of elements: dimension and tag of its entity, element type, number of elements; then tag and nodes of
every element. -/
def elementBlockWords (b : ElementBlock) : List Bytes :=
  [intText b.entityDim.toInt, intText b.entityTag.toInt, intText b.elementType.toInt, natText b.numElementsInBlock.toNat] ++
    b.data.map fun t => natText t.toNat

/-- Number of blocks, number of elements, least tag, greatest tag; then the blocks. -/
def elements41Words (n : Elements) : List Bytes :=
  [natText n.entityBlocks.length, natText n.numElements.toNat, natText n.minElementTag.toNat, natText n.maxElementTag.toNat] ++
    n.entityBlocks.flatMap elementBlockWords

/-- A data section. -/
def dataWords (P : Fmt) (name : Bytes) (elementNode : Bool) (d : Data) : List Bytes :=
  sectionWords name (dataHeadWords P d.header ++ d.entries.flatMap (dataEntryWords P elementNode))

/-- The data sections and the sections of the extension: the same in both versions. -/
def tailWords (ext : Bool) (P : Fmt) (s : MshSpec) : List Bytes :=
  s.nodeData.flatMap (dataWords P (b! "NodeData") false) ++
  s.elementData.flatMap (dataWords P (b! "ElementData") false) ++
  s.elementNodeData.flatMap (dataWords P (b! "ElementNodeData") true) ++
  onlyIf (ext = true) (sectionWords (b! "NanoSplineFormat") [s.nanosplineVersion] ++
    onlyIf (s.curves ≠ []) (sectionWords (b! "Curves")
      (natText s.curves.length :: s.curves.flatMap fun c => curveHeadWords c ++ c.data.map (fmtDouble P))) ++
    onlyIf (s.patches ≠ []) (sectionWords (b! "Patches")
      (natText s.patches.length :: s.patches.flatMap fun c => patchHeadWords c ++ c.data.map (fmtDouble P))))

/-- The physical groups: the same in both versions. -/
def namesWords (s : MshSpec) : List Bytes :=
  onlyIf (s.physicalGroups ≠ []) (sectionWords (b! "PhysicalNames")
    (natText s.physicalGroups.length :: s.physicalGroups.flatMap groupWords))

/-- The words of a version 4.1 text file. -/
def words41 (ext : Bool) (P : Fmt) (s : MshSpec) : List Bytes :=
  sectionWords (b! "MeshFormat") [b! "4.1", b! "0", b! "8"] ++ namesWords s ++
  onlyIf s.entities.Any (sectionWords (b! "Entities") (entitiesWords P s.entities)) ++
  onlyIf (s.nodes.numNodes ≠ 0) (sectionWords (b! "Nodes") (nodes41Words P s.nodes)) ++
  onlyIf (s.elements.numElements ≠ 0) (sectionWords (b! "Elements") (elements41Words s.elements)) ++
  tailWords ext P s

/-- The words of a version 2.2 text file. -/
def words22 (ext : Bool) (P : Fmt) (s : MshSpec) : List Bytes :=
  sectionWords (b! "MeshFormat") [b! "2.2", b! "0", intText s.meshFormat.dataSize.toInt] ++ namesWords s ++
  onlyIf (s.nodes.numNodes ≠ 0) (sectionWords (b! "Nodes")
    (natText s.nodes.list.length :: s.nodes.list.flatMap (node22Words P))) ++
  onlyIf (s.elements.numElements ≠ 0) (sectionWords (b! "Elements")
    (natText s.elements.list.length :: s.elements.list.flatMap element22Words)) ++
  tailWords ext P s

/-! ## Numbers -/

theorem decNat_digit {n : Nat} (h : n < 10) : UInt8.ofNat (Nat.digitChar n).toNat = UInt8.ofNat (48 + n) := by
  interval_cases n <;> rfl

theorem natText_aux (f : Nat) : ∀ n, n < f → (Nat.toDigits 10 n).map (fun c => UInt8.ofNat c.toNat) = decAux f n := by
  induction f with
  | zero => intro n h; omega
  | succ f ih =>
    intro n h
    unfold decAux
    split
    · rename_i h10
      rw [Nat.toDigits_of_lt_base h10, List.map_singleton, decNat_digit h10]
    · rename_i h10
      rw [Nat.toDigits_of_base_le (by decide) (by omega), List.map_append, ih (n / 10) (by omega), List.map_singleton,
        decNat_digit (by omega)]

theorem natText_eq (n : Nat) : natText n = decNat n := natText_aux _ n (by omega)

theorem decU64_eq (x : UInt64) : decU64 x = natText x.toNat := (natText_eq _).symm

theorem decI32_eq (x : Int32) : decI32 x = intText x.toInt := by
  unfold decI32 intText
  simp only [natText_eq]
  rfl

theorem decSize_eq {α : Type} {v : List α} (h : v.length < 2 ^ 60) : decU64 (sizeU v) = natText v.length := by
  rw [decU64_eq, sizeU_toNat (by omega)]

theorem decI32_natText {x : UInt64} (h : x.toNat < 2 ^ 31) : decI32 (intOfSize x) = natText x.toNat := by
  rw [decI32_eq, intOfSize_toInt h, intText, if_neg (by omega)]
  rfl

/-! ## Sections -/

theorem sectionWords_eq (name : Bytes) (body : List Bytes) : (36 :: name) :: (body ++ [endTag name]) = sectionWords name body := rfl

theorem onlyIf_len {α β : Type} (v : List α) (x : List β) :
    (if decide (v.length > 0) = true then x else []) = onlyIf (v ≠ []) x := by
  cases v <;> simp [onlyIf]

theorem onlyIf_pos {β : Type} (n : UInt64) (x : List β) :
    (if decide (n > 0) = true then x else []) = onlyIf (n ≠ 0) x := by
  unfold onlyIf
  by_cases h : n = 0
  · subst h; rfl
  · rw [if_pos h, if_pos]
    by_contra h'
    exact h (u64_zero (by simpa using h'))

theorem onlyIf_any {β : Type} (e : Entities) (x : List β) :
    (if (!e.empty) = true then x else []) = onlyIf e.Any x := by
  obtain ⟨a, b, c, d⟩ := e
  unfold onlyIf Entities.Any Entities.empty
  cases a <;> cases b <;> cases c <;> cases d <;> simp

theorem onlyIf_flatMap {α β : Type} (v : List α) (f : α → List β) :
    (if decide (v.length > 0) = true then v.flatMap f else []) = v.flatMap f := by
  cases v <;> simp

theorem groupToks_eq : groupToks = groupWords := by
  funext g; simp [groupToks, groupWords, decI32_eq, quoted_eq]

theorem intListToks_eq {v : List Int32} (h : v.length < 2 ^ 60) : intListToks v = tagWords v := by
  unfold intListToks tagWords
  rw [decSize_eq h]
  congr 1
  exact List.map_congr_left fun t _ => decI32_eq t

theorem pointToks_eq {P : Fmt} {p : PointEntity} (h : p.physicalGroupTags.length < 2 ^ 60) : pointToks P p = pointWords P p := by
  simp [pointToks, pointWords, intListToks_eq h, decI32_eq]

theorem boxToks_eq {P : Fmt} {p : BoxEntity} (h : p.physicalGroupTags.length < 2 ^ 60) (h' : p.boundaryTags.length < 2 ^ 60) :
    boxToks P p = boxWords P p := by
  simp [boxToks, boxWords, intListToks_eq h, intListToks_eq h', decI32_eq]

theorem flatMap_congr' {α β : Type} {v : List α} {f g : α → List β} (h : ∀ a ∈ v, f a = g a) : v.flatMap f = v.flatMap g := by
  rw [List.flatMap_def, List.flatMap_def, List.map_congr_left h]

theorem entitiesToks_eq (P : Fmt) (e : Entities) (h : ∀ n ∈ e.sizes, n < 2 ^ 60) : entitiesToks P e = entitiesWords P e := by
  have hp : ∀ p ∈ e.points, pointToks P p = pointWords P p := fun p hp => pointToks_eq (h _ (by
    unfold Entities.sizes
    exact List.mem_append_left _ (List.mem_append_right _ (List.mem_map.mpr ⟨p, hp, rfl⟩))))
  have hb : ∀ p ∈ e.curves ++ e.surfaces ++ e.volumes, boxToks P p = boxWords P p := fun p hp => by
    have : ∀ n ∈ [p.physicalGroupTags.length, p.boundaryTags.length], n < 2 ^ 60 := fun n hn => h n (by
      unfold Entities.sizes
      exact List.mem_append_right _ (List.mem_flatMap.mpr ⟨p, hp, hn⟩))
    exact boxToks_eq (this _ (by simp)) (this _ (by simp))
  have hl : ∀ n ∈ [e.points.length, e.curves.length, e.surfaces.length, e.volumes.length], n < 2 ^ 60 := fun n hn => h n (by
    unfold Entities.sizes
    exact List.mem_append_left _ (List.mem_append_left _ hn))
  unfold entitiesToks entitiesWords
  rw [decSize_eq (hl _ (by simp)), decSize_eq (hl _ (by simp)), decSize_eq (hl _ (by simp)), decSize_eq (hl _ (by simp)),
    flatMap_congr' hp, flatMap_congr' (fun p h => hb p (by simp [h])),
    flatMap_congr' (v := e.surfaces) (fun p h => hb p (by simp [h])),
    flatMap_congr' (v := e.volumes) (fun p h => hb p (by simp [h]))]
  simp

theorem nodeBlockToks_eq (P : Fmt) {b : NodeBlock} (h : b.tags.length = b.numNodesInBlock.toNat) :
    nodeBlockToks P b = nodeBlockWords P b := by
  simp [nodeBlockToks, nodeBlockWords, decI32_eq, decU64_eq, h, Function.comp_def]

theorem nodesToks_eq (P : Fmt) {n : Nodes} (h : n.entityBlocks.length = n.numEntityBlocks.toNat) (hb : ∀ b ∈ n.entityBlocks, b.Ok) :
    nodesToks P n = nodes41Words P n := by
  unfold nodesToks nodes41Words
  rw [flatMap_congr' fun b h => nodeBlockToks_eq P (hb b h).tags]
  simp [decU64_eq, h]

theorem elementBlockToks_eq : elementBlockToks = elementBlockWords := by
  funext b
  simp [elementBlockToks, elementBlockWords, decI32_eq, decU64_eq, Function.comp_def]

theorem elementsToks_eq {n : Elements} (h : n.entityBlocks.length = n.numEntityBlocks.toNat) : elementsToks n = elements41Words n := by
  unfold elementsToks elements41Words
  rw [elementBlockToks_eq]
  simp [decU64_eq, h]

theorem headerToks_eq (P : Fmt) {h : DataHeader} (h1 : h.stringTags.length < 2 ^ 60) (h2 : h.realTags.length < 2 ^ 60)
    (h3 : h.intTags.length < 2 ^ 60) : headerToks P h = dataHeadWords P h := by
  have e : h.intTags.map decI32 = h.intTags.map fun t => intText t.toInt := List.map_congr_left fun t _ => decI32_eq t
  simp only [headerToks, dataHeadWords, quoted_eq', decSize_eq h1, decSize_eq h2, decSize_eq h3, e]
  simp

theorem entryToks_eq (P : Fmt) (isEN : Bool) : entryToks P isEN = dataEntryWords P isEN := by
  funext e
  simp [entryToks, dataEntryWords, onlyIf, decU64_eq, decI32_eq]

theorem dataSecToks_eq (P : Fmt) (name : Bytes) (isEN : Bool) {cfg : Cfg} {d : Data} (h : d.Fits cfg) :
    dataSecToks P name isEN d = dataWords P name isEN d := by
  obtain ⟨c1, c2, c3, -, -⟩ := h.get
  have := cfg.maxCount_lt
  unfold dataSecToks dataWords dataToks
  rw [headerToks_eq P (by omega) (by omega) (by omega), entryToks_eq, sectionWords_eq]

theorem curveToks_eq : curveToks = curveHeadWords := by
  funext c; simp [curveToks, curveHeadWords, decU64_eq]

theorem patchToks_eq : patchToks = patchHeadWords := by
  funext c; simp [patchToks, patchHeadWords, decU64_eq]

theorem tailToks_eq (cfg : Cfg) (P : Fmt) (ext : Bool) {s : MshSpec} (hf : s.Fits cfg) : tailToks ext P s = tailWords ext P s := by
  have hlt := cfg.maxCount_lt
  have h1 : s.curves.length < 2 ^ 60 := by have := hf.len (n := s.curves.length) (by simp); omega
  have h2 : s.patches.length < 2 ^ 60 := by have := hf.len (n := s.patches.length) (by simp); omega
  unfold tailToks tailWords extToks
  simp only [onlyIf_flatMap]
  simp only [onlyIf_len, sectionWords_eq, curveToks_eq, patchToks_eq, decSize_eq h1, decSize_eq h2]
  rw [flatMap_congr' fun d h => dataSecToks_eq P _ _ (hf.data (by simp [h])),
    flatMap_congr' (v := s.elementData) fun d h => dataSecToks_eq P _ _ (hf.data (by simp [h])),
    flatMap_congr' (v := s.elementNodeData) fun d h => dataSecToks_eq P _ _ (hf.data (by simp [h]))]
  simp [onlyIf, sectionWords]

theorem nameToks_eq (cfg : Cfg) {s : MshSpec} (hf : s.Fits cfg) : nameToks s = namesWords s := by
  have := hf.groups
  unfold nameToks namesWords
  rw [onlyIf_len, groupToks_eq, decSize_eq (by omega)]
  rfl

theorem toks41_eq (cfg : Cfg) (P : Fmt) (ext : Bool) {s : MshSpec} (hfmt : s.meshFormat = ⟨b! "4.1", 0, 8⟩) (hs : s.Ok) (hf : s.Fits cfg) :
    headToks41 P s (tailToks ext P s) = words41 ext P s := by
  have hlt := cfg.maxCount_lt
  have ho : openToks s = sectionWords (b! "MeshFormat") [b! "4.1", b! "0", b! "8"] := by
    unfold openToks; rw [hfmt]; rfl
  unfold headToks41 restToks41 words41
  rw [ho, nameToks_eq cfg hf, tailToks_eq cfg P ext hf, onlyIf_any, onlyIf_pos, onlyIf_pos,
    entitiesToks_eq P _ (fun n hn => by have := hf.entities n hn; omega), nodesToks_eq P hs.nodeBlocks hs.node, elementsToks_eq hs.elementBlocks]
  simp only [sectionWords_eq, List.append_assoc]

/-! ## Version 2.2 -/

theorem nodeWords_eq (P : Fmt) : nodeWords P = node22Words P := by
  funext n; simp [nodeWords, node22Words, decU64_eq]

theorem elemWords_file {e : MeshElem} (ht : e.tag.toNat < 2 ^ 31) (hn : ∀ t ∈ e.nodes, t.toNat < 2 ^ 31) :
    elemWords e.file = element22Words e := by
  unfold elemWords element22Words MeshElem.file
  have : (e.nodes.map intOfSize).map decI32 = e.nodes.map fun t => natText t.toNat := by
    rw [List.map_map]
    exact List.map_congr_left fun t h => decI32_natText (hn t h)
  simp only [decI32_natText ht, this]
  simp [decI32_eq]
  rfl

theorem toks22_eq (cfg : Cfg) (P : Fmt) (ext : Bool) {s : MshSpec} (hv : s.meshFormat.version = b! "2.2") (ht : s.meshFormat.fileType = 0)
    (hs : s.Ok) (hf : s.Fits cfg) (hc : s.Counted) (h31 : ∀ b ∈ s.elements.entityBlocks, ∀ t ∈ b.data, t.toNat < 2 ^ 31) :
    headToks22 P s (tailToks ext P s) = words22 ext P s := by
  have ho : openToks s = sectionWords (b! "MeshFormat") [b! "2.2", b! "0", intText s.meshFormat.dataSize.toInt] := by
    unfold openToks; rw [hv, ht, decI32_eq s.meshFormat.dataSize]; rfl
  have hn : s.nodes.list.length < 2 ^ 64 := by rw [← hc.nodes_list hs]; exact s.nodes.numNodes.toNat_lt
  have he : s.elements.list.length < 2 ^ 64 := by rw [← hc.elements_list]; exact s.elements.numElements.toNat_lt
  have hw : (s.elements.list.map MeshElem.file).flatMap elemWords = s.elements.list.flatMap element22Words := by
    rw [List.flatMap_map]
    refine flatMap_congr' fun e hm => ?_
    obtain ⟨b, hb, hm⟩ := List.mem_flatMap.mp hm
    obtain ⟨-, -, -, h1, h2, -⟩ := mem_elem_nodes (hs.element b hb) hm
    exact elemWords_file (h31 b hb _ h1) fun t h => h31 b hb t (h2 t h)
  unfold headToks22 words22
  rw [ho, nameToks_eq cfg hf, tailToks_eq cfg P ext hf, onlyIf_pos, onlyIf_pos, hw, nodeWords_eq, List.length_map,
    decU64_eq, ofNat_toNat_lt hn, decU64_eq, ofNat_toNat_lt he, ite_self]
  simp only [sectionWords_eq, List.append_assoc, List.nil_append]

end MshIO
