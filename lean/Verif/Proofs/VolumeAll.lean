import Verif.Proofs.Volume22
import Verif.Proofs.PostAll
import Verif.Proofs.Safe22

/-! # Whole files: what is held is paid for -/

namespace MshIO

/-! ## The main loop -/

theorem tame_rem {α : Type} {m : Rd α} (h : Tame m) {s s' : Stream} {a : α} (e : m s = .ok (a, s')) : s'.rem.length ≤ s.rem.length :=
  ((h.all s).2 a s' e).suffix.length_le

theorem forwardTo_rem {flag : Bytes} : ∀ (k : Nat) (buf : Bytes) (s s' : Stream), forwardToFuel flag k buf s = .ok ((), s') → s'.rem.length ≤ s.rem.length := by
  intro k
  induction k with
  | zero => intro _ _ _ e; cases e
  | succ k ih =>
    intro buf s s' e
    rw [forwardToFuel_succ] at e
    split at e
    · cases e; exact Nat.le_refl _
    · obtain ⟨b, s1, e1, e2⟩ := Rd.bind_eq_ok e
      exact Nat.le_trans (ih b s1 s' e2) (tame_rem (tame_inString _) e1)

theorem format_keeps (cfg : Cfg) (s : MshSpec) {name : Bytes} (hn : name = b! "MeshFormat" ∨ name = b! "NanoSplineFormat") {st : Stream} {x : MshSpec × Stream}
    (e : loadSection cfg (36 :: name) s st = .ok x) : wSpec x.1 + x.2.rem.length ≤ wSpec s + st.rem.length := by
  have key : ∀ {α : Type} (m : Rd α) (g : α → MshSpec), Tame m → (∀ a, wSpec (g a) = wSpec s) → (m >>= fun a => Pure.pure (g a)) st = .ok x →
      wSpec x.1 + x.2.rem.length ≤ wSpec s + st.rem.length := by
    intro α m g hm hg e
    obtain ⟨a, s1, e1, e2⟩ := Rd.bind_eq_ok e
    cases e2
    have := tame_rem hm e1
    show wSpec (g a) + s1.rem.length ≤ _
    rw [hg]
    omega
  rcases hn with rfl | rfl
  · exact key _ (fun f => { s with meshFormat := f }) (tame_loadMeshFormat _) (fun _ => rfl) e
  · exact key _ (fun f => { s with nanosplineVersion := f }) (tame_inString _) (fun _ => rfl) e

theorem arrives_weight {cfg : Cfg} {file : Bytes} (h : ∀ name f, Overrun cfg file name f → name = b! "MeshFormat" ∨ name = b! "NanoSplineFormat") {x : MshSpec × Stream}
    (hx : Arrives cfg (Stream.ofBytes file) x) : wSpec x.1 + x.2.rem.length ≤ file.length := by
  unfold Arrives at hx
  induction hx with
  | refl => exact Nat.le_of_eq (Nat.zero_add _)
  | @tail x y hxy hy ih =>
    obtain ⟨he, hr⟩ := hy
    obtain ⟨spec, st⟩ := x
    unfold loadRound at hr
    obtain ⟨buf, st', e1, e2⟩ := Rd.bind_eq_ok hr
    have h1 : st'.rem.length ≤ st.rem.length := tame_rem (tame_inString _) e1
    simp only at ih e1
    split at e2
    · rename_i name
      obtain ⟨spec', st2, e3, e4⟩ := Rd.bind_eq_ok e2
      obtain ⟨_, st3, e5, e6⟩ := Rd.bind_eq_ok e4
      cases e6
      have h3 := tame_rem (tame_loadSection cfg _ _) e3
      have h4 : st3.rem.length ≤ st2.rem.length := forwardTo_rem _ _ _ _ e5
      suffices hs : wSpec spec' + st2.rem.length ≤ wSpec spec + st'.rem.length by
        show wSpec spec' + st3.rem.length ≤ _
        omega
      cases hf : st2.fail with
      | false => exact (pays_section cfg (36 :: name) spec).all st' spec' st2 e3 hf
      | true => exact format_keeps cfg spec (x := (spec', st2)) (h name spec.meshFormat ⟨spec, st, st', (spec', st2), hxy, he, rfl, e1, e3, hf⟩) e3
    · cases e2
      show wSpec spec + st'.rem.length ≤ _
      omega

/-! ## Post-processing -/

theorem foldO_weight {α σ : Type} {f : α → σ → Outcome σ} {W : σ → Nat} {g : α → Nat} (l : List α) (hf : ∀ a ∈ l, ∀ st, OPost (f a st) fun st' => W st' ≤ W st + g a) :
    ∀ st, OPost (foldO f l st) fun st' => W st' ≤ W st + (l.map g).sum := by
  induction l with
  | nil => intro st; exact OPost.ok (by simp)
  | cons a l ih =>
    intro st
    unfold foldO
    refine OPost.bind (hf a (List.mem_cons_self ..) st) fun st1 h1 => (ih (fun b hb => hf b (List.mem_cons_of_mem _ hb)) st1).mono fun st2 h2 => ?_
    simp only [List.map_cons, List.sum_cons]
    omega

theorem modifyBack_weight {α : Type} {w : α → Nat} {v : List α} {f : α → Outcome α} {k : Nat} (h : ∀ a, OPost (f a) fun b => w b ≤ w a + k) :
    OPost (vecModifyBack v f) fun l => (l.map w).sum ≤ (v.map w).sum + k := by
  unfold vecModifyBack
  cases hl : v.getLast? with
  | none => exact OPost.ub
  | some a =>
    refine OPost.bind (h a) fun b hb => OPost.pure ?_
    obtain ⟨l, rfl⟩ := List.getLast?_eq_some_iff.mp hl
    rw [List.dropLast_concat]
    simp only [List.map_append, List.map_cons, List.map_nil, List.sum_append, List.sum_cons, List.sum_nil]
    omega

theorem regroupElement_weight (cfg : Cfg) (b : ElementBlock) (st : RegroupE) :
    OPost (regroupElement cfg b st) fun st' => (st'.blocks.map wElementBlock).sum ≤ (st.blocks.map wElementBlock).sum + wElementBlock b := by
  unfold regroupElement
  suffices hs : ∀ (st1 : RegroupE), (st1.blocks.map wElementBlock).sum ≤ (st.blocks.map wElementBlock).sum + 1 → OPost (vecModifyBack st1.blocks (fun c =>
      if c.data.length + b.data.length ≤ cfg.maxCount then
        .ok { c with numElementsInBlock := c.numElementsInBlock + b.numElementsInBlock, data := c.data ++ b.data }
      else .throw .alloc) >>= fun blocks => (pure { st1 with blocks } : Outcome RegroupE)) fun st' => (st'.blocks.map wElementBlock).sum ≤ (st.blocks.map wElementBlock).sum + wElementBlock b by
    dsimp only
    split
    · refine OPost.bind (OPost.vecPush cfg _ _) fun bs hbs => hs _ ?_
      rw [hbs.1]
      simp [wElementBlock]
    · exact hs st (Nat.le_add_right _ _)
  intro st1 h1
  refine OPost.bind (modifyBack_weight (w := wElementBlock) (k := b.data.length) fun c => ?_) fun bs hbs => OPost.pure ?_
  · refine OPost.ite (fun _ => OPost.ok ?_) fun _ => OPost.throw
    simp only [wElementBlock, List.length_append]; omega
  · show (bs.map wElementBlock).sum ≤ _
    unfold wElementBlock at *
    omega

theorem regroupElements_weight (cfg : Cfg) (e : Elements) : OPost (regroupElements cfg e) fun e' => wElements e' ≤ wElements e := by
  unfold regroupElements
  refine OPost.skip fun _ => OPost.bind (foldO_weight (W := fun st : RegroupE => (st.blocks.map wElementBlock).sum) (g := wElementBlock) _ (fun b _ st => regroupElement_weight cfg b st) {}) fun st h => OPost.pure ?_
  simpa [wElements] using h

/-- One node: at most a new block, its tag and its three coordinates; there were three coordinates at its place. -/
theorem regroupNode_weight (cfg : Cfg) (m : UInt64) (ds ts : List UInt64) (b : NodeBlock) (i : Nat) (hi : 3 * i + 2 < 2 ^ 64) (st : Regroup) :
    OPost (regroupNode cfg m ds ts b i st) fun st' => (st'.blocks.map wNodeBlock).sum ≤ (st.blocks.map wNodeBlock).sum + 5 ∧ 3 * (i + 1) ≤ b.data.length := by
  unfold regroupNode
  refine OPost.skip fun t => OPost.skip fun dim => OPost.skip fun tag => ?_
  suffices hs : ∀ st1 : Regroup, (st1.blocks.map wNodeBlock).sum ≤ (st.blocks.map wNodeBlock).sum + 1 → OPost (if cfg.asserts && st1.blocks.isEmpty then .abort
      else do
        let blocks ← vecModifyBack st1.blocks (fun c => do
          let ts ← vecPush cfg c.tags t
          let d ← vecPush cfg c.data (← vecGet b.data (UInt64.ofNat i * 3))
          let d ← vecPush cfg d (← vecGet b.data (UInt64.ofNat i * 3 + 1))
          let d ← vecPush cfg d (← vecGet b.data (UInt64.ofNat i * 3 + 2))
          return { c with tags := ts, data := d })
        return { st1 with blocks }) fun st' : Regroup => (st'.blocks.map wNodeBlock).sum ≤ (st.blocks.map wNodeBlock).sum + 5 ∧ 3 * (i + 1) ≤ b.data.length by
    dsimp only
    split
    · refine OPost.skip fun _ => OPost.skip fun _ => OPost.bind (OPost.vecPush cfg _ _) fun bs hbs => hs _ ?_
      rw [hbs.1]
      simp [wNodeBlock]
    · exact hs st (Nat.le_add_right _ _)
  intro st1 h1
  have idx : (UInt64.ofNat i * 3 + 2).toNat = 3 * i + 2 := by
    rw [UInt64.toNat_add, UInt64.toNat_mul, UInt64.toNat_ofNat', show (3 : UInt64).toNat = 3 from rfl, show (2 : UInt64).toNat = 2 from rfl]
    omega
  refine OPost.ite (fun _ => OPost.abort) fun _ => OPost.bind (OPost.and (modifyBack_weight (w := wNodeBlock) (k := 4) fun c => ?_)
    (OPost.vecModifyBack (Q := fun _ => 3 * i + 2 < b.data.length) fun c _ => ?_)) fun bs hbs => OPost.pure ⟨?_, ?_⟩
  · refine OPost.bind (OPost.vecPush cfg _ _) fun ts h1 => OPost.skip fun x => OPost.bind (OPost.vecPush cfg _ _) fun d1 h2 =>
      OPost.skip fun y => OPost.bind (OPost.vecPush cfg _ _) fun d2 h3 => OPost.skip fun z => OPost.bind (OPost.vecPush cfg _ _) fun d3 h4 => OPost.pure ?_
    obtain ⟨rfl, -⟩ := h1
    obtain ⟨rfl, -⟩ := h2
    obtain ⟨rfl, -⟩ := h3
    obtain ⟨rfl, -⟩ := h4
    simp only [wNodeBlock, List.length_append, List.length_cons, List.length_nil]
    omega
  · refine OPost.skip fun _ => OPost.skip fun _ => OPost.skip fun _ => OPost.skip fun _ => OPost.skip fun _ => OPost.bind (OPost.vecGet _ _) fun _ hz => OPost.skip fun _ => OPost.pure ?_
    rw [idx] at hz
    exact hz
  · show (bs.map wNodeBlock).sum ≤ _
    have := hbs.1
    omega
  · obtain ⟨-, -, _, h, -⟩ := hbs
    omega

theorem regroupBlock_weight (cfg : Cfg) (m : UInt64) (ds ts : List UInt64) (b : NodeBlock) (n : Nat) : ∀ (i : Nat), 3 * (i + n) < 2 ^ 64 → ∀ st, 
    OPost (loopO (regroupNode cfg m ds ts b) n i st) fun st' => (st'.blocks.map wNodeBlock).sum ≤ (st.blocks.map wNodeBlock).sum + 5 * n ∧ (0 < n → 3 * (i + n) ≤ b.data.length) := by
  induction n with
  | zero => intro i _ st; exact OPost.ok ⟨by omega, by omega⟩
  | succ n ih =>
    intro i hi st
    unfold loopO
    refine OPost.bind (regroupNode_weight cfg m ds ts b i (by omega) st) fun st1 h1 => (ih (i + 1) (by omega) st1).mono fun st2 h2 => ⟨by omega, fun _ => ?_⟩
    rcases Nat.eq_zero_or_pos n with h | h
    · subst h; exact h1.2
    · have := h2.2 h; omega

theorem regroupNodes_weight (cfg : Cfg) (n : Nodes) (e : Elements) (hn : n.LoadedIn cfg) :
    OPost (regroupNodes cfg n e) fun n' => wNodes n' ≤ wNodes n + (n.entityBlocks.map (·.tags.length)).sum := by
  unfold regroupNodes
  refine OPost.skip fun dims => OPost.skip fun tags => OPost.skip fun p => ?_
  refine OPost.bind (foldO_weight (W := fun st : Regroup => (st.blocks.map wNodeBlock).sum) (g := fun b => wNodeBlock b + b.tags.length) _ (fun b hb st => ?_) {}) fun st h => OPost.pure ?_
  · have hl := hn.block b hb
    have hm := cfg.maxCount_lt
    have h1 := hl.tags
    have h2 := hl.loaded.tags
    refine (regroupBlock_weight cfg _ _ _ b b.numNodesInBlock.toNat 0 (by omega) st).mono fun st' h => ?_
    rcases Nat.eq_zero_or_pos b.numNodesInBlock.toNat with h0 | h0
    · unfold wNodeBlock at *; omega
    · have := h.2 h0
      unfold wNodeBlock at *
      omega
  · have : wNodes n + (n.entityBlocks.map (·.tags.length)).sum = (n.entityBlocks.map fun b => wNodeBlock b + b.tags.length).sum := by
      unfold wNodes
      induction n.entityBlocks with
      | nil => rfl
      | cons a l ih => simp only [List.map_cons, List.sum_cons] at ih ⊢; omega
    rw [this]
    have e : wNodes { n with entityBlocks := st.blocks.map (fun c => { c with numNodesInBlock := sizeU c.tags }), numEntityBlocks := sizeU (st.blocks.map (fun c => { c with numNodesInBlock := sizeU c.tags })) } = (st.blocks.map wNodeBlock).sum := by
      unfold wNodes
      rw [List.map_map]
      rfl
    show wNodes { n with entityBlocks := st.blocks.map (fun c => { c with numNodesInBlock := sizeU c.tags }), numEntityBlocks := sizeU (st.blocks.map (fun c => { c with numNodesInBlock := sizeU c.tags })) } ≤ _
    rw [e]
    simpa using h

/-! ## Volume and weight -/

theorem sum_le_of {α : Type} {f g : α → Nat} (l : List α) (h : ∀ a ∈ l, f a ≤ g a) : (l.map f).sum ≤ (l.map g).sum := by
  induction l with
  | nil => exact Nat.le_refl _
  | cons a l ih =>
    have := h a (List.mem_cons_self ..)
    have := ih fun b hb => h b (List.mem_cons_of_mem _ hb)
    simp only [List.map_cons, List.sum_cons]
    omega

theorem sum_split {α : Type} (f g : α → Nat) (l : List α) : (l.map fun a => f a + g a).sum = (l.map f).sum + (l.map g).sum := by
  induction l with
  | nil => rfl
  | cons a l ih => simp only [List.map_cons, List.sum_cons] at ih ⊢; omega

theorem sum_ones {α : Type} (l : List α) : (l.map fun _ => 1).sum = l.length := by
  induction l with
  | nil => rfl
  | cons a l ih => simp only [List.map_cons, List.sum_cons, List.length_cons] at ih ⊢; omega

theorem sum_flatMap {α : Type} (f : α → List Nat) (l : List α) : (l.flatMap f).sum = (l.map fun a => (f a).sum).sum := by
  induction l with
  | nil => rfl
  | cons a l ih => simp only [List.flatMap_cons, List.sum_append, List.map_cons, List.sum_cons, ih]

theorem wString_sum (l : List Bytes) : l.length ≤ (l.map wString).sum ∧ (l.map List.length).sum ≤ (l.map wString).sum := by
  refine ⟨?_, sum_le_of l fun a _ => Nat.le_max_right _ _⟩
  rw [← sum_ones l]
  exact sum_le_of l fun a _ => Nat.le_max_left _ _

/-- The characters of string tags. -/
def MshSpec.strings (s : MshSpec) : Nat := ((s.nodeData ++ s.elementData ++ s.elementNodeData).map fun d => (d.header.stringTags.map List.length).sum).sum

theorem data_weight (d : Data) : 1 + d.sizes.sum ≤ wData d := by
  have := (wString_sum d.header.stringTags).1
  simp only [Data.sizes, wData, wHeader, List.sum_cons]
  have : (d.entries.map wEntry).sum = d.entries.length + (d.entries.map (·.data.length)).sum := by
    unfold wEntry
    rw [sum_split, sum_ones]
  omega

theorem datas_weight (l : List Data) : l.length + (l.flatMap Data.sizes).sum ≤ (l.map wData).sum := by
  rw [sum_flatMap, ← sum_ones l, ← sum_split]
  exact sum_le_of l fun d _ => data_weight d

theorem sizes_weight (s : MshSpec) : s.sizes.sum + (s.physicalGroups.map (·.name.length)).sum ≤ wSpec s := by
  have h1 := datas_weight s.nodeData
  have h2 := datas_weight s.elementData
  have h3 := datas_weight s.elementNodeData
  unfold MshSpec.sizes wSpec wEntities wNodes wElements wGroup wPoint wBox wNodeBlock wElementBlock wCurve wPatch
  simp only [List.sum_append, List.sum_cons, List.sum_nil, List.flatMap_append, sum_flatMap, sum_split, sum_ones, Nat.add_zero] at *
  omega

theorem strings_weight (s : MshSpec) : s.strings + (s.nodes.entityBlocks.map (·.tags.length)).sum ≤ wSpec s := by
  have key : ∀ l : List Data, (l.map fun d => (d.header.stringTags.map List.length).sum).sum ≤ (l.map wData).sum := fun l =>
    sum_le_of l fun d _ => by
      have := (wString_sum d.header.stringTags).2
      unfold wData wHeader
      omega
  have h1 := key s.nodeData
  have h2 := key s.elementData
  have h3 := key s.elementNodeData
  have h4 : (s.nodes.entityBlocks.map (·.tags.length)).sum ≤ wNodes s.nodes := sum_le_of _ fun b _ => by unfold wNodeBlock; omega
  unfold MshSpec.strings wSpec
  simp only [List.map_append, List.sum_append]
  omega

theorem volume_bounded {cfg : Cfg} {file : Bytes} {s : MshSpec} (hl : loadMsh cfg file = .ok s)
    (h : ∀ name f, Overrun cfg file name f → name = b! "MeshFormat" ∨ name = b! "NanoSplineFormat") :
    s.volume ≤ 2 * file.length ∧ (s.meshFormat.version ≠ b! "2.2" → s.sizes.sum ≤ file.length) := by
  have hv : ∀ t : MshSpec, t.volume = t.sizes.sum + (t.physicalGroups.map (·.name.length)).sum + t.strings := fun _ => rfl
  unfold loadMsh at hl
  rw [loadStream_eq] at hl
  split at hl
  · rename_i spec st e
    have ha := (loadFull_ok cfg _ _ _ _ (Nat.le_refl _) e).1
    have hw := arrives_weight h ha
    have hi : spec.Inv cfg := loadLoop_post cfg _ _ (inv_start cfg) _ _ _ e
    have h1 := sizes_weight spec
    have h2 := strings_weight spec
    simp only at hw
    unfold loadPostProcess at hl
    split at hl
    · rename_i hver
      have := (OPost.bind (regroupNodes_weight cfg _ spec.elements hi.nodes) fun n hn => OPost.bind (regroupElements_weight cfg spec.elements) fun e he =>
        OPost.pure (Q := fun t : MshSpec => wSpec t ≤ wSpec spec + (spec.nodes.entityBlocks.map (·.tags.length)).sum ∧ t.strings = spec.strings ∧ t.meshFormat = spec.meshFormat)
          (a := { spec with nodes := n, elements := e }) ⟨by simp only [wSpec]; omega, rfl, rfl⟩) s hl
      have h3 := sizes_weight s
      refine ⟨?_, fun hv => absurd (this.2.2 ▸ hver) hv⟩
      rw [hv, this.2.1]
      omega
    · cases hl
      refine ⟨?_, fun _ => by omega⟩
      rw [hv]
      omega
  all_goals cases hl

theorem loadSection_format (cfg : Cfg) (s : MshSpec) {buf : Bytes} (h : buf ≠ b! "$MeshFormat") : Post (loadSection cfg buf s) fun t => t.meshFormat = s.meshFormat := by
  unfold loadSection
  rw [if_neg h]
  repeat refine Post.ite (fun _ => Post.skip fun _ => Post.pure rfl) fun _ => ?_
  exact Post.pure rfl

/-- The version of the format the main loop arrives with, if `$MeshFormat` occurs nowhere but at the beginning of the file and the spec loaded is not of version 2.2. -/
theorem version_of_final {cfg : Cfg} {file : Bytes} {s : MshSpec} (hf : ¬ b! "$MeshFormat" <:+: file.tail) (hl : loadMsh cfg file = .ok s) (hv : s.meshFormat.version ≠ b! "2.2")
    {x : MshSpec × Stream} (hx : Arrives cfg (Stream.ofBytes file) x) : x.1.meshFormat.version ≠ b! "2.2" := by
  have hx' := hx
  unfold Arrives at hx
  rcases Relation.ReflTransGen.cases_head hx with e | ⟨y, hy, hyx⟩
  · rw [← e]
    exact (show (({} : MshSpec).meshFormat.version ≠ b! "2.2") by decide)
  · unfold loadMsh at hl
    rw [loadStream_eq] at hl
    split at hl
    · rename_i spec st e
      have hp : s.meshFormat = spec.meshFormat := by
        unfold loadPostProcess at hl
        split at hl
        · refine (OPost.skip fun n => OPost.skip fun e => OPost.pure (Q := fun t : MshSpec => t.meshFormat = spec.meshFormat) (a := { spec with nodes := n, elements := e }) rfl) s hl
        · cases hl; rfl
      have hsuf : y.2.eof = true ∨ y.2.rem <:+ file.tail := by
        rcases loadRound_progress (by rfl) hy.2 with hp | hp
        · exact Or.inl hp
        · right
          obtain ⟨a, ha⟩ := (loadRound_step hy.2).suffix
          change a ++ y.2.rem = file at ha
          cases a with
          | nil => rw [← ha] at hp; exact absurd hp (by simp [Stream.ofBytes])
          | cons c a => rw [← ha]; exact ⟨a, rfl⟩
      rw [show loadFull cfg {} (Stream.ofBytes file) = loadFull cfg x.1 x.2 from loadFull_reach hx'] at e
      obtain ⟨hxs, -⟩ := loadFull_ok cfg _ _ _ _ (Nat.le_refl _) e
      rw [hp] at hv
      intro hx22
      refine hv ?_
      have key : ∀ F : Bytes, ¬ b! "$MeshFormat" <:+: F → x.2.rem <:+ F → spec.meshFormat.version = b! "2.2" := fun F hF hs =>
        (reach_keeps (F := F) (I := fun t => t.meshFormat.version = b! "2.2") (fun buf hb t ht => (loadSection_format cfg t (fun e => hF (e ▸ hb))).mono fun u hu => by rw [hu]; exact ht)
          hxs ⟨hx22, hs⟩).1
      rcases hsuf with h | h
      · rcases Relation.ReflTransGen.cases_head hyx with e' | ⟨z, hz, -⟩
        · rw [e'] at h
          rcases Relation.ReflTransGen.cases_head hxs with e2 | ⟨z, hz, -⟩
          · have e3 : x.1 = spec := congrArg Prod.fst e2
            rw [← e3]; exact hx22
          · rw [hz.1] at h; cases h
        · rw [hz.1] at h; cases h
      · exact key _ hf ((reach_keeps (F := file.tail) (I := fun _ => True) (fun _ _ _ _ _ _ _ _ => trivial) hyx ⟨trivial, h⟩).2)
    all_goals cases hl

end MshIO
