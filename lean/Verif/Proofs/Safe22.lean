import Verif.Proofs.Table22
import Verif.Proofs.NumeralScan
import Verif.Proofs.Entities22

/-! # Version 2.2 files without undefined behaviour -/

namespace MshIO

variable {α β σ : Type} {F : Bytes}

/-! ## The main loop -/

theorem loadFull_reach {cfg : Cfg} {a b : MshSpec × Stream} (h : Relation.ReflTransGen (MainIter cfg) a b) :
    loadFull cfg a.1 a.2 = loadFull cfg b.1 b.2 := by
  induction h with
  | refl => rfl
  | tail _ h ih => rw [ih, loadFull_round_ok h.1 h.2]

theorem loadFull_ok (cfg : Cfg) (k : Nat) : ∀ (spec : MshSpec) (s : Stream) (x : MshSpec × Stream), s.rem.length ≤ k →
    loadFull cfg spec s = .ok x → Relation.ReflTransGen (MainIter cfg) (spec, s) x ∧ x.2.eof = true := by
  induction k using Nat.strongRecOn with
  | ind k ih =>
    intro spec s x hk h
    cases he : s.eof with
    | true => rw [loadFull_eof he] at h; cases h; exact ⟨.refl, he⟩
    | false =>
      cases hf : s.fail with
      | true => rw [loadFull_stuck hf he] at h; cases h
      | false =>
        rw [loadFull_round he, Rd.bind_def] at h
        cases hr : loadRound cfg spec s with
        | ok q =>
          rw [hr] at h
          simp only at h
          rcases loadRound_progress (by simp [Stream.good, he, hf]) hr with hp | hp
          · rw [loadFull_eof hp] at h; cases h; exact ⟨.single ⟨he, hr⟩, hp⟩
          · obtain ⟨h1, h2⟩ := ih q.2.rem.length (by omega) q.1 q.2 x le_rfl h
            exact ⟨.head ⟨he, hr⟩ h1, h2⟩
        | hang => rw [hr] at h; cases h
        | throw e => rw [hr] at h; cases h
        | abort => rw [hr] at h; cases h
        | ub => rw [hr] at h; cases h

theorem loadFull_ub (cfg : Cfg) (k : Nat) : ∀ (spec : MshSpec) (s : Stream), s.rem.length ≤ k → loadFull cfg spec s = .ub →
    ∃ x, Relation.ReflTransGen (MainIter cfg) (spec, s) x ∧ x.2.eof = false ∧ loadRound cfg x.1 x.2 = .ub := by
  induction k using Nat.strongRecOn with
  | ind k ih =>
    intro spec s hk h
    cases he : s.eof with
    | true => rw [loadFull_eof he] at h; cases h
    | false =>
      cases hf : s.fail with
      | true => rw [loadFull_stuck hf he] at h; cases h
      | false =>
        rw [loadFull_round he, Rd.bind_def] at h
        cases hr : loadRound cfg spec s with
        | ok q =>
          rw [hr] at h
          simp only at h
          rcases loadRound_progress (by simp [Stream.good, he, hf]) hr with hp | hp
          · rw [loadFull_eof hp] at h; cases h
          · obtain ⟨x, h1, h2⟩ := ih q.2.rem.length (by omega) q.1 q.2 le_rfl h
            exact ⟨x, .head ⟨he, hr⟩ h1, h2⟩
        | ub => exact ⟨(spec, s), .refl, he, hr⟩
        | hang => rw [hr] at h; cases h
        | throw e => rw [hr] at h; cases h
        | abort => rw [hr] at h; cases h

/-- Undefined behaviour of `load_msh`: in a round of the main loop or after it. -/
theorem loadMsh_ub_iff (cfg : Cfg) (file : Bytes) : loadMsh cfg file = .ub ↔
    (∃ s st, Arrives cfg (Stream.ofBytes file) (s, st) ∧ st.eof = false ∧ loadRound cfg s st = .ub) ∨
    ∃ s st, Arrives cfg (Stream.ofBytes file) (s, st) ∧ st.eof = true ∧ loadPostProcess cfg s = .ub := by
  unfold loadMsh
  rw [loadStream_eq]
  constructor
  · intro h
    cases hf : loadFull cfg {} (Stream.ofBytes file) with
    | ok x =>
      rw [hf] at h
      obtain ⟨h1, h2⟩ := loadFull_ok cfg _ _ _ x le_rfl hf
      exact Or.inr ⟨x.1, x.2, h1, h2, h⟩
    | ub =>
      obtain ⟨x, h1, h2⟩ := loadFull_ub cfg _ _ _ le_rfl hf
      exact Or.inl ⟨x.1, x.2, h1, h2⟩
    | throw e => rw [hf] at h; cases h
    | abort => rw [hf] at h; cases h
    | hang => rw [hf] at h; cases h
  · rintro (⟨s, st, ha, he, hr⟩ | ⟨s, st, ha, he, hr⟩)
    · have h1 := loadFull_reach ha
      simp only at h1
      rw [h1, loadFull_round he, Rd.bind_def, hr]
    · have h1 := loadFull_reach ha
      simp only at h1
      rw [h1, loadFull_eof he]
      exact hr

theorem inString_word {s s' : Stream} {buf : Bytes} (h : inString [] s = .ok (buf, s')) :
    s'.rem <:+ s.rem ∧ (buf = [] ∨ (buf ++ s'.rem <:+ s.rem ∧ s' = ⟨s'.rem, s'.rem.isEmpty, false⟩)) := by
  obtain ⟨h1, h2, h3⟩ := sentry_step s
  unfold inString at h
  rcases hs : sentry s with ⟨b, t⟩
  rw [hs] at h1 h2 h3 h
  cases b with
  | false => cases h; exact ⟨h1.suffix, Or.inl rfl⟩
  | true =>
    obtain ⟨_, c, r, e, _, hr⟩ := h2 rfl
    simp only at e
    subst e
    cases h
    have : (c :: r).takeWhile (fun c => !isSpace c) ++ (c :: r).dropWhile (fun c => !isSpace c) <:+ s.rem := by
      rw [List.takeWhile_append_dropWhile]
      exact hr
    exact ⟨(List.suffix_append _ _).trans this, Or.inr ⟨this, rfl⟩⟩

/-- What the section readers keep, the rounds of the main loop keep. -/
theorem reach_keeps {cfg : Cfg} {I : MshSpec → Prop} (hI : ∀ buf, buf <:+: F → ∀ s, I s → Post (loadSection cfg buf s) I) {x y : MshSpec × Stream}
    (h : Relation.ReflTransGen (MainIter cfg) x y) (hx : I x.1 ∧ x.2.rem <:+ F) : I y.1 ∧ y.2.rem <:+ F := by
  induction h with
  | refl => exact hx
  | @tail y z _ hz ih =>
    obtain ⟨hi, hs⟩ := ih
    have hst := loadRound_step hz.2
    refine ⟨?_, hst.suffix.trans hs⟩
    have hr := hz.2
    unfold loadRound at hr
    obtain ⟨buf, s1, h1, hr⟩ := Rd.bind_eq_ok hr
    obtain ⟨_, hw⟩ := inString_word h1
    have hinf : buf <:+: F := by
      rcases hw with rfl | hw
      · exact List.nil_infix
      · exact ((List.prefix_append buf _).isInfix.trans hw.1.isInfix).trans hs.isInfix
    split at hr
    · obtain ⟨sp, s2, h2, hr⟩ := Rd.bind_eq_ok hr
      obtain ⟨_, s3, h3, hr⟩ := Rd.bind_eq_ok hr
      cases hr
      exact hI _ hinf _ hi _ _ _ h2
    · cases hr
      exact hi

/-! ## What the version 2.2 readers make -/

theorem foldl_min (l : List UInt64) : ∀ a : UInt64,
    (l.foldl (fun a b => if b < a then b else a) a).toNat ≤ a.toNat ∧ ∀ t ∈ l, (l.foldl (fun a b => if b < a then b else a) a).toNat ≤ t.toNat := by
  induction l with
  | nil => intro a; simp
  | cons b l ih =>
    intro a
    rw [List.foldl_cons]
    obtain ⟨h1, h2⟩ := ih (if b < a then b else a)
    have h3 : (if b < a then b else a).toNat ≤ a.toNat ∧ (if b < a then b else a).toNat ≤ b.toNat := by
      by_cases h : b < a
      · rw [if_pos h]; rw [UInt64.lt_iff_toNat_lt] at h; omega
      · rw [if_neg h]; rw [UInt64.lt_iff_toNat_lt] at h; omega
    refine ⟨h1.trans h3.1, fun t ht => ?_⟩
    rcases List.mem_cons.mp ht with rfl | ht
    · exact h1.trans h3.2
    · exact h2 t ht

theorem foldl_max (l : List UInt64) : ∀ a : UInt64,
    a.toNat ≤ (l.foldl (fun a b => if a < b then b else a) a).toNat ∧ ∀ t ∈ l, t.toNat ≤ (l.foldl (fun a b => if a < b then b else a) a).toNat := by
  induction l with
  | nil => intro a; simp
  | cons b l ih =>
    intro a
    rw [List.foldl_cons]
    obtain ⟨h1, h2⟩ := ih (if a < b then b else a)
    have h3 : a.toNat ≤ (if a < b then b else a).toNat ∧ b.toNat ≤ (if a < b then b else a).toNat := by
      by_cases h : a < b
      · rw [if_pos h]; rw [UInt64.lt_iff_toNat_lt] at h; omega
      · rw [if_neg h]; rw [UInt64.lt_iff_toNat_lt] at h; omega
    refine ⟨h3.1.trans h1, fun t ht => ?_⟩
    rcases List.mem_cons.mp ht with rfl | ht
    · exact h3.2.trans h1
    · exact h2 t ht

theorem nodes_raw_append {cfg : Cfg} {n : Nodes} (h : n.Raw) {blocks : List NodeBlock} {b0 : NodeBlock} {num x y : UInt64} {tags : List UInt64} {data : List Double}
    (hb : blocks = n.entityBlocks ++ [b0] ∧ blocks.length ≤ cfg.maxCount) (h1 : tags.length = num.toNat) (h2 : tags.length ≤ cfg.maxCount)
    (h3 : data.length = (num * 3).toNat) (h4 : data.length ≤ cfg.maxCount) :
    Nodes.Raw ⟨x, y, (updateTagRange n tags).1, (updateTagRange n tags).2, blocks.dropLast ++ [{ numNodesInBlock := num, tags, data }]⟩ := by
  obtain ⟨rfl, _⟩ := hb
  have hm := cfg.maxCount_lt
  obtain ⟨m1, m2⟩ := foldl_min tags n.minNodeTag
  obtain ⟨M1, M2⟩ := foldl_max tags n.maxNodeTag
  have hmem : ∀ c, c ∈ (n.entityBlocks ++ [b0]).dropLast ++ [({ numNodesInBlock := num, tags, data } : NodeBlock)] →
      c ∈ n.entityBlocks ∨ c = { numNodesInBlock := num, tags, data } := by
    intro c hc
    rw [List.dropLast_concat] at hc
    rcases List.mem_append.mp hc with hc | hc
    · exact Or.inl hc
    · exact Or.inr (List.mem_singleton.mp hc)
  constructor
  · intro c hc
    rcases hmem c hc with hc | rfl
    · exact h.block c hc
    · refine ⟨h1, ?_, ?_⟩
      · show data.length = 3 * num.toNat
        rw [h3, UInt64.toNat_mul, show (3 : UInt64).toNat = 3 from rfl]
        omega
      · show num.toNat < _
        omega
  · intro c hc t ht
    show (updateTagRange n tags).1.toNat ≤ _ ∧ _ ≤ (updateTagRange n tags).2.toNat
    rcases hmem c hc with hc | rfl
    · have := h.range c hc t ht
      exact ⟨m1.trans this.1, this.2.trans M1⟩
    · exact ⟨m2 t ht, M2 t ht⟩

theorem loadNodesAscii22_raw (cfg : Cfg) {n : Nodes} (h : n.Raw) : Post (loadNodesAscii22 cfg n) Nodes.Raw := by
  unfold loadNodesAscii22
  refine Post.bind (Post.pushBack cfg _ _) fun blocks hb => Post.skip fun num => Post.skip fun _ =>
    Post.bind (Post.resize cfg _ num _) fun tags h1 => Post.bind (Post.resize cfg _ _ _) fun data h2 =>
    Post.bind (Post.loopN_inv (P := fun st : List UInt64 × List Double => st.1.length = tags.length ∧ st.2.length = data.length)
      (fun j st hst => ?_) _ _ _ ⟨rfl, rfl⟩) fun st hst => ?_
  · obtain ⟨t, d⟩ := st
    exact Post.bind (Post.inSizeAt _ _) fun t1 e1 => Post.bind (Post.inDoubleAt _ _) fun d1 e2 =>
      Post.bind (Post.inDoubleAt _ _) fun d2 e3 => Post.bind (Post.inDoubleAt _ _) fun d3 e4 =>
      Post.skip fun _ => Post.pure ⟨e1.trans hst.1, e4.trans (e3.trans (e2.trans hst.2))⟩
  · obtain ⟨t, d⟩ := st
    exact Post.pure (nodes_raw_append h hb (hst.1.trans h1.1) (hst.1.trans_le h1.2) (hst.2.trans h2.1) (hst.2.trans_le h2.2))

theorem loadNodesBinary22_raw (cfg : Cfg) {n : Nodes} (h : n.Raw) : Post (loadNodesBinary22 cfg n) Nodes.Raw := by
  unfold loadNodesBinary22
  refine Post.bind (Post.pushBack cfg _ _) fun blocks hb => Post.skip fun num => Post.skip fun _ =>
    Post.bind (Post.resize cfg _ num _) fun tags h1 => Post.bind (Post.resize cfg _ _ _) fun data h2 => Post.skip fun _ =>
    Post.bind (Post.loopN (P := fun _ (st : List UInt64 × List Double) => st.1.length = tags.length ∧ st.2.length = data.length)
      _ _ _ ⟨rfl, rfl⟩ fun j st _ hj hst => ?_) fun st hst => ?_
  · have hm := cfg.maxCount_lt
    exact (loadNodeBinary22_post cfg j st (by omega)).mono fun r hr => ⟨hr.1.trans hst.1, hr.2.trans hst.2⟩
  · obtain ⟨t, d⟩ := st
    exact Post.pure (nodes_raw_append h hb (hst.1.trans h1.1) (hst.1.trans_le h1.2) (hst.2.trans h2.1) (hst.2.trans_le h2.2))

theorem loadNodes_raw (cfg : Cfg) {f : MeshFormat} (hf : f.version = b! "2.2") {n : Nodes} (h : n.Raw) : Post (loadNodes cfg f n) Nodes.Raw := by
  have h' : Nodes.Raw (if n.entityBlocks.length = 0 then { n with minNodeTag := sizeMax, maxNodeTag := 0, numNodes := 0 } else n) := by
    split
    · rename_i h0
      have := List.length_eq_zero_iff.mp h0
      constructor
      · intro b hb; exact absurd (this ▸ hb : b ∈ ([] : List NodeBlock)) List.not_mem_nil
      · intro b hb; exact absurd (this ▸ hb : b ∈ ([] : List NodeBlock)) List.not_mem_nil
    · exact h
  unfold loadNodes
  simp only [hf]
  rw [if_neg (by decide), if_pos trivial]
  exact Post.ite (fun _ => loadNodesAscii22_raw cfg h') fun _ => loadNodesBinary22_raw cfg h'

theorem makeElement22_raw (cfg : Cfg) (num ty : Int32) (tags ids : List Int32) (blocks : List ElementBlock) (maps : List PhysMap)
    (hty : mshNodes ty = some ids.length) (h : ∀ b ∈ blocks, b.Raw) :
    OPost (makeElement22 cfg num ty tags ids blocks maps) fun r => ∀ b ∈ r.1, b.Raw := by
  unfold makeElement22
  obtain ⟨d, hd, hd3⟩ := mshDim_of_mshNodes hty
  obtain ⟨hgd, _⟩ := getElementDim_of_mshDim hd
  rw [hgd]
  refine OPost.skip fun bs => ?_
  rw [okBind]
  suffices hs : ∀ (et : Int32) (m : List PhysMap), OPost (vecResize cfg ([] : List UInt64) (UInt64.ofNat (ids.length + 1)) 0 >>= fun _ =>
      (pure (blocks ++ [⟨Int32.ofNat d, et, ty, 1, sizeOfInt num :: ids.map sizeOfInt⟩], m) : Outcome (List ElementBlock × List PhysMap)))
        fun r => ∀ b ∈ r.1, b.Raw by
    match tags with
    | [] => exact OPost.skip fun r => hs r.1 r.2
    | [t0] => exact OPost.skip fun r => hs r.1 r.2
    | t0 :: t1 :: _ => exact OPost.skip fun _ => OPost.skip fun _ => OPost.skip fun r => hs r.1 r.2
  intro et m
  refine OPost.skip fun _ => OPost.pure ?_
  intro b hb
  rcases List.mem_append.mp (show b ∈ blocks ++ [_] from hb) with hb | hb
  · exact h b hb
  · rw [List.mem_singleton.mp hb]
    refine ⟨rfl, ⟨ids.length, hty, by simp⟩, ?_⟩
    show 0 ≤ (Int32.ofNat d).toInt
    have : d = 0 ∨ d = 1 ∨ d = 2 ∨ d = 3 := by omega
    rcases this with rfl | rfl | rfl | rfl <;> decide

theorem loadElementAscii22_raw (cfg : Cfg) (st : Ascii22) (h : ∀ b ∈ st.blocks, b.Raw) :
    Post (loadElementAscii22 cfg st) fun r => ∀ b ∈ r.blocks, b.Raw := by
  unfold loadElementAscii22
  refine Post.skip fun _ => Post.skip fun _ => Post.skip fun _ => Post.skip fun _ => Post.skip fun _ => Post.skip fun tags =>
    Post.skip fun et => Post.bind (Post.lift (nodesPerElement_post et)) fun n hn => Post.bind (Post.resize cfg _ _ _) fun ids h1 =>
    Post.bind (Post.forEach_length _ ids) fun ids' h2 => Post.skip fun en =>
    Post.bind (Post.lift (makeElement22_raw cfg en et tags ids' st.blocks st.maps ?_ h)) fun r hr => ?_
  · rw [h2, h1.1]; exact hn.1
  · obtain ⟨bs, ms⟩ := r
    exact Post.pure hr

theorem loadElementsAscii22_raw (cfg : Cfg) {e : Elements} (ents : Entities) (h : e.Raw) :
    Post (loadElementsAscii22 cfg e ents) fun r => r.1.Raw := by
  unfold loadElementsAscii22
  exact Post.skip fun _ => Post.skip fun num => Post.bind (Post.loopN_inv (P := fun st : Ascii22 => ∀ b ∈ st.blocks, b.Raw)
    (fun j st hst => loadElementAscii22_raw cfg st hst) _ _ _ h) fun st hst => Post.skip fun _ => Post.pure hst

theorem loadElementBinary22_raw (cfg : Cfg) (N : UInt64) (et nt : Int32) (n : Nat) (hn : mshNodes et = some n)
    (st : Option Int32 × Binary22) (h : (∀ b ∈ st.2.blocks, b.Raw) ∧ st.2.nodeIds.length = n) :
    Post (loadElementBinary22 cfg N et nt st) fun r => (∀ b ∈ r.2.blocks, b.Raw) ∧ r.2.nodeIds.length = n := by
  unfold loadElementBinary22
  refine Post.skip fun id => Post.ite (fun _ => Post.ub) fun _ => Post.skip fun tags => Post.bind (Post.readInts _) fun ids hi =>
    Post.skip fun id => Post.bind (Post.lift (makeElement22_raw cfg id et tags ids st.2.blocks st.2.maps ?_ h.1)) fun r hr => ?_
  · rw [hi, h.2]; exact hn
  · obtain ⟨bs, ms⟩ := r
    exact Post.ite (fun _ => Post.throw) fun _ => Post.pure ⟨hr, hi.trans h.2⟩

theorem loadElementGroupBinary22_raw (cfg : Cfg) (N : UInt64) (st : Binary22) (h : ∀ b ∈ st.blocks, b.Raw) :
    Post (loadElementGroupBinary22 cfg N st) fun r => ∀ b ∈ r.blocks, b.Raw := by
  unfold loadElementGroupBinary22
  refine Post.skip fun _ => Post.skip fun _ => Post.skip fun _ => Post.skip fun nt => Post.skip fun tags => Post.skip fun et =>
    Post.bind (Post.lift (nodesPerElement_post et)) fun n hn => Post.bind (Post.resize cfg _ _ _) fun ids h1 => Post.skip fun nb =>
    Post.bind (Post.loopN_inv (P := fun st : Option Int32 × Binary22 => (∀ b ∈ st.2.blocks, b.Raw) ∧ st.2.nodeIds.length = n.toNat)
      (fun j st hst => loadElementBinary22_raw cfg N et nt _ hn.1 st hst) _ _ _ ⟨h, h1.1⟩) fun r hr => ?_
  obtain ⟨a, st'⟩ := r
  exact Post.pure hr.1

theorem loadElementGroups22_raw (cfg : Cfg) (N : UInt64) (fuel : Nat) : ∀ st : Binary22, (∀ b ∈ st.blocks, b.Raw) →
    Post (loadElementGroups22 cfg N fuel st) fun r => ∀ b ∈ r.blocks, b.Raw := by
  induction fuel with
  | zero => intro st _ s a s' e; cases e
  | succ n ih =>
    intro st h
    unfold loadElementGroups22
    exact Post.ite (fun _ => Post.pure h) fun _ => Post.bind (loadElementGroupBinary22_raw cfg N st h) ih

theorem loadElementsBinary22_raw (cfg : Cfg) {e : Elements} (ents : Entities) (h : e.Raw) :
    Post (loadElementsBinary22 cfg e ents) fun r => r.1.Raw := by
  unfold loadElementsBinary22
  refine Post.skip fun num => Post.skip fun _ => Post.skip fun _ => Post.bind (P := fun r : Binary22 => ∀ b ∈ r.blocks, b.Raw) ?_ fun st hst =>
    Post.skip fun _ => Post.pure hst
  intro s a s' hh
  exact loadElementGroups22_raw cfg num _ { blocks := e.entityBlocks } h s a s' hh

theorem loadElements_raw (cfg : Cfg) {f : MeshFormat} (hf : f.version = b! "2.2") {e : Elements} (ents : Entities) (h : e.Raw) :
    Post (loadElements cfg f e ents) fun r => r.1.Raw := by
  have h' : Elements.Raw (if e.entityBlocks.length = 0 then { e with minElementTag := sizeMax, maxElementTag := 0 } else e) := by
    split <;> exact h
  unfold loadElements
  simp only [hf]
  rw [if_neg (by decide), if_pos trivial]
  exact Post.ite (fun _ => loadElementsAscii22_raw cfg ents h') fun _ => loadElementsBinary22_raw cfg ents h'

/-- What the loader keeps while it reads a version 2.2 file. -/
structure MshSpec.Raw (fmt : MeshFormat) (s : MshSpec) : Prop where
  format : s.meshFormat = fmt
  nodes : s.nodes.Raw
  elements : s.elements.Raw

theorem loadSection_raw (cfg : Cfg) {fmt : MeshFormat} (hv : fmt.version = b! "2.2") {buf : Bytes} (hb : buf ≠ b! "$MeshFormat") {s : MshSpec}
    (h : s.Raw fmt) : Post (loadSection cfg buf s) (MshSpec.Raw fmt) := by
  have hv' : s.meshFormat.version = b! "2.2" := by rw [h.format]; exact hv
  unfold loadSection
  rw [if_neg hb]
  refine Post.ite (fun _ => Post.skip fun _ => Post.pure ⟨h.1, h.2, h.3⟩) fun _ => ?_
  refine Post.ite (fun _ => Post.skip fun _ => Post.pure ⟨h.1, h.2, h.3⟩) fun _ => ?_
  refine Post.ite (fun _ => Post.bind (loadNodes_raw cfg hv' h.nodes) fun _ hn => Post.pure ⟨h.1, hn, h.3⟩) fun _ => ?_
  refine Post.ite (fun _ => Post.bind (loadElements_raw cfg hv' _ h.elements) fun r he => ?_) fun _ => ?_
  · obtain ⟨e, es⟩ := r
    exact Post.pure ⟨h.1, h.2, he⟩
  refine Post.ite (fun _ => Post.skip fun _ => Post.pure ⟨h.1, h.2, h.3⟩) fun _ => ?_
  refine Post.ite (fun _ => Post.skip fun _ => Post.pure ⟨h.1, h.2, h.3⟩) fun _ => ?_
  refine Post.ite (fun _ => Post.skip fun _ => Post.pure ⟨h.1, h.2, h.3⟩) fun _ => ?_
  refine Post.ite (fun _ => Post.skip fun _ => Post.pure ⟨h.1, h.2, h.3⟩) fun _ => ?_
  refine Post.ite (fun _ => Post.skip fun _ => Post.pure ⟨h.1, h.2, h.3⟩) fun _ => ?_
  refine Post.ite (fun _ => Post.skip fun _ => Post.pure ⟨h.1, h.2, h.3⟩) fun _ => ?_
  exact Post.pure h

/-- At the end of a version 2.2 file. -/
theorem raw_of_arrives {cfg : Cfg} {header rest : Bytes} {fmt : MeshFormat} (hv : fmt.version = b! "2.2") (hh : Boundary cfg header { meshFormat := fmt })
    (hr : ¬ b! "$MeshFormat" <:+: rest) {s : MshSpec} {st : Stream} (ha : Arrives cfg (Stream.ofBytes (header ++ rest)) (s, st)) (he : st.eof = true) :
    s.Raw fmt := by
  have h1 : loadFull cfg {} (gs (header ++ rest)) = .ok (s, st) := by
    have := loadFull_reach ha
    simp only at this
    exact this.trans (loadFull_eof he)
  rw [loadFull_ext hh] at h1
  obtain ⟨h2, _⟩ := loadFull_ok cfg _ _ _ _ le_rfl h1
  exact (reach_keeps (F := rest) (I := MshSpec.Raw fmt) (fun buf hb s hs => loadSection_raw cfg hv (fun e => hr (e ▸ hb)) hs) h2
    ⟨⟨rfl, ⟨fun b hb => (List.not_mem_nil hb).elim, fun b hb => (List.not_mem_nil hb).elim⟩, fun b hb => (List.not_mem_nil hb).elim⟩,
      List.suffix_refl _⟩).1

/-! ## The text readers -/

variable {F : Ends}

theorem safe_nodesAscii22 (cfg : Cfg) (n : Nodes) : Safe F (loadNodesAscii22 cfg n) fun _ => True := by
  unfold loadNodesAscii22
  have hm := cfg.maxCount_lt
  refine Safe.skip (Safe.lift (OSafe.vecPush cfg _ _).1 fun _ _ => trivial) fun blocks => Safe.skip (safe_inSize _) fun num =>
    Safe.skip (safe_assertGood cfg) fun _ => Safe.bind (safe_resize' cfg _ num _) fun tags h1 => Safe.bind (safe_resize' cfg _ _ _) fun data h2 =>
    Safe.bind (Safe.loopN (P := fun st : List UInt64 × List Double => st.1.length = num.toNat ∧ st.2.length = 3 * num.toNat) _ _ _ ⟨h1.1, ?_⟩
      fun j st _ hj hst => ?_) fun st _ => ?_
  · show data.length = _
    rw [h2.1, UInt64.toNat_mul, show (3 : UInt64).toNat = 3 from rfl]
    omega
  · obtain ⟨t, d⟩ := st
    have ej : (UInt64.ofNat j).toNat = j := by rw [UInt64.toNat_ofNat', Nat.mod_eq_of_lt (by omega)]
    have e3 : ∀ k : UInt64, k.toNat < 3 → (UInt64.ofNat j * 3 + k).toNat < 3 * num.toNat := by
      intro k hk
      rw [UInt64.toNat_add, UInt64.toNat_mul, ej, show (3 : UInt64).toNat = 3 from rfl]
      omega
    have e0 : (UInt64.ofNat j * 3).toNat < 3 * num.toNat := by have := e3 0 (by decide); simpa using this
    obtain ⟨s1, s2⟩ := hst
    simp only at s1 s2
    exact Safe.bind (safe_inSizeAt (by rw [ej, s1]; omega)) fun t1 l1 => Safe.bind (safe_inDoubleAt (by rw [s2]; exact e0)) fun d1 l2 =>
      Safe.bind (safe_inDoubleAt (by rw [l2, s2]; exact e3 1 (by decide))) fun d2 l3 =>
      Safe.bind (safe_inDoubleAt (by rw [l3, l2, s2]; exact e3 2 (by decide))) fun d3 l4 => Safe.skip (safe_assertGood cfg) fun _ =>
      Safe.pure ⟨l1.trans s1, l4.trans (l3.trans (l2.trans s2))⟩
  · obtain ⟨t, d⟩ := st
    exact Safe.pure trivial

theorem createEntities_safe {E : Type} (cfg : Cfg) (mk : Int32 → List Int32 → E) (m : PhysMap) (es : List E) :
    OSafe (createEntities cfg mk m es) fun _ => True := by
  unfold createEntities
  exact OSafe.foldO (P := fun _ => True) m (fun p _ st _ => (OSafe.vecPush cfg st _).mono fun _ _ => trivial) es trivial

theorem createAllEntities_safe (cfg : Cfg) {maps : List PhysMap} (hm : maps.length = 4) (e : Entities) :
    OSafe (createAllEntities cfg maps e) fun _ => True := by
  unfold createAllEntities
  have g : ∀ i : UInt64, i.toNat < 4 → OSafe (vecGet maps i) fun _ => True := fun i hi =>
    (OSafe.vecGet (by rw [hm]; exact hi)).mono fun _ _ => trivial
  exact OSafe.skip (g 0 (by decide)) fun _ => OSafe.skip (createEntities_safe cfg _ _ _) fun _ => OSafe.skip (g 1 (by decide)) fun _ =>
    OSafe.skip (createEntities_safe cfg _ _ _) fun _ => OSafe.skip (g 2 (by decide)) fun _ => OSafe.skip (createEntities_safe cfg _ _ _) fun _ =>
    OSafe.skip (g 3 (by decide)) fun _ => OSafe.skip (createEntities_safe cfg _ _ _) fun _ => OSafe.pure trivial

theorem makeElement22_safe (cfg : Cfg) (num ty : Int32) (tags ids : List Int32) (blocks : List ElementBlock) {maps : List PhysMap}
    {n : Nat} (hty : mshNodes ty = some n) (hm : maps.length = 4) :
    OSafe (makeElement22 cfg num ty tags ids blocks maps) fun r => r.2.length = 4 := by
  unfold makeElement22
  obtain ⟨d, hd, hd3⟩ := mshDim_of_mshNodes hty
  obtain ⟨hgd, _⟩ := getElementDim_of_mshDim hd
  rw [hgd]
  refine OSafe.skip ((OSafe.vecPush cfg _ _).mono fun _ _ => trivial) fun bs => ?_
  rw [okBind]
  have hdim : (sizeOfInt (Int32.ofNat d)).toNat < 4 := by
    have : d = 0 ∨ d = 1 ∨ d = 2 ∨ d = 3 := by omega
    rcases this with rfl | rfl | rfl | rfl <;> decide
  suffices hs : ∀ (r : Int32 × List PhysMap), r.2.length = 4 → OSafe (vecResize cfg ([] : List UInt64) (UInt64.ofNat (ids.length + 1)) 0 >>= fun _ =>
      (pure (blocks ++ [⟨Int32.ofNat d, r.1, ty, 1, sizeOfInt num :: ids.map sizeOfInt⟩], r.2) : Outcome (List ElementBlock × List PhysMap)))
        fun r => r.2.length = 4 by
    match tags with
    | [] => exact OSafe.bind (OSafe.pure (Q := fun r : Int32 × List PhysMap => r.2.length = 4) hm) hs
    | [t0] => exact OSafe.bind (OSafe.pure (Q := fun r : Int32 × List PhysMap => r.2.length = 4) hm) hs
    | t0 :: t1 :: _ =>
      exact OSafe.bind (OSafe.vecGet (by rw [hm]; exact hdim)) fun m _ => OSafe.bind (OSafe.vecSet (by rw [hm]; exact hdim)) fun maps' hm' =>
        OSafe.bind (OSafe.pure (Q := fun r : Int32 × List PhysMap => r.2.length = 4) (by rw [hm', List.length_set]; exact hm)) hs
  exact fun r hr => OSafe.bind ⟨vecResize_ne_ub _ _ _ _, fun _ _ => trivial⟩ fun _ _ => OSafe.pure hr

/-- The local variables of the element loop have been read at least once. -/
def Ascii22.Set (st : Ascii22) : Prop := st.elementNum.isSome ∧ st.elementType.isSome ∧ st.numTags.isSome ∧ st.maps.length = 4

/-- The body of the element loop after its three first numbers. -/
def elementTail22 (cfg : Cfg) (st : Ascii22) (elementNum elementType numTags : Option Int32) : Rd Ascii22 := do
  let tags ← resize cfg st.tags (sizeOfInt (← useVar numTags)) 0
  let tags ← forEach inInt tags
  let et ← useVar elementType
  let n ← Rd.lift (nodesPerElement et)
  let nodeIds ← resize cfg st.nodeIds n 0
  let nodeIds ← forEach inInt nodeIds
  let en ← useVar elementNum
  let lo := if sizeOfInt en < st.lo then sizeOfInt en else st.lo
  let hi := if st.hi < sizeOfInt en then sizeOfInt en else st.hi
  let (blocks, maps) ← Rd.lift (makeElement22 cfg en et tags nodeIds st.blocks st.maps)
  return { elementNum, elementType, numTags, tags, nodeIds, lo, hi, blocks, maps }

theorem loadElementAscii22_eq (cfg : Cfg) (st : Ascii22) : loadElementAscii22 cfg st =
    (inIntVar st.elementNum >>= fun en => inIntVar st.elementType >>= fun et => inIntVar st.numTags >>= fun nt => elementTail22 cfg st en et nt) := rfl

theorem safe_useVar' (v : α) : Safe F (useVar (some v)) fun a => a = v := Safe.pure rfl

theorem safe_elementTail22 (cfg : Cfg) {st : Ascii22} (hm : st.maps.length = 4) (en et nt : Int32) :
    Safe F (elementTail22 cfg st (some en) (some et) (some nt)) Ascii22.Set := by
  unfold elementTail22
  refine Safe.skip (safe_useVar _) fun _ => Safe.skip (safe_resize' cfg _ _ _).any fun tags => Safe.skip (Safe.each safe_inInt _) fun tags' =>
    Safe.skip (safe_useVar _) fun t => Safe.bind (Safe.lift (nodesPerElement_ne_ub t) (nodesPerElement_post t)) fun n hn =>
    Safe.skip (safe_resize' cfg _ _ _).any fun ids => Safe.skip (Safe.each safe_inInt _) fun ids' => Safe.skip (safe_useVar _) fun e => ?_
  have hs := makeElement22_safe cfg e t tags' ids' st.blocks hn.1 hm
  refine Safe.bind (Safe.lift hs.1 hs.2) fun r hr => ?_
  obtain ⟨bs, ms⟩ := r
  exact Safe.pure ⟨rfl, rfl, rfl, hr⟩

theorem safe_inIntVar (v : Int32) : Safe F (inIntVar (some v)) fun o => ∃ w, o = some w := by
  unfold inIntVar
  refine Safe.skip safe_extractInt fun o => ?_
  cases o with
  | none => exact Safe.pure ⟨v, rfl⟩
  | some w => exact Safe.pure ⟨w, rfl⟩

theorem safe_element22 (cfg : Cfg) {st : Ascii22} (h : st.Set) : Safe F (loadElementAscii22 cfg st) Ascii22.Set := by
  obtain ⟨h1, h2, h3, h4⟩ := h
  obtain ⟨a, ha⟩ := Option.isSome_iff_exists.mp h1
  obtain ⟨b, hb⟩ := Option.isSome_iff_exists.mp h2
  obtain ⟨c, hc⟩ := Option.isSome_iff_exists.mp h3
  rw [loadElementAscii22_eq, ha, hb, hc]
  refine Safe.bind (safe_inIntVar a) ?_
  rintro _ ⟨a', rfl⟩
  refine Safe.bind (safe_inIntVar b) ?_
  rintro _ ⟨b', rfl⟩
  refine Safe.bind (safe_inIntVar c) ?_
  rintro _ ⟨c', rfl⟩
  exact safe_elementTail22 cfg h4 a' b' c'

/-- No undefined behaviour on one stream. -/
def SafeAt (F : Ends) (m : Rd α) (s : Stream) (Q : α → Prop) : Prop := m s ≠ .ub ∧ ∀ a s', m s = .ok (a, s') → F.At s'.rem ∧ Q a

theorem SafeAt.of {m : Rd α} {s : Stream} {Q : α → Prop} (h : Safe F m Q) (hs : F.At s.rem) : SafeAt F m s Q := h s hs

theorem SafeAt.step {m : Rd α} {f : α → Rd β} {s s' : Stream} {a : α} {Q : β → Prop} (h : m s = .ok (a, s')) (hf : SafeAt F (f a) s' Q) :
    SafeAt F (m >>= f) s Q := by
  unfold SafeAt
  rw [Rd.bind_ok h]
  exact hf

theorem SafeAt.bind {m : Rd α} {f : α → Rd β} {s : Stream} {P : α → Prop} {Q : β → Prop} (hm : SafeAt F m s P) (hf : ∀ a, P a → Safe F (f a) Q) :
    SafeAt F (m >>= f) s Q := by
  unfold SafeAt
  rw [Rd.bind_def]
  obtain ⟨h1, h2⟩ := hm
  cases h : m s with
  | ok x => obtain ⟨a, t⟩ := x; exact hf a (h2 a t h).2 t (h2 a t h).1
  | throw x => simp
  | abort => simp
  | ub => exact absurd h h1
  | hang => simp

theorem short_value {l : List (Fin 10)} (h : l.length ≤ 9) : natOfDigits (digitsText l) < 10 ^ 9 := by
  have h1 := natOfDigits_lt _ (digitsText_digits l)
  have h2 : (digitsText l).length = l.length := by simp [digitsText]
  rw [h2] at h1
  exact lt_of_lt_of_le h1 (Nat.pow_le_pow_right (by decide) h)

theorem blank_not_digit {w r : Bytes} (hw : Blank w) (hne : w ≠ []) : (∀ c ∈ (w ++ r).head?, isDigit c = false) ∧ (w ++ r).isEmpty = false := by
  cases w with
  | nil => exact absurd rfl hne
  | cons c w =>
    refine ⟨?_, rfl⟩
    intro d hd
    simp only [List.cons_append, List.head?_cons, Option.mem_def, Option.some.injEq] at hd
    subst hd
    have := hw c List.mem_cons_self
    cases hh : isDigit c with
    | false => rfl
    | true => exfalso; rw [isSpace_of_isDigit hh] at this; cases this

theorem digitsText_ne {l : List (Fin 10)} (h : l ≠ []) : (digitsText l).isEmpty = false := by
  cases l with
  | nil => exact absurd rfl h
  | cons _ _ => rfl

theorem convertI32_short (neg : Bool) {l : List (Fin 10)} (h0 : l ≠ []) (h : l.length ≤ 9) : (convertI32 neg (digitsText l)).2 = false := by
  have hv := short_value h
  unfold convertI32
  rw [digitsText_ne h0]
  cases neg
  · simp only [Bool.false_eq_true, if_false]
    rw [if_neg (by omega), if_neg (by omega)]
  · simp only [Bool.false_eq_true, if_false, if_true]
    rw [if_neg (by omega), if_neg (by omega)]

theorem convertU64_short (neg : Bool) {l : List (Fin 10)} (h0 : l ≠ []) (h : l.length ≤ 9) : (convertU64 neg (digitsText l)).2 = false := by
  have hv := short_value h
  unfold convertU64
  rw [digitsText_ne h0]
  simp only [Bool.false_eq_true, if_false]
  rw [if_neg (by omega)]

theorem extractInt_short {q w lead rest : Bytes} (hq : ShortInt q) (hl : Blank lead) (hw : Blank w) (hne : w ≠ []) :
    ∃ v, extractInt (gs (lead ++ (q ++ (w ++ rest)))) = .ok (some v, gs (w ++ rest)) := by
  obtain ⟨s, l, rfl, hl0, hl9⟩ := hq
  obtain ⟨hd, hem⟩ := blank_not_digit (r := rest) hw hne
  obtain ⟨h1, c, t, e, hc⟩ := read_digits s l hl0 hd
  have hs : sentry (gs (lead ++ (signText s ++ digitsText l ++ (w ++ rest)))) = (true, gs (signText s ++ digitsText l ++ (w ++ rest))) := by
    rw [e]; exact sentry_gs hl hc
  have hv := short_value hl9
  refine ⟨(convertI32 (s == some true) (digitsText l)).1, ?_⟩
  unfold extractInt
  rw [hs]
  simp only [gs, h1, hem]
  rw [convertI32_short _ hl0 hl9]

theorem extractSize_short {q w lead rest : Bytes} (hq : ShortInt q) (hl : Blank lead) (hw : Blank w) (hne : w ≠ []) :
    ∃ v, extractSize (gs (lead ++ (q ++ (w ++ rest)))) = .ok (some v, gs (w ++ rest)) := by
  obtain ⟨s, l, rfl, hl0, hl9⟩ := hq
  obtain ⟨hd, hem⟩ := blank_not_digit (r := rest) hw hne
  obtain ⟨h1, c, t, e, hc⟩ := read_digits s l hl0 hd
  have hs : sentry (gs (lead ++ (signText s ++ digitsText l ++ (w ++ rest)))) = (true, gs (signText s ++ digitsText l ++ (w ++ rest))) := by
    rw [e]; exact sentry_gs hl hc
  refine ⟨(convertU64 (s == some true) (digitsText l)).1, ?_⟩
  unfold extractSize
  rw [hs]
  simp only [gs, h1, hem]
  rw [convertU64_short _ hl0 hl9]

theorem inIntVar_short (o : Option Int32) {q w lead rest : Bytes} (hq : ShortInt q) (hl : Blank lead) (hw : Blank w) (hne : w ≠ []) :
    ∃ v, inIntVar o (gs (lead ++ (q ++ (w ++ rest)))) = .ok (some v, gs (w ++ rest)) := by
  obtain ⟨v, h⟩ := extractInt_short (rest := rest) hq hl hw hne
  refine ⟨v, ?_⟩
  unfold inIntVar
  rw [Rd.bind_ok h]
  rfl

theorem inIntVar_something (o : Option Int32) {w t : Bytes} (hw : Blank w) (ht : ∃ c ∈ t.head?, isSpace c = false) (hs : F.At (w ++ t)) :
    SafeAt F (inIntVar o) (gs (w ++ t)) fun r => ∃ v, r = some v := by
  obtain ⟨c, hc, hsp⟩ := ht
  obtain ⟨r, rfl⟩ : ∃ r, t = c :: r := by
    cases t with
    | nil => cases hc
    | cons d r =>
      simp only [List.head?_cons, Option.mem_def, Option.some.injEq] at hc
      subst hc
      exact ⟨r, rfl⟩
  unfold inIntVar
  have hsen : sentry (gs (w ++ c :: r)) = (true, gs (c :: r)) := sentry_gs hw hsp
  rcases extractInt_cases (gs (w ++ c :: r)) with h | ⟨c', t', _, _, h⟩
  · exfalso
    unfold extractInt at h
    rw [hsen] at h
    simp at h
  · refine SafeAt.step h (SafeAt.of (Safe.pure ⟨_, rfl⟩) ?_)
    exact ((safe_extractInt _ hs).2 _ _ h).1

theorem after_elements22 [F.Any] (cfg : Cfg) {buf : Bytes} (hF : ∀ r, buf ++ r <:+ F.bytes → StartsElements r) (e : Elements) (ents : Entities) :
    SafeAfter (fun _ => False) F buf (loadElementsAscii22 cfg e ents) fun _ => True := by
  intro r hr _
  obtain ⟨lead, words, t, rfl, hlead, hwords, hcase⟩ := hF r hr
  show SafeAt F _ _ _
  have hsuf : Spaced lead words ++ t <:+ F.bytes := (List.suffix_append buf _).trans hr
  have fin : ∀ (num : UInt64) (st : Ascii22), st.maps.length = 4 → Safe F (do
      let ents ← Rd.lift (createAllEntities cfg st.maps ents)
      return ({
        numEntityBlocks := e.numEntityBlocks + num
        numElements := e.numElements + num
        minElementTag := st.lo
        maxElementTag := st.hi
        entityBlocks := st.blocks }, ents) : Rd (Elements × Entities)) fun _ => True := by
    intro num st hst
    exact Safe.bind (Safe.lift (createAllEntities_safe cfg hst ents).1 fun _ _ => trivial) fun _ _ => Safe.pure trivial
  unfold loadElementsAscii22
  match words, hwords, hcase with
  | [], _, h => simp at h
  | ⟨q1, w1⟩ :: more, hwords, hcase =>
    obtain ⟨hq1, hw1, hn1⟩ := hwords _ List.mem_cons_self
    simp only at hq1 hw1 hn1
    have hst : ∀ x : Bytes, (⟨lead ++ (q1 ++ (w1 ++ x)), (lead ++ (q1 ++ (w1 ++ x))).isEmpty, false⟩ : Stream) = gs (lead ++ (q1 ++ (w1 ++ x))) := by
      intro x
      have : (lead ++ (q1 ++ (w1 ++ x))).isEmpty = false := by
        cases w1 with
        | nil => exact absurd rfl hn1
        | cons c w => simp
      rw [this]
    have hform : Spaced lead ((q1, w1) :: more) ++ t = lead ++ (q1 ++ (w1 ++ (Spaced [] more ++ t))) := by simp [Spaced]
    rw [hform, hst]
    rw [hform] at hsuf
    obtain ⟨num, hnum⟩ := extractSize_short (rest := Spaced [] more ++ t) hq1 hlead hw1 hn1
    refine SafeAt.step hnum (SafeAt.step (a := num) rfl ?_)
    have hsuf1 : w1 ++ (Spaced [] more ++ t) <:+ F.bytes := ((List.suffix_append q1 _).trans (List.suffix_append lead _)).trans hsuf
    rcases hcase with ⟨h3, htail⟩ | h0
    · match more, h3, hwords with
      | [⟨q2, w2⟩, ⟨q3, w3⟩], _, hwords =>
        obtain ⟨hq2, hw2, hn2⟩ := hwords (q2, w2) (by simp)
        obtain ⟨hq3, hw3, hn3⟩ := hwords (q3, w3) (by simp)
        simp only at hq2 hw2 hn2 hq3 hw3 hn3
        have hform2 : Spaced [] [(q2, w2), (q3, w3)] ++ t = q2 ++ (w2 ++ (q3 ++ (w3 ++ t))) := by simp [Spaced]
        rw [hform2] at hsuf1 ⊢
        cases hk : num.toNat with
        | zero => exact SafeAt.step (a := _) rfl (SafeAt.of (fin num _ rfl) (Ends.At.all hsuf1))
        | succ k =>
          refine SafeAt.bind (P := Ascii22.Set) ?_ fun st hst => fin num st hst.2.2.2
          unfold loopN
          refine SafeAt.bind (P := Ascii22.Set) ?_ fun st hst => Safe.loopN _ _ _ hst fun j st _ _ hst => safe_element22 cfg hst
          rw [loadElementAscii22_eq]
          obtain ⟨en, he⟩ := inIntVar_short none (rest := q3 ++ (w3 ++ t)) hq2 hw1 hw2 hn2
          refine SafeAt.step he ?_
          obtain ⟨et, he⟩ := inIntVar_short none (rest := t) hq3 hw2 hw3 hn3
          refine SafeAt.step he ?_
          refine SafeAt.bind (inIntVar_something none hw3 htail ?_) ?_
          · have : w3 ++ t <:+ w1 ++ (q2 ++ (w2 ++ (q3 ++ (w3 ++ t)))) := ⟨w1 ++ (q2 ++ (w2 ++ q3)), by simp⟩
            exact Ends.At.all (this.trans hsuf1)
          · rintro _ ⟨nt, rfl⟩
            exact safe_elementTail22 cfg rfl en et nt
    · have hq : q1 = b! "0" := by simp at h0; exact h0.1
      subst hq
      have hz : num = 0 := by
        have hd := blank_not_digit (r := Spaced [] more ++ t) hw1 hn1
        obtain ⟨h1, c, u, eq, hc⟩ := read_digits none [0] (by simp) hd.1
        have hs : sentry (gs (lead ++ (b! "0" ++ (w1 ++ (Spaced [] more ++ t))))) = (true, gs (b! "0" ++ (w1 ++ (Spaced [] more ++ t)))) :=
          sentry_gs hlead (by decide)
        have h1' : scanInt (b! "0" ++ (w1 ++ (Spaced [] more ++ t))) = (false, b! "0", w1 ++ (Spaced [] more ++ t)) := h1
        unfold extractSize at hnum
        rw [hs] at hnum
        simp only [gs, h1', Outcome.ok.injEq, Prod.mk.injEq, Option.some.injEq] at hnum
        rw [← hnum.1]
        decide
      subst hz
      exact SafeAt.step (a := _) rfl (SafeAt.of (fin 0 _ rfl) (Ends.At.all hsuf1))

end MshIO
