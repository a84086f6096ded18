import Verif.Spec.Regroup
import Verif.Proofs.SectionUndefined
import Verif.Proofs.Loaded22

/-! # What follows reading a file of version 2.2, exactly -/

namespace MshIO

variable {α β σ κ : Type}

/-! ## Node blocks, as they are read -/

/-- No entity has been assigned to a node block. -/
structure NodeBlock.Plain (b : NodeBlock) : Prop where
  dim : b.entityDim = 0
  tag : b.entityTag = 0
  parametric : b.parametric = 0

def Nodes.Plain (n : Nodes) : Prop := ∀ b ∈ n.entityBlocks, b.Plain

theorem nodes_plain_append {n : Nodes} (h : n.Plain) {blocks : List NodeBlock} {b0 : NodeBlock} {x y z w num : UInt64} {tags : List UInt64} {data : List Double}
    (hb : blocks = n.entityBlocks ++ [b0]) : Nodes.Plain ⟨x, y, z, w, blocks.dropLast ++ [{ numNodesInBlock := num, tags, data }]⟩ := by
  subst hb
  intro c hc
  rw [List.dropLast_concat] at hc
  rcases List.mem_append.mp hc with hc | hc
  · exact h c hc
  · rw [List.mem_singleton.mp hc]; exact ⟨rfl, rfl, rfl⟩

theorem loadNodes_plain (cfg : Cfg) {f : MeshFormat} (hf : f.version = b! "2.2") {n : Nodes} (h : n.Plain) : Post (loadNodes cfg f n) Nodes.Plain := by
  have h' : Nodes.Plain (if n.entityBlocks.length = 0 then { n with minNodeTag := sizeMax, maxNodeTag := 0, numNodes := 0 } else n) := by
    split <;> exact h
  unfold loadNodes
  simp only [hf]
  rw [if_neg (by decide), if_pos trivial]
  refine Post.ite (fun _ => ?_) fun _ => ?_
  · unfold loadNodesAscii22
    exact Post.bind (Post.pushBack cfg _ _) fun blocks hb => Post.skip fun num => Post.skip fun _ => Post.skip fun _ => Post.skip fun _ => Post.skip fun ⟨_, _⟩ =>
      Post.pure (nodes_plain_append h' hb.1)
  · unfold loadNodesBinary22
    exact Post.bind (Post.pushBack cfg _ _) fun blocks hb => Post.skip fun num => Post.skip fun _ => Post.skip fun _ => Post.skip fun _ => Post.skip fun _ => Post.skip fun ⟨_, _⟩ =>
      Post.pure (nodes_plain_append h' hb.1)

theorem loadSection_plain (cfg : Cfg) {buf : Bytes} (hb : buf ≠ b! "$MeshFormat") {s : MshSpec} (hv : s.meshFormat.version = b! "2.2") (h : s.nodes.Plain) :
    Post (loadSection cfg buf s) fun t => t.nodes.Plain ∧ t.meshFormat = s.meshFormat := by
  unfold loadSection
  rw [if_neg hb]
  refine Post.ite (fun _ => Post.skip fun _ => Post.pure ⟨h, rfl⟩) fun _ => ?_
  refine Post.ite (fun _ => Post.skip fun _ => Post.pure ⟨h, rfl⟩) fun _ => ?_
  refine Post.ite (fun _ => Post.bind (loadNodes_plain cfg hv h) fun _ hn => Post.pure ⟨hn, rfl⟩) fun _ => ?_
  refine Post.ite (fun _ => Post.skip fun _ => Post.pure ⟨h, rfl⟩) fun _ => ?_
  refine Post.ite (fun _ => Post.skip fun _ => Post.pure ⟨h, rfl⟩) fun _ => ?_
  refine Post.ite (fun _ => Post.skip fun _ => Post.pure ⟨h, rfl⟩) fun _ => ?_
  refine Post.ite (fun _ => Post.skip fun _ => Post.pure ⟨h, rfl⟩) fun _ => ?_
  refine Post.ite (fun _ => Post.skip fun _ => Post.pure ⟨h, rfl⟩) fun _ => ?_
  refine Post.ite (fun _ => Post.skip fun _ => Post.pure ⟨h, rfl⟩) fun _ => ?_
  refine Post.ite (fun _ => Post.skip fun _ => Post.pure ⟨h, rfl⟩) fun _ => ?_
  exact Post.pure ⟨h, rfl⟩

theorem section_keeps_format (cfg : Cfg) {buf : Bytes} (hb : buf ≠ b! "$MeshFormat") (s : MshSpec) : Post (loadSection cfg buf s) fun t => t.meshFormat = s.meshFormat := by
  unfold loadSection
  rw [if_neg hb]
  exact Post.ite (fun _ => Post.skip fun _ => Post.pure rfl) fun _ =>
    Post.ite (fun _ => Post.skip fun _ => Post.pure rfl) fun _ => Post.ite (fun _ => Post.skip fun _ => Post.pure rfl) fun _ =>
    Post.ite (fun _ => Post.skip fun _ => Post.pure rfl) fun _ => Post.ite (fun _ => Post.skip fun _ => Post.pure rfl) fun _ =>
    Post.ite (fun _ => Post.skip fun _ => Post.pure rfl) fun _ => Post.ite (fun _ => Post.skip fun _ => Post.pure rfl) fun _ =>
    Post.ite (fun _ => Post.skip fun _ => Post.pure rfl) fun _ => Post.ite (fun _ => Post.skip fun _ => Post.pure rfl) fun _ =>
    Post.ite (fun _ => Post.skip fun _ => Post.pure rfl) fun _ => Post.pure rfl

theorem arrives_plain {cfg : Cfg} {file : Bytes} (hf : FormatFirst cfg file) {x : MshSpec × Stream} (h : Arrives cfg (Stream.ofBytes file) x) :
    x.1.meshFormat.version = b! "2.2" → x.1.nodes.Plain := by
  unfold Arrives at h
  induction h with
  | refl => intro h; exact absurd h (show ¬ (({} : MshSpec).meshFormat.version = b! "2.2") by decide)
  | @tail x y hx hy ih =>
    obtain ⟨s, st⟩ := x
    obtain ⟨t, st'⟩ := y
    have hr := hy.2
    simp only at hr ih ⊢
    unfold loadRound at hr
    obtain ⟨buf, s1, h1, hr1⟩ := Rd.bind_eq_ok hr
    clear hr
    split at hr1
    · rename_i rest
      obtain ⟨w, hw, rfl, e1, hn⟩ := inString_at h1 (by simp)
      obtain ⟨sp, s2, h2, hr2⟩ := Rd.bind_eq_ok hr1
      obtain ⟨_, s3, h3, hr3⟩ := Rd.bind_eq_ok hr2
      cases hr3
      by_cases hm : 36 :: rest = b! "$MeshFormat"
      · rw [hm] at h2 hx
        obtain ⟨hn0, he0⟩ := hf s s1.rem ⟨hn, w, hw, hx⟩
        have e : t.nodes = s.nodes := by
          change (loadMeshFormat s.meshFormat >>= fun x => (pure { s with meshFormat := x } : Rd MshSpec)) _ = _ at h2
          obtain ⟨f, s4, -, h2⟩ := Rd.bind_eq_ok h2
          cases h2
          rfl
        intro _
        rw [e]
        exact fun b hb => absurd (hn0 ▸ hb) List.not_mem_nil
      · intro hv
        have hfmt := section_keeps_format cfg hm s _ _ _ h2
        have hv' : s.meshFormat.version = b! "2.2" := by rw [← hfmt]; exact hv
        exact (loadSection_plain cfg hm hv' (ih hv') _ _ _ h2).1
    · cases hr1
      exact ih

theorem arrives_inv {cfg : Cfg} {file : Bytes} {x : MshSpec × Stream} (h : Arrives cfg (Stream.ofBytes file) x) : x.1.Inv cfg :=
  (reach_keeps (F := file) (I := MshSpec.Inv cfg) (fun buf _ s hs => loadSection_post cfg buf s hs) h ⟨inv_start cfg, List.suffix_refl _⟩).1

/-! ## The nodes and elements of the blocks -/

theorem raw_nodes : ∀ (tags : List UInt64) (data : List Double), data.length = 3 * tags.length →
    ∃ ns : List MeshNode, tags = ns.map (·.tag) ∧ data = ns.flatMap fun n => [n.x, n.y, n.z]
  | [], data, h => ⟨[], rfl, List.length_eq_zero_iff.mp (by simpa using h)⟩
  | t :: tags, data, h => by
    rcases data with _ | ⟨x, _ | ⟨y, _ | ⟨z, data⟩⟩⟩
    · simp at h
    · simp at h; omega
    · simp at h; omega
    · obtain ⟨ns, h1, h2⟩ := raw_nodes tags data (by simp at h; omega)
      exact ⟨⟨t, x, y, z⟩ :: ns, by rw [h1]; rfl, by rw [h2]; rfl⟩

theorem rawNodeBlock_list (ns : List MeshNode) : (rawNodeBlock ns).list = ns := nodeBlockOf_list (0, 0) ns

theorem NodeBlock.Raw.eq {b : NodeBlock} (h : b.Raw) (hp : b.Plain) : b = rawNodeBlock b.list := by
  obtain ⟨ns, h1, h2⟩ := raw_nodes b.tags b.data (by rw [h.data, h.tags])
  have e : b = rawNodeBlock ns := by
    obtain ⟨d, t, p, num, tags, data⟩ := b
    obtain ⟨p1, p2, p3⟩ := hp
    simp only at p1 p2 p3 h1 h2
    subst p1 p2 p3 h1 h2
    have := h.tags
    simp only [List.length_map] at this
    unfold rawNodeBlock
    rw [this]
    simp
  conv_rhs => rw [e, rawNodeBlock_list]
  exact e

theorem ElementBlock.Raw.eq {b : ElementBlock} (h : b.Raw) : ∃ e : MeshElem, b = e.block ∧ b.list = [e] ∧ mshNodes e.type = some e.nodes.length ∧ 0 ≤ e.dim.toInt := by
  obtain ⟨h1, ⟨n, hn, hl⟩, hd⟩ := h
  obtain ⟨d, t, ty, num, data⟩ := b
  simp only at h1 hn hl hd
  subst h1
  rcases data with _ | ⟨x, ds⟩
  · simp at hl
  have hl' : ds.length = n := by simpa using hl
  refine ⟨⟨x, ty, d, t, ds⟩, rfl, ?_, by rw [hn, hl'], hd⟩
  unfold ElementBlock.list
  simp [hn, ← hl']

theorem Elements.Raw.eq {e : Elements} (h : e.Raw) : e.entityBlocks = e.list.map MeshElem.block ∧ (∀ x ∈ e.list, mshNodes x.type = some x.nodes.length ∧ 0 ≤ x.dim.toInt) := by
  unfold Elements.Raw at h
  unfold Elements.list
  obtain ⟨_, _, _, _, bs⟩ := e
  simp only at h ⊢
  induction bs with
  | nil => exact ⟨rfl, fun x hx => by cases hx⟩
  | cons b bs ih =>
    obtain ⟨i1, i2⟩ := ih fun c hc => h c (List.mem_cons_of_mem _ hc)
    obtain ⟨x, e1, e2, e3⟩ := (h b List.mem_cons_self).eq
    rw [List.flatMap_cons, e2, List.map_append, ← i1]
    refine ⟨by rw [e1]; rfl, fun y hy => ?_⟩
    rcases List.mem_append.mp hy with hy | hy
    · rw [List.mem_singleton.mp hy]; exact e3
    · exact i2 y hy

theorem Nodes.Raw.eq {n : Nodes} (h : n.Raw) (hp : n.Plain) : n.entityBlocks = (n.entityBlocks.map NodeBlock.list).map rawNodeBlock := by
  rw [List.map_map]
  conv_lhs => rw [← List.map_id n.entityBlocks]
  exact List.map_congr_left fun b hb => (h.block b hb).eq (hp b hb)

/-! ## Computations for which there is enough memory exactly if a condition holds -/

/-- The computation has a result, satisfying `Q`, if `A` holds, and otherwise throws for lack of memory. -/
def Fitting (x : Outcome α) (Q : α → Prop) (A : Prop) : Prop := (A ∧ ∃ a, x = .ok a ∧ Q a) ∨ (¬ A ∧ x = .throw .alloc)

theorem Fitting.bind {m : Outcome α} {f : α → Outcome β} {P : α → Prop} {Q : β → Prop} {A B : Prop} (hm : Fitting m P A) (hf : ∀ a, P a → A → Fitting (f a) Q B)
    (h : B → A) : Fitting (m >>= f) Q B := by
  rcases hm with ⟨ha, a, rfl, hp⟩ | ⟨ha, rfl⟩
  · exact hf a hp ha
  · exact Or.inr ⟨fun hb => ha (h hb), rfl⟩

theorem Fitting.iff {m : Outcome α} {P : α → Prop} {A B : Prop} (hm : Fitting m P A) (h : A ↔ B) : Fitting m P B := by rw [← propext h]; exact hm

theorem Fitting.foldO {f : α → σ → Outcome σ} (g : α → List β) {Inv : List β → σ → Prop} {Fit : List β → Prop} (mono : ∀ l m, Fit (l ++ m) → Fit l) (l : List α)
    (step : ∀ a ∈ l, ∀ pre st, Inv pre st → Fit pre → Fitting (f a st) (Inv (pre ++ g a)) (Fit (pre ++ g a))) :
    ∀ pre st, Inv pre st → Fit pre → Fitting (MshIO.foldO f l st) (Inv (pre ++ l.flatMap g)) (Fit (pre ++ l.flatMap g)) := by
  induction l with
  | nil => intro pre st hi hf; rw [List.flatMap_nil, List.append_nil]; exact Or.inl ⟨hf, st, rfl, hi⟩
  | cons a l ih =>
    intro pre st hi hf
    unfold MshIO.foldO
    rw [List.flatMap_cons, ← List.append_assoc]
    exact Fitting.bind (step a List.mem_cons_self pre st hi hf) (fun st' h' hf' => ih (fun a ha => step a (List.mem_cons_of_mem _ ha)) _ st' h' hf') (mono _ _)

theorem Fitting.loopO {f : Nat → σ → Outcome σ} {Inv : List β → σ → Prop} {Fit : List β → Prop} (mono : ∀ l m, Fit (l ++ m) → Fit l) (l : List β) {pre : List β}
    (step : ∀ i st, (h : i < l.length) → Inv (pre ++ l.take i) st → Fit (pre ++ l.take i) → Fitting (f i st) (Inv (pre ++ l.take i ++ [l[i]])) (Fit (pre ++ l.take i ++ [l[i]]))) :
    ∀ k i st, i + k = l.length → Inv (pre ++ l.take i) st → Fit (pre ++ l.take i) → Fitting (MshIO.loopO f k i st) (Inv (pre ++ l)) (Fit (pre ++ l)) := by
  intro k
  induction k with
  | zero =>
    intro i st e hi hf
    rw [show l.take i = l from List.take_of_length_le (by omega)] at hi hf
    exact Or.inl ⟨hf, st, rfl, hi⟩
  | succ k ih =>
    intro i st e hi hf
    have hlt : i < l.length := by omega
    have htk : pre ++ l.take i ++ [l[i]] = pre ++ l.take (i + 1) := by
      rw [List.take_add_one, List.getElem?_eq_getElem hlt, List.append_assoc]; rfl
    have hs := step i st hlt hi hf
    rw [htk] at hs
    unfold MshIO.loopO
    refine Fitting.bind hs (fun st' h' hf' => ih (i + 1) st' (by omega) h' hf') fun h => ?_
    refine mono _ (l.drop (i + 1)) ?_
    rw [List.append_assoc, List.take_append_drop]
    exact h

end MshIO
