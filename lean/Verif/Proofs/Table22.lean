import Verif.Proofs.PostAll
import Verif.Proofs.Group22
import Verif.Proofs.Safe
import Verif.Spec.Hazards

/-! # When the post-processing of a version 2.2 file is undefined -/

namespace MshIO

variable {α β σ : Type}

theorem okBind (a : α) (f : α → Outcome β) : (Outcome.ok a >>= f) = f a := rfl

/-! ## Computations without undefined behaviour -/

/-- No undefined behaviour, and results satisfy `Q`. -/
def OSafe (x : Outcome α) (Q : α → Prop) : Prop := x ≠ .ub ∧ OPost x Q

theorem OSafe.ok {a : α} {Q : α → Prop} (h : Q a) : OSafe (.ok a) Q := ⟨by simp, OPost.ok h⟩
theorem OSafe.pure {a : α} {Q : α → Prop} (h : Q a) : OSafe (pure a) Q := OSafe.ok h
theorem OSafe.throw {e : Exc} {Q : α → Prop} : OSafe (.throw e) Q := ⟨by simp, OPost.throw⟩
theorem OSafe.abort {Q : α → Prop} : OSafe .abort Q := ⟨by simp, OPost.abort⟩

theorem OSafe.bind {m : Outcome α} {f : α → Outcome β} {P : α → Prop} {Q : β → Prop} (hm : OSafe m P)
    (hf : ∀ a, P a → OSafe (f a) Q) : OSafe (m >>= f) Q := by
  cases h : m with
  | ok a => exact hf a (hm.2 a h)
  | throw e => exact OSafe.throw
  | abort => exact OSafe.abort
  | ub => exact absurd h hm.1
  | hang =>
    constructor
    · intro e; cases e
    · intro a e; cases e

theorem OSafe.skip {m : Outcome α} {f : α → Outcome β} {Q : β → Prop} (hm : OSafe m fun _ => True) (hf : ∀ a, OSafe (f a) Q) :
    OSafe (m >>= f) Q := hm.bind fun a _ => hf a

theorem OSafe.mono {m : Outcome α} {P Q : α → Prop} (h : OSafe m P) (hq : ∀ a, P a → Q a) : OSafe m Q := ⟨h.1, h.2.mono hq⟩

theorem OSafe.ite {c : Prop} [Decidable c] {m n : Outcome α} {Q : α → Prop} (h1 : c → OSafe m Q) (h2 : ¬ c → OSafe n Q) :
    OSafe (if c then m else n) Q := by
  split
  · exact h1 ‹_›
  · exact h2 ‹_›

theorem OSafe.loopO {f : Nat → σ → Outcome σ} {P : σ → Prop} (n : Nat) : ∀ i st, P st →
    (∀ j st, i ≤ j → j < i + n → P st → OSafe (f j st) P) → OSafe (loopO f n i st) P := by
  induction n with
  | zero => intro i st h _; exact OSafe.ok h
  | succ n ih =>
    intro i st h hf
    unfold MshIO.loopO
    exact OSafe.bind (hf i st (by omega) (by omega) h) fun st' h' => ih (i + 1) st' h' fun j st hj hj' => hf j st (by omega) (by omega)

theorem OSafe.foldO {f : α → σ → Outcome σ} {P : σ → Prop} (l : List α) (hf : ∀ a ∈ l, ∀ st, P st → OSafe (f a st) P) :
    ∀ st, P st → OSafe (foldO f l st) P := by
  induction l with
  | nil => intro st h; exact OSafe.ok h
  | cons a l ih =>
    intro st h
    unfold MshIO.foldO
    exact OSafe.bind (hf a List.mem_cons_self st h) fun st' h' => ih (fun a ha => hf a (List.mem_cons_of_mem _ ha)) st' h'

theorem OSafe.vecGet {v : List α} {i : UInt64} (h : i.toNat < v.length) : OSafe (vecGet v i) fun a => a ∈ v := by
  unfold MshIO.vecGet
  rw [List.getElem?_eq_getElem h]
  exact OSafe.ok (List.getElem_mem h)

theorem OSafe.vecSet {v : List α} {i : UInt64} {x : α} (h : i.toNat < v.length) :
    OSafe (vecSet v i x) fun l => l = v.set i.toNat x := by
  unfold MshIO.vecSet
  rw [if_pos h]
  exact OSafe.ok rfl

theorem OSafe.vecPush (cfg : Cfg) (v : List α) (x : α) : OSafe (vecPush cfg v x) fun l => l = v ++ [x] := by
  unfold MshIO.vecPush
  exact OSafe.ite (fun _ => OSafe.ok rfl) fun _ => OSafe.throw

theorem OSafe.vecReserve (cfg : Cfg) (n : UInt64) : OSafe (vecReserve cfg n) fun _ => True := by
  unfold MshIO.vecReserve
  exact OSafe.ite (fun _ => OSafe.ok trivial) fun _ => OSafe.throw

theorem OSafe.vecModifyBack {v : List α} {f : α → Outcome α} (hv : v ≠ []) (h : ∀ a, OSafe (f a) fun _ => True) :
    OSafe (vecModifyBack v f) fun l => l ≠ [] := by
  unfold MshIO.vecModifyBack
  cases e : v.getLast? with
  | none => exact absurd (List.getLast?_eq_none_iff.mp e) hv
  | some a => exact OSafe.bind (h a) fun b _ => OSafe.pure (by simp)

/-! ## Computations that are defined exactly if a condition holds -/

/-- The computation has a result, satisfying `Q`, if `A` holds, and is undefined otherwise. -/
def Exact (x : Outcome α) (Q : α → Prop) (A : Prop) : Prop := (A ∧ ∃ a, x = .ok a ∧ Q a) ∨ (¬ A ∧ x = .ub)

theorem Exact.ok {a : α} {Q : α → Prop} (h : Q a) : Exact (.ok a) Q True := Or.inl ⟨trivial, a, rfl, h⟩

theorem Exact.bind {m : Outcome α} {f : α → Outcome β} {P : α → Prop} {Q : β → Prop} {A B : Prop} (hm : Exact m P A)
    (hf : ∀ a, P a → Exact (f a) Q B) : Exact (m >>= f) Q (A ∧ B) := by
  rcases hm with ⟨ha, a, rfl, hp⟩ | ⟨ha, rfl⟩
  · rcases hf a hp with ⟨hb, b, e, hq⟩ | ⟨hb, e⟩
    · exact Or.inl ⟨⟨ha, hb⟩, b, e, hq⟩
    · exact Or.inr ⟨fun h => hb h.2, e⟩
  · exact Or.inr ⟨fun h => ha h.1, rfl⟩

theorem Exact.iff {m : Outcome α} {P : α → Prop} {A B : Prop} (hm : Exact m P A) (h : A ↔ B) : Exact m P B := by
  rw [← propext h]; exact hm

theorem Exact.mono {m : Outcome α} {P Q : α → Prop} {A : Prop} (hm : Exact m P A) (h : ∀ a, P a → Q a) : Exact m Q A := by
  rcases hm with ⟨ha, a, e, hp⟩ | hm
  · exact Or.inl ⟨ha, a, e, h a hp⟩
  · exact Or.inr hm

theorem Exact.loopO {f : Nat → σ → Outcome σ} {P : σ → Prop} {A : Nat → Prop} (n : Nat) : ∀ i st, P st →
    (∀ j st, i ≤ j → j < i + n → P st → Exact (f j st) P (A j)) → Exact (loopO f n i st) P (∀ j, i ≤ j → j < i + n → A j) := by
  induction n with
  | zero => intro i st h _; exact (Exact.ok h).iff ⟨fun _ j h1 h2 => by omega, fun _ => trivial⟩
  | succ n ih =>
    intro i st h hf
    unfold MshIO.loopO
    refine (Exact.bind (hf i st (by omega) (by omega) h) fun st' h' => ih (i + 1) st' h' fun j st hj hj' => hf j st (by omega) (by omega)).iff ?_
    constructor
    · rintro ⟨h1, h2⟩ j hj hj'
      by_cases e : j = i
      · rw [e]; exact h1
      · exact h2 j (by omega) (by omega)
    · intro h
      exact ⟨h i (by omega) (by omega), fun j h1 h2 => h j (by omega) (by omega)⟩

theorem Exact.foldO {f : α → σ → Outcome σ} {P : σ → Prop} {A : α → Prop} (l : List α) (hf : ∀ a ∈ l, ∀ st, P st → Exact (f a st) P (A a)) :
    ∀ st, P st → Exact (foldO f l st) P (∀ a ∈ l, A a) := by
  induction l with
  | nil => intro st h; exact (Exact.ok h).iff (by simp)
  | cons a l ih =>
    intro st h
    unfold MshIO.foldO
    exact (Exact.bind (hf a List.mem_cons_self st h) fun st' h' => ih (fun a ha => hf a (List.mem_cons_of_mem _ ha)) st' h').iff (by simp)

theorem Exact.vecSet (v : List α) (i : UInt64) (x : α) : Exact (vecSet v i x) (fun l => l = v.set i.toNat x) (i.toNat < v.length) := by
  unfold MshIO.vecSet
  split
  · exact Or.inl ⟨‹_›, _, rfl, rfl⟩
  · exact Or.inr ⟨‹_›, rfl⟩

/-! ## What has been read before the post-processing -/

/-- A one-element block, as the version 2.2 readers make them. -/
structure ElementBlock.Raw (b : ElementBlock) : Prop where
  one : b.numElementsInBlock = 1
  nodes : ∃ n, mshNodes b.elementType = some n ∧ b.data.length = n + 1
  dim : 0 ≤ b.entityDim.toInt

/-- A node block, as the version 2.2 readers make them. -/
structure NodeBlock.Raw (b : NodeBlock) : Prop where
  tags : b.tags.length = b.numNodesInBlock.toNat
  data : b.data.length = 3 * b.numNodesInBlock.toNat
  small : b.numNodesInBlock.toNat < 2 ^ 60

structure Nodes.Raw (n : Nodes) : Prop where
  block : ∀ b ∈ n.entityBlocks, b.Raw
  range : ∀ b ∈ n.entityBlocks, ∀ t ∈ b.tags, n.minNodeTag.toNat ≤ t.toNat ∧ t.toNat ≤ n.maxNodeTag.toNat

def Elements.Raw (e : Elements) : Prop := ∀ b ∈ e.entityBlocks, b.Raw

theorem table_size (s : MshSpec) : s.tableSize = (s.nodes.maxNodeTag - s.nodes.minNodeTag + 1).toNat := by
  have h1 := s.nodes.maxNodeTag.toNat_lt
  have h2 := s.nodes.minNodeTag.toNat_lt
  unfold MshSpec.tableSize
  rw [UInt64.toNat_add, UInt64.toNat_sub, show (1 : UInt64).toNat = 1 from rfl]
  omega

theorem table_index (s : MshSpec) (t : UInt64) : s.tableIndex t = (t - s.nodes.minNodeTag).toNat := by
  have h1 := t.toNat_lt
  have h2 := s.nodes.minNodeTag.toNat_lt
  unfold MshSpec.tableIndex
  rw [UInt64.toNat_sub]
  omega

/-- The tables: of the given length, and no dimension is `INVALID`. -/
def Tables (L : Nat) (st : List UInt64 × List UInt64) : Prop :=
  st.1.length = L ∧ st.2.length = L ∧ ∀ d ∈ st.1, d ≠ sizeMax

theorem dim_valid {d : Int32} (h : 0 ≤ d.toInt) : sizeOfInt d ≠ sizeMax := by
  intro e
  have h1 := toNat_sizeOfInt d
  rw [e, if_neg (by omega)] at h1
  have h2 : sizeMax.toNat = 2 ^ 64 - 1 := rfl
  have := d.toInt_lt
  omega

theorem markBlock_exact {L : Nat} (lo : UInt64) {b : ElementBlock} (hb : b.Raw) {st : List UInt64 × List UInt64} (hst : Tables L st) :
    Exact (markBlock lo b st) (Tables L) (∀ t ∈ b.data.tail, (t - lo).toNat < L) := by
  obtain ⟨h1, ⟨n, hn, hl⟩, hd⟩ := hb
  obtain ⟨hn', h56, -⟩ := nodesPerElement_of_mshNodes hn
  have en : (UInt64.ofNat n).toNat = n := by rw [UInt64.toNat_ofNat', Nat.mod_eq_of_lt (by omega)]
  unfold markBlock
  rw [hn', okBind, h1, en]
  obtain ⟨x, ds, hds⟩ : ∃ x ds, b.data = x :: ds := by
    cases e : b.data with
    | nil => rw [e] at hl; simp at hl
    | cons x ds => exact ⟨x, ds, rfl⟩
  have hlen : ds.length = n := by rw [hds] at hl; simpa using hl
  show Exact (loopO _ 1 0 st) _ _
  refine (Exact.loopO (P := Tables L) (A := fun _ => ∀ j, 0 ≤ j → j < 0 + n → ∀ h : j < ds.length, (ds[j] - lo).toNat < L) 1 0 st hst
    fun i st _ hi hst => ?_).iff ?_
  · have hi0 : i = 0 := by omega
    subst hi0
    refine Exact.loopO (P := Tables L) (A := fun j => ∀ h : j < ds.length, (ds[j] - lo).toNat < L) n 0 st hst fun j st _ hj hst => ?_
    have ei : (UInt64.ofNat 0 * (UInt64.ofNat n + 1) + UInt64.ofNat j + 1).toNat = j + 1 := by
      have ej : (UInt64.ofNat j).toNat = j := by rw [UInt64.toNat_ofNat', Nat.mod_eq_of_lt (by omega)]
      rw [UInt64.toNat_add, UInt64.toNat_add, UInt64.toNat_mul, ej, show (UInt64.ofNat 0).toNat = 0 from rfl, show (1 : UInt64).toNat = 1 from rfl]
      simp
      omega
    have hg : vecGet b.data (UInt64.ofNat 0 * (UInt64.ofNat n + 1) + UInt64.ofNat j + 1) = .ok (ds[j]'(by omega)) := by
      unfold vecGet
      rw [ei, hds, List.getElem?_cons_succ, List.getElem?_eq_getElem (by omega)]
    rw [hg, okBind]
    have t1 := hst.1
    have t2 := hst.2.1
    have t3 := hst.2.2
    refine (Exact.bind (Exact.vecSet st.1 _ _) fun dims hdims => Exact.bind (Exact.vecSet st.2 _ _) fun tags htags =>
      Exact.ok (Q := Tables L) ⟨?_, ?_, ?_⟩).iff ?_
    · rw [hdims, List.length_set, t1]
    · rw [htags, List.length_set, t2]
    · intro d hd'
      rw [hdims] at hd'
      rcases List.mem_or_eq_of_mem_set hd' with h | rfl
      · exact t3 d h
      · exact dim_valid hd
    · rw [t1, t2]
      exact ⟨fun h _ => h.1, fun h => ⟨h (by omega), h (by omega), trivial⟩⟩
  · rw [hds, List.tail_cons]
    constructor
    · intro h t ht
      obtain ⟨j, hj, rfl⟩ := List.mem_iff_getElem.mp ht
      exact h 0 (by omega) (by decide) j (by omega) (by omega) hj
    · intro h _ _ _ j _ _ hj
      exact h _ (List.getElem_mem hj)

/-- The node loop has opened a block, or will do so at the next node. -/
def Regroup.Ready (st : Regroup) : Prop := st.blocks ≠ [] ∨ st.dim = sizeMax

theorem regroupNode_safe (cfg : Cfg) {lo : UInt64} {L : Nat} {dims tags : List UInt64} (ht : Tables L (dims, tags)) {b : NodeBlock} (hb : b.Raw)
    (hin : ∀ t ∈ b.tags, (t - lo).toNat < L) {i : Nat} (hi : i < b.numNodesInBlock.toNat) {st : Regroup} (hst : st.Ready) :
    OSafe (regroupNode cfg lo dims tags b i st) Regroup.Ready := by
  obtain ⟨t1, t2, t3⟩ := ht
  obtain ⟨h1, h2, h3⟩ := hb
  have ei : (UInt64.ofNat i).toNat = i := by rw [UInt64.toNat_ofNat', Nat.mod_eq_of_lt (by omega)]
  have e3 : ∀ k : UInt64, k.toNat < 3 → (UInt64.ofNat i * 3 + k).toNat < b.data.length := by
    intro k hk
    rw [UInt64.toNat_add, UInt64.toNat_mul, ei, show (3 : UInt64).toNat = 3 from rfl]
    omega
  unfold regroupNode
  refine OSafe.bind (OSafe.vecGet (by rw [ei, h1]; exact hi)) fun t ht => OSafe.bind (OSafe.vecGet (by rw [t1]; exact hin t ht)) fun dim hdim =>
    OSafe.skip ((OSafe.vecGet (by rw [t2]; exact hin t ht)).mono fun _ _ => trivial) fun tag => ?_
  have tail : ∀ st' : Regroup, st'.blocks ≠ [] → OSafe (if cfg.asserts && st'.blocks.isEmpty then .abort
      else do
        let blocks ← vecModifyBack st'.blocks (fun c => do
          let ts ← vecPush cfg c.tags t
          let d ← vecPush cfg c.data (← vecGet b.data (UInt64.ofNat i * 3))
          let d ← vecPush cfg d (← vecGet b.data (UInt64.ofNat i * 3 + 1))
          let d ← vecPush cfg d (← vecGet b.data (UInt64.ofNat i * 3 + 2))
          return { c with tags := ts, data := d })
        return { st' with blocks }) Regroup.Ready := by
    intro st' hst'
    refine OSafe.ite (fun _ => OSafe.abort) fun _ => OSafe.bind (OSafe.vecModifyBack hst' fun c => ?_) fun bs hbs => OSafe.pure (Or.inl hbs)
    exact OSafe.bind (OSafe.vecPush cfg _ _) fun _ _ => OSafe.bind (OSafe.vecGet (by have := e3 0 (by decide); simpa using this)) fun _ _ =>
      OSafe.bind (OSafe.vecPush cfg _ _) fun _ _ => OSafe.bind (OSafe.vecGet (e3 1 (by decide))) fun _ _ =>
      OSafe.bind (OSafe.vecPush cfg _ _) fun _ _ => OSafe.bind (OSafe.vecGet (e3 2 (by decide))) fun _ _ =>
      OSafe.bind (OSafe.vecPush cfg _ _) fun _ _ => OSafe.pure trivial
  refine OSafe.ite (fun _ => OSafe.skip (OSafe.vecReserve cfg _) fun _ => OSafe.skip (OSafe.vecReserve cfg _) fun _ =>
    OSafe.bind (OSafe.vecPush cfg _ _) fun bs hbs => tail _ ?_) fun hc => tail _ ?_
  · show bs ≠ []
    rw [hbs]; simp
  · rcases hst with h | h
    · exact h
    · refine absurd ?_ hc
      left
      rw [h]
      exact t3 dim hdim

/-- Without a table the first node is undefined. -/
theorem regroupNode_empty (cfg : Cfg) (lo : UInt64) (tags : List UInt64) {b : NodeBlock} (hb : b.Raw) {i : Nat} (hi : i < b.numNodesInBlock.toNat)
    (st : Regroup) : regroupNode cfg lo [] tags b i st = .ub := by
  obtain ⟨h1, h2, h3⟩ := hb
  have ei : (UInt64.ofNat i).toNat = i := by rw [UInt64.toNat_ofNat', Nat.mod_eq_of_lt (by omega)]
  unfold regroupNode
  have hg : vecGet b.tags (UInt64.ofNat i) = .ok (b.tags[i]'(by omega)) := by
    unfold vecGet
    rw [ei, List.getElem?_eq_getElem (by omega)]
  simp only [hg, okBind]
  rfl

theorem regroupElement_safe (cfg : Cfg) {b : ElementBlock} (hb : b.Raw) {st : RegroupE} (hst : st.blocks ≠ [] ∨ st.type = 0) :
    OSafe (regroupElement cfg b st) fun st => st.blocks ≠ [] ∨ st.type = 0 := by
  obtain ⟨_, ⟨n, hn, _⟩, _⟩ := hb
  have hty : sizeOfInt b.elementType ≠ 0 := by
    intro e
    have : b.elementType = 0 := sizeOfInt_inj (e.trans (by decide))
    rw [this] at hn
    cases hn
  unfold regroupElement
  have tail : ∀ st' : RegroupE, st'.blocks ≠ [] → OSafe (do
      let blocks ← vecModifyBack st'.blocks (fun c =>
        if c.data.length + b.data.length ≤ cfg.maxCount then
          .ok { c with numElementsInBlock := c.numElementsInBlock + b.numElementsInBlock
                       data := c.data ++ b.data }
        else .throw .alloc)
      return { st' with blocks }) fun st : RegroupE => st.blocks ≠ [] ∨ st.type = 0 := by
    intro st' hst'
    exact OSafe.bind (OSafe.vecModifyBack hst' fun c => OSafe.ite (fun _ => OSafe.ok trivial) fun _ => OSafe.throw) fun bs hbs => OSafe.pure (Or.inl hbs)
  refine OSafe.ite (fun _ => OSafe.bind (OSafe.vecPush cfg _ _) fun bs hbs => tail _ ?_) fun hc => tail _ ?_
  · show bs ≠ []
    rw [hbs]; simp
  · rcases hst with h | h
    · exact h
    · refine absurd ?_ hc
      right; right
      rw [h]
      exact hty

theorem regroupElements_safe (cfg : Cfg) {e : Elements} (he : e.Raw) : OSafe (regroupElements cfg e) fun _ => True := by
  unfold regroupElements
  exact OSafe.skip (OSafe.vecReserve cfg _) fun _ => OSafe.bind
    (OSafe.foldO (P := fun st : RegroupE => st.blocks ≠ [] ∨ st.type = 0) _ (fun b hb st hst => regroupElement_safe cfg (he b hb) hst) _ (Or.inr rfl))
    fun _ _ => OSafe.pure trivial

theorem nodes_fold_empty (cfg : Cfg) (lo : UInt64) (tags : List UInt64) : ∀ (bs : List NodeBlock) (st : Regroup), (∀ b ∈ bs, b.Raw) →
    (∃ b ∈ bs, b.tags ≠ []) → foldO (fun b st => loopO (regroupNode cfg lo [] tags b) b.numNodesInBlock.toNat 0 st) bs st = .ub := by
  intro bs
  induction bs with
  | nil => rintro st _ ⟨b, hb, _⟩; cases hb
  | cons b bs ih =>
    intro st hraw hex
    unfold foldO
    cases hk : b.numNodesInBlock.toNat with
    | zero =>
      have hbt : b.tags = [] := List.length_eq_zero_iff.mp ((hraw b List.mem_cons_self).tags.trans hk)
      obtain ⟨c, hc, hct⟩ := hex
      rcases List.mem_cons.mp hc with rfl | hc
      · exact absurd hbt hct
      · exact ih st (fun c hc => hraw c (List.mem_cons_of_mem _ hc)) ⟨c, hc, hct⟩
    | succ k =>
      unfold loopO
      rw [regroupNode_empty cfg lo tags (hraw b List.mem_cons_self) (by omega)]
      rfl

/-- The post-processing of a version 2.2 file is undefined exactly if it looks up a tag outside its table. -/
theorem loadPostProcess_ub_iff (cfg : Cfg) {s : MshSpec} (hv : s.meshFormat.version = b! "2.2") (hn : s.nodes.Raw) (he : s.elements.Raw) :
    loadPostProcess cfg s = .ub ↔ s.tableSize ≤ cfg.maxCount ∧ ∃ t, s.LooksUp t ∧ s.tableSize ≤ s.tableIndex t := by
  unfold loadPostProcess
  rw [if_pos hv]
  set size := s.nodes.maxNodeTag - s.nodes.minNodeTag + 1 with hsize
  have hts : s.tableSize = size.toNat := table_size s
  by_cases hmax : size.toNat ≤ cfg.maxCount
  case neg =>
    constructor
    · intro h
      exfalso
      unfold regroupNodes at h
      rw [← hsize] at h
      have : vecResize cfg ([] : List UInt64) size 0 = .throw .alloc := by unfold vecResize; rw [if_neg hmax]
      simp only [this] at h
      cases h
    · rintro ⟨h, _⟩
      omega
  have hr : vecResize cfg ([] : List UInt64) size 0 = .ok (List.replicate size.toNat 0) := by
    unfold vecResize; rw [if_pos hmax]; simp
  have hmark := Exact.foldO (f := markBlock s.nodes.minNodeTag) (P := Tables size.toNat)
    (A := fun b => ∀ t ∈ b.data.tail, (t - s.nodes.minNodeTag).toNat < size.toNat) s.elements.entityBlocks
    (fun b hb st hst => markBlock_exact _ (he b hb) hst) (List.replicate size.toNat 0, List.replicate size.toNat 0)
    ⟨by simp, by simp, fun d hd => by rw [List.eq_of_mem_replicate hd]; decide⟩
  rcases hmark with ⟨hA, st, hst, hT⟩ | ⟨hA, hub⟩
  · obtain ⟨dims, tags⟩ := st
    by_cases hin : ∀ b ∈ s.nodes.entityBlocks, ∀ t ∈ b.tags, (t - s.nodes.minNodeTag).toNat < size.toNat
    · constructor
      · intro h
        exfalso
        refine (OSafe.bind (P := fun _ => True) (Q := fun _ => True) ?_ fun n _ => OSafe.bind (regroupElements_safe cfg he) fun e _ => OSafe.pure trivial).1 h
        unfold regroupNodes
        rw [← hsize]
        simp only [hr, okBind, hst]
        refine OSafe.bind (OSafe.foldO (P := Regroup.Ready) _ (fun b hb st hst => OSafe.loopO _ _ _ hst fun j st _ hj hst =>
          regroupNode_safe cfg hT (hn.block b hb) (hin b hb) (by omega) hst) _ (Or.inr rfl)) fun _ _ => OSafe.pure trivial
      · rintro ⟨_, t, ⟨b, hb, ht⟩ | ⟨b, hb, ht⟩, h⟩
        · have := hin b hb t ht
          rw [table_index] at h
          omega
        · have := hA b hb t ht
          rw [table_index] at h
          omega
    · push Not at hin
      obtain ⟨b, hb, t, ht, hout⟩ := hin
      have hrange := hn.range b hb t ht
      have h0 : size.toNat = 0 := by
        have e1 : size.toNat = ((s.nodes.maxNodeTag.toNat : Int) - s.nodes.minNodeTag.toNat + 1) % 2 ^ 64 := by rw [← hts]; rfl
        have e2 : (t - s.nodes.minNodeTag).toNat = ((t.toNat : Int) - s.nodes.minNodeTag.toNat) % 2 ^ 64 := by rw [← table_index]; rfl
        have := s.nodes.maxNodeTag.toNat_lt
        omega
      refine iff_of_true ?_ ⟨by omega, t, Or.inl ⟨b, hb, ht⟩, by rw [table_index]; omega⟩
      obtain ⟨l1, l2, _⟩ := hT
      have ed : dims = [] := List.length_eq_zero_iff.mp (l1.trans h0)
      subst ed
      have hx : regroupNodes cfg s.nodes s.elements = .ub := by
        unfold regroupNodes
        rw [← hsize]
        simp only [hr, okBind, hst]
        rw [nodes_fold_empty cfg _ tags _ _ hn.block ⟨b, hb, List.ne_nil_of_mem ht⟩]
        rfl
      rw [hx]
      rfl
  · push Not at hA
    obtain ⟨b, hb, t, ht, hout⟩ := hA
    refine iff_of_true ?_ ⟨by omega, t, Or.inr ⟨b, hb, ht⟩, by rw [table_index]; omega⟩
    have hx : regroupNodes cfg s.nodes s.elements = .ub := by
      unfold regroupNodes
      rw [← hsize]
      simp only [hr, okBind, hub]
      rfl
    rw [hx]
    rfl

end MshIO
