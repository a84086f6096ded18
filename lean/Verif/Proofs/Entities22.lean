import Verif.Proofs.Group22
import Verif.Model.LoadElements

/-!
# The entities a version 2.2 `$Elements` section creates
-/

namespace MshIO

theorem mem_setInsert (x y : Int32) (l : List Int32) : y ∈ setInsert x l ↔ y = x ∨ y ∈ l := by
  induction l with
  | nil => simp [setInsert]
  | cons a l ih =>
    unfold setInsert
    split
    · simp
    · split
      · rename_i h; subst h; simp
      · simp only [List.mem_cons, ih]
        tauto

theorem setInsert_sorted {x : Int32} {l : List Int32} (h : l.Pairwise (· < ·)) : (setInsert x l).Pairwise (· < ·) := by
  induction l with
  | nil => simp [setInsert]
  | cons a l ih =>
    rw [List.pairwise_cons] at h
    unfold setInsert
    split
    · rename_i hx
      rw [List.pairwise_cons]
      refine ⟨?_, List.pairwise_cons.mpr h⟩
      intro b hb
      rcases List.mem_cons.mp hb with rfl | hb
      · exact hx
      · exact Int32.lt_trans hx (h.1 b hb)
    · split
      · exact List.pairwise_cons.mpr h
      · rename_i h1 h2
        rw [List.pairwise_cons]
        refine ⟨?_, ih h.2⟩
        intro b hb
        rcases (mem_setInsert x b l).mp hb with e | hb
        · rw [e]
          rw [Int32.lt_iff_toInt_lt] at h1 ⊢
          have : x.toInt ≠ a.toInt := fun e => h2 (Int32.toInt_inj.mp e)
          omega
        · exact h.1 b hb

/-- Membership of (entity, physical tag) pairs. -/
def InMap (m : PhysMap) (k v : Int32) : Prop := ∃ e ∈ m, e.1 = k ∧ v ∈ e.2

/-- Map invariant. -/
structure PhysOk (m : PhysMap) : Prop where
  sorted : m.Pairwise (fun a b => a.1 < b.1)
  tags : ∀ e ∈ m, e.2.Pairwise (· < ·)
  ne : ∀ e ∈ m, e.2 ≠ []

theorem physAdd_keys (k v : Int32) (m : PhysMap) (x : Int32) :
    (∃ e ∈ physAdd k v m, e.1 = x) ↔ x = k ∨ ∃ e ∈ m, e.1 = x := by
  induction m with
  | nil => simp [physAdd, eq_comm]
  | cons p m ih =>
    obtain ⟨k', vs⟩ := p
    unfold physAdd
    split
    · simp [eq_comm]
    · split
      · rename_i h; subst h; simp [eq_comm]
      · simp only [List.mem_cons, exists_eq_or_imp, ih]
        tauto

theorem physAdd_inMap (k v : Int32) (m : PhysMap) (hm : PhysOk m) (x y : Int32) :
    InMap (physAdd k v m) x y ↔ (x = k ∧ y = v) ∨ InMap m x y := by
  induction m with
  | nil => simp [physAdd, InMap, eq_comm]
  | cons p m ih =>
    obtain ⟨k', vs⟩ := p
    have hm' : PhysOk m := ⟨(List.pairwise_cons.mp hm.sorted).2, fun e he => hm.tags e (by simp [he]), fun e he => hm.ne e (by simp [he])⟩
    unfold physAdd
    split
    · simp [InMap, eq_comm]
    · split
      · rename_i h; subst h
        simp only [InMap, List.mem_cons, exists_eq_or_imp, mem_setInsert]
        constructor
        · rintro (⟨rfl, h | h⟩ | h)
          · exact Or.inl ⟨rfl, h⟩
          · exact Or.inr (Or.inl ⟨rfl, h⟩)
          · exact Or.inr (Or.inr h)
        · rintro (⟨rfl, h⟩ | ⟨h1, h⟩ | h)
          · exact Or.inl ⟨rfl, Or.inl h⟩
          · exact Or.inl ⟨h1, Or.inr h⟩
          · exact Or.inr h
      · have := ih hm'
        unfold InMap at this
        simp only [InMap, List.mem_cons, exists_eq_or_imp, this]
        exact or_left_comm

theorem physAdd_ok {k v : Int32} {m : PhysMap} (hm : PhysOk m) : PhysOk (physAdd k v m) := by
  induction m with
  | nil => exact ⟨by simp [physAdd], by simp [physAdd], by simp [physAdd]⟩
  | cons p m ih =>
    obtain ⟨k', vs⟩ := p
    have hs := List.pairwise_cons.mp hm.sorted
    have hm' : PhysOk m := ⟨hs.2, fun e he => hm.tags e (by simp [he]), fun e he => hm.ne e (by simp [he])⟩
    unfold physAdd
    split
    · rename_i hk
      refine ⟨List.pairwise_cons.mpr ⟨?_, hm.sorted⟩, ?_, ?_⟩
      · intro e he
        rcases List.mem_cons.mp he with rfl | he
        · exact hk
        · exact Int32.lt_trans hk (hs.1 e he)
      · intro e he
        rcases List.mem_cons.mp he with rfl | he
        · simp
        · exact hm.tags e he
      · intro e he
        rcases List.mem_cons.mp he with rfl | he
        · simp
        · exact hm.ne e he
    · split
      · refine ⟨List.pairwise_cons.mpr ⟨fun e he => hs.1 e he, hs.2⟩, ?_, ?_⟩
        · intro e he
          rcases List.mem_cons.mp he with rfl | he
          · exact setInsert_sorted (hm.tags (k', vs) (by simp))
          · exact hm'.tags e he
        · intro e he
          rcases List.mem_cons.mp he with rfl | he
          · intro h
            have : v ∈ setInsert v vs := (mem_setInsert v v vs).mpr (Or.inl rfl)
            simp only at h
            rw [h] at this
            cases this
          · exact hm'.ne e he
      · rename_i h1 h2
        have ih := ih hm'
        refine ⟨List.pairwise_cons.mpr ⟨?_, ih.sorted⟩, ?_, ?_⟩
        · intro e he
          rcases (physAdd_keys k v m e.1).mp ⟨e, he, rfl⟩ with h | ⟨e', he', h⟩
          · rw [h]
            show k' < k
            rw [Int32.lt_iff_toInt_lt] at h1 ⊢
            have : k.toInt ≠ k'.toInt := fun e => h2 (Int32.toInt_inj.mp e)
            omega
          · rw [← h]; exact hs.1 e' he'
        · intro e he
          rcases List.mem_cons.mp he with rfl | he
          · exact hm.tags _ (by simp)
          · exact ih.tags e he
        · intro e he
          rcases List.mem_cons.mp he with rfl | he
          · exact hm.ne _ (by simp)
          · exact ih.ne e he

theorem physAdd_length (k v : Int32) (m : PhysMap) : (physAdd k v m).length ≤ m.length + 1 := by
  induction m with
  | nil => simp [physAdd]
  | cons p m ih =>
    obtain ⟨k', vs⟩ := p
    unfold physAdd
    split
    · simp
    · split
      · simp
      · simp only [List.length_cons]; omega

/-- One element's effect on the map of dimension `d`. -/
def physStep (d : Nat) (m : PhysMap) (e : FileElem) : PhysMap :=
  match e.tags with
  | p :: t :: _ => if mshDim e.type = some d then physAdd t p m else m
  | _ => m

/-- The map of dimension `d` after the elements `es`. -/
def physOf (es : List FileElem) (d : Nat) : PhysMap := es.foldl (physStep d) []

theorem physOf_snoc (es : List FileElem) (e : FileElem) (d : Nat) : physOf (es ++ [e]) d = physStep d (physOf es d) e := by
  simp [physOf]

theorem physOf_ok (es : List FileElem) (d : Nat) : PhysOk (physOf es d) := by
  unfold physOf
  have : ∀ m, PhysOk m → PhysOk (es.foldl (physStep d) m) := by
    induction es with
    | nil => intro m h; exact h
    | cons e es ih =>
      intro m h
      refine ih _ ?_
      unfold physStep
      split
      · split
        · exact physAdd_ok h
        · exact h
      · exact h
  exact this [] ⟨by simp, by simp, by simp⟩

theorem physOf_length (es : List FileElem) (d : Nat) : (physOf es d).length ≤ es.length := by
  unfold physOf
  have : ∀ m, (es.foldl (physStep d) m).length ≤ m.length + es.length := by
    induction es with
    | nil => intro m; simp
    | cons e es ih =>
      intro m
      have h := ih (physStep d m e)
      have : (physStep d m e).length ≤ m.length + 1 := by
        unfold physStep
        split
        · split
          · exact physAdd_length _ _ _
          · omega
        · omega
      rw [List.foldl_cons]
      simp only [List.length_cons]
      omega
  simpa using this []

theorem setInsert_length (x : Int32) (l : List Int32) : (setInsert x l).length ≤ l.length + 1 := by
  induction l with
  | nil => simp [setInsert]
  | cons a l ih =>
    unfold setInsert
    split
    · simp
    · split
      · simp
      · simp only [List.length_cons]; omega

theorem physAdd_tags_length {n : Nat} (k v : Int32) (m : PhysMap) (h : ∀ e ∈ m, e.2.length ≤ n) :
    ∀ e ∈ physAdd k v m, e.2.length ≤ n + 1 := by
  induction m with
  | nil => intro e he; simp only [physAdd, List.mem_singleton] at he; rw [he]; simp
  | cons p m ih =>
    obtain ⟨k', vs⟩ := p
    have h0 := h (k', vs) (by simp)
    have h1 : ∀ e ∈ m, e.2.length ≤ n := fun e he => h e (by simp [he])
    unfold physAdd
    intro e he
    split at he
    · rcases List.mem_cons.mp he with rfl | he
      · simp
      · have := h e he; omega
    · split at he
      · rcases List.mem_cons.mp he with rfl | he
        · have := setInsert_length v vs
          simp only at h0 ⊢
          omega
        · have := h1 e he; omega
      · rcases List.mem_cons.mp he with rfl | he
        · simp only at h0 ⊢; omega
        · exact ih h1 e he

theorem physOf_tags_length (es : List FileElem) (d : Nat) : ∀ p ∈ physOf es d, p.2.length ≤ es.length := by
  unfold physOf
  have : ∀ m n, (∀ e ∈ m, e.2.length ≤ n) → ∀ e ∈ es.foldl (physStep d) m, e.2.length ≤ n + es.length := by
    induction es with
    | nil => intro m n h; simpa using h
    | cons e es ih =>
      intro m n h x hx
      have h' := ih (physStep d m e) (n + 1) (by
        unfold physStep
        split
        · split
          · exact physAdd_tags_length _ _ _ h
          · intro e he; have := h e he; omega
        · intro e he; have := h e he; omega) x hx
      simp only [List.length_cons]
      omega
  intro p hp
  have := this [] 0 (by simp) p hp
  omega

theorem physStep_inMap {d : Nat} {m : PhysMap} (hm : PhysOk m) (e : FileElem) (x y : Int32) :
    InMap (physStep d m e) x y ↔ InMap m x y ∨ e.Mentions d x y := by
  unfold physStep FileElem.Mentions
  split
  · rename_i p t more he
    split
    · rename_i hd
      rw [physAdd_inMap _ _ _ hm, he]
      simp only [hd, true_and, List.cons.injEq]
      constructor
      · rintro (⟨rfl, rfl⟩ | h)
        · exact Or.inr ⟨more, rfl, rfl, rfl⟩
        · exact Or.inl h
      · rintro (h | ⟨_, h1, h2, _⟩)
        · exact Or.inr h
        · exact Or.inl ⟨h2.symm, h1.symm⟩
    · rename_i hd
      simp [hd]
  · rename_i hne
    constructor
    · exact Or.inl
    · rintro (h | ⟨_, more, h⟩)
      · exact h
      · exact absurd h (hne _ _ _)

theorem physOf_inMap (es : List FileElem) (d : Nat) (x y : Int32) :
    InMap (physOf es d) x y ↔ ∃ e ∈ es, e.Mentions d x y := by
  unfold physOf
  have : ∀ m, PhysOk m → (InMap (es.foldl (physStep d) m) x y ↔ InMap m x y ∨ ∃ e ∈ es, e.Mentions d x y) := by
    induction es with
    | nil => intro m h; simp
    | cons e es ih =>
      intro m h
      have hk : PhysOk (physStep d m e) := by
        unfold physStep
        split
        · split
          · exact physAdd_ok h
          · exact h
        · exact h
      rw [List.foldl_cons, ih _ hk, physStep_inMap h]
      simp only [List.mem_cons, exists_eq_or_imp]
      tauto
  rw [this [] ⟨by simp, by simp, by simp⟩]
  simp [InMap]

/-- The loader's maps are the entities of the specification. -/
theorem physOf_entitiesAre (es : List FileElem) (d : Nat) : EntitiesAre es d (physOf es d) := by
  have hok := physOf_ok es d
  refine ⟨hok.sorted, hok.tags, ?_, ?_⟩
  · intro t
    constructor
    · rintro ⟨e, he, rfl⟩
      obtain ⟨p, hp⟩ := List.exists_mem_of_ne_nil _ (hok.ne e he)
      obtain ⟨f, hf, h⟩ := (physOf_inMap es d e.1 p).mp ⟨e, he, rfl, hp⟩
      exact ⟨f, hf, p, h⟩
    · rintro ⟨f, hf, p, h⟩
      obtain ⟨e, he, h1, _⟩ := (physOf_inMap es d t p).mpr ⟨f, hf, h⟩
      exact ⟨e, he, h1⟩
  · intro e he p
    rw [← physOf_inMap]
    constructor
    · intro h; exact ⟨e, he, rfl, h⟩
    · rintro ⟨e', he', h1, h2⟩
      have : e' = e := by
        by_contra hne
        have hpw : (physOf es d).Pairwise (fun a b => a.1 ≠ b.1) :=
          hok.sorted.imp fun h => by
            intro e
            rw [e, Int32.lt_iff_toInt_lt] at h
            omega
        have : Std.Symm (fun a b : Int32 × List Int32 => a.1 ≠ b.1) := ⟨fun _ _ h e => h e.symm⟩
        exact hpw.forall he' he hne h1
      rw [this] at h2
      exact h2

theorem createEntities_ok {E : Type} (cfg : Cfg) (mk : Int32 → List Int32 → E) (m : PhysMap) (h : m.length ≤ cfg.maxCount) :
    createEntities cfg mk m [] = .ok (m.map fun p => mk p.1 p.2) := by
  unfold createEntities
  refine Exists.elim (foldO_inv (f := fun (x : Int32 × List Int32) es => match x with | (k, vs) => vecPush cfg es (mk k vs)) m
    (fun pre es => es = pre.map fun p => mk p.1 p.2) ?_ (st := []) rfl) ?_
  · rintro pre a post st e rfl
    refine ⟨_, if_pos ?_, by simp⟩
    rw [List.length_map]
    rw [e, List.length_append, List.length_cons] at h
    omega
  · rintro st ⟨h1, h2⟩
    rw [h1, h2]

/-- The four maps of the loader. -/
def physMaps (es : List FileElem) : List PhysMap := [physOf es 0, physOf es 1, physOf es 2, physOf es 3]

theorem createAllEntities_ok (cfg : Cfg) (es : List FileElem) (h : es.length ≤ cfg.maxCount) :
    createAllEntities cfg (physMaps es) {} = .ok (entitiesFrom (physOf es)) := by
  unfold createAllEntities
  have hl : ∀ d, (physOf es d).length ≤ cfg.maxCount := fun d => Nat.le_trans (physOf_length es d) h
  simp only
  rw [Outcome.bind_ok _ (show vecGet (physMaps es) 0 = .ok (physOf es 0) from rfl),
    Outcome.bind_ok _ (createEntities_ok cfg _ _ (hl 0)),
    Outcome.bind_ok _ (show vecGet (physMaps es) 1 = .ok (physOf es 1) from rfl),
    Outcome.bind_ok _ (createEntities_ok cfg _ _ (hl 1)),
    Outcome.bind_ok _ (show vecGet (physMaps es) 2 = .ok (physOf es 2) from rfl),
    Outcome.bind_ok _ (createEntities_ok cfg _ _ (hl 2)),
    Outcome.bind_ok _ (show vecGet (physMaps es) 3 = .ok (physOf es 3) from rfl),
    Outcome.bind_ok _ (createEntities_ok cfg _ _ (hl 3))]
  rfl

theorem mshDim_of_mshNodes {t : Int32} {n : Nat} (h : mshNodes t = some n) : ∃ d, mshDim t = some d ∧ d ≤ 3 := by
  obtain ⟨h1, h2⟩ := mshNodes_range h
  obtain ⟨d, hd⟩ : ∃ d, mshDim t = some d := by
    unfold mshNodes at h
    unfold mshDim
    cases hr : readmeElement t.toInt with
    | none => rw [hr] at h; simp at h
    | some p => exact ⟨p.1, rfl⟩
  exact ⟨d, hd, (getElementDim_of_mshDim hd).2⟩

/-- One element, once its numbers are read. -/
theorem makeElement22_ok (cfg : Cfg) (pre : List FileElem) (e : FileElem) (ho : e.Ok) (hpre : pre.length < cfg.maxCount)
    (hn : e.nodes.length + 1 ≤ cfg.maxCount) :
    makeElement22 cfg e.num e.type e.tags e.nodes (pre.map fun e => e.elem.block) (physMaps pre) =
      .ok ((pre ++ [e]).map (fun e => e.elem.block), physMaps (pre ++ [e])) := by
  have hlt := cfg.maxCount_lt
  obtain ⟨d, hd, hd3⟩ := mshDim_of_mshNodes ho
  obtain ⟨hgd, _⟩ := getElementDim_of_mshDim hd
  unfold makeElement22
  have h1 : ∀ x : ElementBlock, vecPush cfg (pre.map fun e => e.elem.block) x = .ok (pre.map (fun e => e.elem.block) ++ [x]) :=
    fun x => if_pos (by rw [List.length_map]; exact hpre)
  have h2 : vecResize cfg ([] : List UInt64) (UInt64.ofNat (e.nodes.length + 1)) 0 =
      .ok (([] : List UInt64).take (UInt64.ofNat (e.nodes.length + 1)).toNat ++ List.replicate ((UInt64.ofNat (e.nodes.length + 1)).toNat - 0) 0) :=
    if_pos (by rw [ofNat_toNat_lt (by omega)]; exact hn)
  have hm : physMaps (pre ++ [e]) = (match e.tags with
      | p :: t :: _ => (physMaps pre).set d (physAdd t p (physOf pre d))
      | _ => physMaps pre) := by
    unfold physMaps
    simp only [physOf_snoc, physStep]
    split
    · rename_i p t more he
      rw [hd]
      have : d = 0 ∨ d = 1 ∨ d = 2 ∨ d = 3 := by omega
      rcases this with rfl | rfl | rfl | rfl <;> simp
    · rfl
  have hb : ∀ ent, ent = e.entity → e.elem.block = ({ entityDim := Int32.ofNat d, entityTag := ent, elementType := e.type, numElementsInBlock := 1, data := sizeOfInt e.num :: e.nodes.map sizeOfInt } : ElementBlock) := by
    rintro ent rfl
    simp [FileElem.elem, MeshElem.block, hd]
  simp only
  rw [Outcome.bind_ok _ (h1 _), Outcome.bind_ok _ hgd, hm]
  have hsd : (sizeOfInt (Int32.ofNat d)).toNat = d := by
    have : d = 0 ∨ d = 1 ∨ d = 2 ∨ d = 3 := by omega
    rcases this with rfl | rfl | rfl | rfl <;> rfl
  match htags : e.tags with
  | p :: t :: more =>
    have g1 : vecGet (physMaps pre) (sizeOfInt (Int32.ofNat d)) = .ok (physOf pre d) := by
      have : d = 0 ∨ d = 1 ∨ d = 2 ∨ d = 3 := by omega
      rcases this with rfl | rfl | rfl | rfl <;> rfl
    have g2 : ∀ m, vecSet (physMaps pre) (sizeOfInt (Int32.ofNat d)) m = .ok ((physMaps pre).set d m) := by
      intro m
      unfold vecSet
      rw [hsd, if_pos (by simp [physMaps]; omega)]
    simp only
    rw [Outcome.bind_ok _ g1, Outcome.bind_ok _ (g2 _), Outcome.bind_ok (x := pure _) _ rfl]
    simp only
    rw [Outcome.bind_ok _ h2]
    show Outcome.ok _ = _
    rw [List.map_append, List.map_singleton, hb t (by simp [FileElem.entity, htags])]
  | [t] =>
    simp only
    rw [Outcome.bind_ok (x := pure _) _ rfl]
    simp only
    rw [Outcome.bind_ok _ h2]
    show Outcome.ok _ = _
    rw [List.map_append, List.map_singleton, hb t (by simp [FileElem.entity, htags])]
  | [] =>
    simp only
    rw [Outcome.bind_ok (x := pure _) _ rfl]
    simp only
    rw [Outcome.bind_ok _ h2]
    show Outcome.ok _ = _
    rw [List.map_append, List.map_singleton, hb 1 (by simp [FileElem.entity, htags])]

end MshIO
