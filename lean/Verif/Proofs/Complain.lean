import Verif.Spec.Complain
import Verif.Props.Validate

/-!
# Helper lemmas for C82
-/

namespace MshIO

theorem Told.fine_iff {a : Told} : a = .fine ↔ a.outcome = .ok () := by cases a <;> simp [Told.outcome]

theorem Told.outcome_andThen (a b : Told) : (a.andThen b).outcome = (a.outcome >>= fun _ => b.outcome) := by
  cases a <;> rfl

theorem tellV_outcome (c : Bool) (m : Bytes) : (tellV c m).outcome = checkV c := by cases c <;> rfl

theorem tellAll_outcome {α : Type} (f : α → Told) (g : α → Unit → Outcome Unit) (l : List α) (h : ∀ a ∈ l, (f a).outcome = g a ()) :
    (tellAll f l).outcome = foldO g l () := by
  induction l with
  | nil => rfl
  | cons a l ih =>
    show ((f a).andThen (tellAll f l)).outcome = (g a () >>= fun st => foldO g l st)
    rw [Told.outcome_andThen, h a (by simp), ih fun a ha => h a (by simp [ha])]

theorem tellAll_loop (f : UInt64 × Nat → Told) (g : Nat → Unit → Outcome Unit) (l : List UInt64) (i : Nat)
    (h : ∀ j t, l[j]? = some t → (f (t, i + j)).outcome = g (i + j) ()) :
    (tellAll f (l.zipIdx i)).outcome = loopO g l.length i () := by
  induction l generalizing i with
  | nil => rfl
  | cons a l ih =>
    show ((f (a, i)).andThen (tellAll f (l.zipIdx (i + 1)))).outcome = (g i () >>= fun st => loopO g l.length (i + 1) st)
    rw [Told.outcome_andThen, show (f (a, i)).outcome = g i () from h 0 a rfl, ih (i + 1) fun j t ht => by
      have := h (j + 1) t (by simpa using ht)
      rwa [show i + (j + 1) = i + 1 + j by omega] at this]

theorem tellTags_outcome (lo hi : UInt64) (l : List UInt64) : (tellTags lo hi l).outcome = validateTags lo hi l := by
  refine tellAll_outcome _ _ l fun t _ => ?_
  rw [Told.outcome_andThen, tellV_outcome, tellV_outcome]

theorem tellNodeBlock_outcome (n : Nodes) (b : NodeBlock) : (tellNodeBlock n b).outcome = validateNodeBlock n b := by
  unfold tellNodeBlock validateNodeBlock
  rw [Told.outcome_andThen, Told.outcome_andThen, tellV_outcome, tellTags_outcome]
  congr 1; funext _; congr 1; funext _
  split
  · split
    · rfl
    · exact tellV_outcome _ _
  · exact tellV_outcome _ _

theorem tellEntry_outcome (n : Nodes) (e : Elements) (per : UInt64) (b : ElementBlock) (hd : b.data.length < 2 ^ 64) (j : Nat) (t : UInt64)
    (h : b.data[j]? = some t) : (tellEntry n e per (t, j)).outcome = validateElementEntry n e per b j := by
  have hj := (List.getElem?_eq_some_iff.mp h).1
  have hju : (UInt64.ofNat j).toNat = j := ofNat_toNat_lt (by omega)
  unfold validateElementEntry
  rw [Outcome.bind_ok _ (show vecGet b.data (UInt64.ofNat j) = .ok t by unfold vecGet; rw [hju, h])]
  unfold tellEntry
  simp only
  split <;> rw [Told.outcome_andThen, tellV_outcome, tellV_outcome]

theorem tellElementBlock_outcome (n : Nodes) (e : Elements) (b : ElementBlock) (hd : b.data.length < 2 ^ 64) :
    (tellElementBlock n e b).outcome = validateElementBlock n e b := by
  unfold tellElementBlock validateElementBlock
  split
  · rfl
  · simp only
    split
    · rfl
    · rw [Told.outcome_andThen, tellV_outcome, tellAll_loop _ (fun j _ => validateElementEntry n e (sizeU b.data / b.numElementsInBlock) b j) b.data 0 fun j t h => by
        rw [Nat.zero_add]; exact tellEntry_outcome n e _ b hd j t h]

theorem tellSpec_outcome (s : MshSpec) (hr : s.Real) : (tellSpec s).outcome = validateSpec s := by
  unfold tellSpec validateSpec
  simp only [Told.outcome_andThen, tellV_outcome]
  rw [tellAll_outcome _ (fun b _ => validateNodeBlock s.nodes b) _ fun b _ => tellNodeBlock_outcome s.nodes b,
    tellAll_outcome _ (fun b _ => validateElementBlock s.nodes s.elements b) _ fun b hb =>
      tellElementBlock_outcome s.nodes s.elements b (hr.elementData b hb)]

/-! ## Where a message comes from -/

theorem tellV_fine {c : Bool} {m : Bytes} : tellV c m = .fine ↔ c = true := by cases c <;> simp [tellV]

theorem tellV_corrupt {c : Bool} {m m' : Bytes} : tellV c m = .corrupt m' ↔ ¬ c = true ∧ m' = m := by
  cases c <;> simp [tellV, eq_comm]

theorem andThen_fine {a b : Told} : a.andThen b = .fine ↔ a = .fine ∧ b = .fine := by cases a <;> simp [Told.andThen]

theorem andThen_corrupt {a b : Told} {m : Bytes} : a.andThen b = .corrupt m ↔ a = .corrupt m ∨ a = .fine ∧ b = .corrupt m := by
  cases a <;> simp [Told.andThen]

theorem tellAll_corrupt {α : Type} {f : α → Told} {l : List α} {m : Bytes} :
    tellAll f l = .corrupt m ↔ ∃ pre b post, l = pre ++ b :: post ∧ (∀ a ∈ pre, f a = .fine) ∧ f b = .corrupt m := by
  induction l with
  | nil => simp [tellAll]
  | cons a l ih =>
    show (f a).andThen (tellAll f l) = _ ↔ _
    rw [andThen_corrupt, ih]
    constructor
    · rintro (hb | ⟨hv, pre, b, post, e, h1, h2⟩)
      · exact ⟨[], a, l, rfl, by simp, hb⟩
      · refine ⟨a :: pre, b, post, by simp [e], ?_, h2⟩
        intro x hx
        rcases List.mem_cons.mp hx with rfl | hx
        · exact hv
        · exact h1 x hx
    · rintro ⟨pre, b, post, e, h1, h2⟩
      cases pre with
      | nil => simp only [List.nil_append, List.cons.injEq] at e; rw [e.1]; exact Or.inl h2
      | cons c pre =>
        simp only [List.cons_append, List.cons.injEq] at e
        exact Or.inr ⟨by rw [e.1]; exact h1 c (by simp), pre, b, post, e.2, fun x hx => h1 x (by simp [hx]), h2⟩

theorem tellAll_fine {α : Type} {f : α → Told} {l : List α} : tellAll f l = .fine ↔ ∀ a ∈ l, f a = .fine := by
  induction l with
  | nil => simp [tellAll]
  | cons a l ih =>
    show (f a).andThen (tellAll f l) = _ ↔ _
    rw [andThen_fine, ih]; simp

theorem tellZip_corrupt {f : UInt64 × Nat → Told} {l : List UInt64} {m : Bytes} :
    tellAll f l.zipIdx = .corrupt m ↔
      ∃ j t, l[j]? = some t ∧ (∀ i a, i < j → l[i]? = some a → f (a, i) = .fine) ∧ f (t, j) = .corrupt m := by
  rw [tellAll_corrupt]
  constructor
  · rintro ⟨pre, ⟨t, j⟩, post, e, h1, h2⟩
    have hg : l.zipIdx[pre.length]? = some (t, j) := by rw [e]; simp
    rw [List.getElem?_zipIdx] at hg
    cases hl : l[pre.length]? with
    | none => rw [hl] at hg; cases hg
    | some u =>
      rw [hl] at hg
      simp only [Option.map_some, Nat.zero_add, Option.some.injEq, Prod.mk.injEq] at hg
      obtain ⟨rfl, rfl⟩ := hg
      refine ⟨_, _, hl, fun i a hi ha => h1 _ ?_, h2⟩
      have : l.zipIdx[i]? = some (a, i) := by rw [List.getElem?_zipIdx, ha]; simp
      rw [e, List.getElem?_append_left hi] at this
      exact List.mem_of_getElem? this
  · rintro ⟨j, t, ht, h1, h2⟩
    have hj := (List.getElem?_eq_some_iff.mp ht).1
    have hz : l.zipIdx[j]? = some (t, j) := by rw [List.getElem?_zipIdx, ht]; simp
    obtain ⟨hjz, hjt⟩ := List.getElem?_eq_some_iff.mp hz
    refine ⟨l.zipIdx.take j, (t, j), l.zipIdx.drop (j + 1), ?_, ?_, h2⟩
    · rw [← hjt, ← List.drop_eq_getElem_cons hjz, List.take_append_drop]
    · rintro ⟨a, i⟩ hm
      obtain ⟨i', hi', he⟩ := List.mem_iff_getElem.mp hm
      rw [List.getElem_take, List.getElem_zipIdx] at he
      simp only [Nat.zero_add, Prod.mk.injEq] at he
      have hlt : i' < j := by simpa using (List.length_take_le _ _).trans_lt' hi'
      obtain ⟨he, rfl⟩ := he
      exact h1 _ _ hlt (by rw [← he]; exact List.getElem?_eq_getElem _)

/-! ## The messages -/

theorem tellNodeBlock_fine (n : Nodes) (b : NodeBlock) (ht : b.tags.length < 2 ^ 64) (hd : b.data.length < 2 ^ 64) :
    tellNodeBlock n b = .fine ↔ b.Valid n.minNodeTag n.maxNodeTag := by
  rw [Told.fine_iff, tellNodeBlock_outcome]; exact (checks_nodeBlock n b ht hd).ok

theorem tellElementBlock_fine (n : Nodes) (e : Elements) (b : ElementBlock) (hd : b.data.length < 2 ^ 64) :
    tellElementBlock n e b = .fine ↔ b.Valid n e := by
  rw [Told.fine_iff, tellElementBlock_outcome n e b hd]; exact (checks_elementBlock n e b hd).ok

theorem tellTags_fine (lo hi : UInt64) (l : List UInt64) : tellTags lo hi l = .fine ↔ ∀ t ∈ l, lo ≤ t ∧ t ≤ hi := by
  unfold tellTags
  rw [tellAll_fine]
  simp only [andThen_fine, tellV_fine, decide_eq_true_eq]

theorem tellNodeBlock_corrupt (n : Nodes) (b : NodeBlock) (ht : b.tags.length < 2 ^ 64) (hd : b.data.length < 2 ^ 64) (m : Bytes) :
    tellNodeBlock n b = .corrupt m ↔ b.Complaint n.minNodeTag n.maxNodeTag m := by
  have hp : (0 < b.parametric) ↔ 0 < b.parametric.toInt := by rw [Int32.lt_iff_toInt_lt]; rfl
  have h3 : ∀ ho : ¬ 2 ^ 31 ≤ 3 + b.entityDim.toInt, (sizeU b.data == b.numNodesInBlock * sizeOfInt (3 + b.entityDim)) = true ↔
      ((b.numNodesInBlock.toNat : Int) * (3 + b.entityDim.toInt) - b.data.length) % 2 ^ 64 = 0 := by
    intro ho
    have hsum : (3 + b.entityDim).toInt = 3 + b.entityDim.toInt := by
      rw [Int32.toInt_add]
      have h1 := b.entityDim.le_toInt
      have h3 : (3 : Int32).toInt = 3 := by decide
      rw [h3]
      exact Int.bmod_eq_of_le (by omega) (by omega)
    rw [sizeU_beq' hd, mul_wrap hd, hsum]
  have h4 : (sizeU b.data == b.numNodesInBlock * 3) = true ↔ ((b.numNodesInBlock.toNat : Int) * 3 - b.data.length) % 2 ^ 64 = 0 := by
    have := mul_wrap (a := b.numNodesInBlock) (z := 3) hd
    rw [show sizeOfInt 3 = 3 from rfl, show (3 : Int32).toInt = 3 by decide] at this
    rw [sizeU_beq' hd, this]
  unfold tellNodeBlock
  rw [andThen_corrupt, andThen_corrupt, tellV_corrupt, tellV_fine, tellTags_fine, sizeU_beq' ht]
  unfold tellTags
  rw [tellAll_corrupt]
  simp only [andThen_fine, andThen_corrupt, tellV_fine, tellV_corrupt, decide_eq_true_eq, UInt64.not_le]
  constructor
  · rintro (⟨h, rfl⟩ | ⟨hc, ⟨pre, t, post, e, hpre, h⟩ | ⟨hv, h⟩⟩)
    · exact .count h
    · rcases h with ⟨h, rfl⟩ | ⟨h1, h, rfl⟩
      · exact .below pre t post hc e hpre h
      · exact .above pre t post hc e hpre h1 h
    · split at h
      · rename_i hpp
        split at h
        · cases h
        · rename_i ho
          obtain ⟨hne, rfl⟩ := tellV_corrupt.mp h
          exact .parametric ⟨hc, hv⟩ (fun h => ho h.2) (hp.mp hpp) fun h' => hne ((h3 ho).mpr h')
      · rename_i hpp
        obtain ⟨hne, rfl⟩ := tellV_corrupt.mp h
        exact .plain ⟨hc, hv⟩ (by rw [hp] at hpp; omega) fun h' => hne (h4.mpr h')
  · intro h
    cases h with
    | count h => exact Or.inl ⟨h, rfl⟩
    | below pre t post hc e hpre h => exact Or.inr ⟨hc, Or.inl ⟨pre, t, post, e, hpre, Or.inl ⟨h, rfl⟩⟩⟩
    | above pre t post hc e hpre h1 h => exact Or.inr ⟨hc, Or.inl ⟨pre, t, post, e, hpre, Or.inr ⟨h1, h, rfl⟩⟩⟩
    | parametric hv ho hpp h =>
      refine Or.inr ⟨hv.1, Or.inr ⟨hv.2, ?_⟩⟩
      have ho' : ¬ 2 ^ 31 ≤ 3 + b.entityDim.toInt := fun h => ho ⟨hpp, h⟩
      rw [if_pos (hp.mpr hpp), if_neg ho', tellV_corrupt, h3 ho']
      exact ⟨h, rfl⟩
    | plain hv hpp h =>
      refine Or.inr ⟨hv.1, Or.inr ⟨hv.2, ?_⟩⟩
      rw [if_neg (by rw [hp]; omega), tellV_corrupt, h4]
      exact ⟨h, rfl⟩

theorem tellElementBlock_corrupt (n : Nodes) (e : Elements) (b : ElementBlock) (hd : b.data.length < 2 ^ 64) (m : Bytes) :
    tellElementBlock n e b = .corrupt m ↔ b.Complaint n e m := by
  have hl := sizeU_toNat hd
  by_cases hz : b.DividesByZero
  · have hub : tellElementBlock n e b = .ub := by
      have h1 := (checks_elementBlock n e b hd).ub.mpr hz
      rw [← tellElementBlock_outcome n e b hd] at h1
      cases h2 : tellElementBlock n e b <;> rw [h2] at h1 <;> first | rfl | cases h1
    rw [hub]
    constructor
    · intro h; cases h
    · intro h; cases h <;> contradiction
  have h0 : b.numElementsInBlock ≠ 0 := fun h => hz (Or.inr h)
  have hpos : 0 < b.numElementsInBlock.toNat := by
    rcases Nat.eq_zero_or_pos b.numElementsInBlock.toNat with h | h
    · exact absurd (UInt64.toNat_inj.mp h) h0
    · exact h
  have hle : b.numElementsInBlock.toNat ≤ b.data.length := by
    by_contra h; exact hz (Or.inl (by omega))
  have hper : (sizeU b.data / b.numElementsInBlock).toNat = b.data.length / b.numElementsInBlock.toNat := by
    rw [UInt64.toNat_div, hl]
  have hne : sizeU b.data / b.numElementsInBlock ≠ 0 := by
    intro h
    rw [h] at hper
    have := Nat.div_pos hle hpos
    rw [← hper] at this
    exact absurd this (by decide)
  have hs : (sizeU b.data % (sizeU b.data / b.numElementsInBlock) == 0) = true ↔
      b.data.length % (b.data.length / b.numElementsInBlock.toNat) = 0 := by
    rw [beq_iff_eq, ← UInt64.toNat_inj, UInt64.toNat_mod, hper, hl]; rfl
  have hmod : ∀ j, j < b.data.length → ((UInt64.ofNat j % (sizeU b.data / b.numElementsInBlock) = 0) ↔
      j % (b.data.length / b.numElementsInBlock.toNat) = 0) := by
    intro j hj
    rw [← UInt64.toNat_inj, UInt64.toNat_mod, hper, ofNat_toNat_lt (by omega)]; rfl
  generalize hk : b.data.length / b.numElementsInBlock.toNat = k at *
  have hentry : ∀ j t, b.data[j]? = some t → (tellEntry n e (sizeU b.data / b.numElementsInBlock) (t, j) = .fine ↔ EntryValid n e k j t) := by
    intro j t ht
    unfold tellEntry EntryValid
    simp only [hmod j (List.getElem?_eq_some_iff.mp ht).1]
    split <;> simp only [andThen_fine, tellV_fine, decide_eq_true_eq]
  have hbad : ∀ j t, b.data[j]? = some t →
      (tellEntry n e (sizeU b.data / b.numElementsInBlock) (t, j) = .corrupt m ↔ EntryComplaint n e k j t m) := by
    intro j t ht
    unfold tellEntry
    simp only [hmod j (List.getElem?_eq_some_iff.mp ht).1]
    split
    · rename_i hm
      simp only [andThen_corrupt, tellV_fine, tellV_corrupt, decide_eq_true_eq, UInt64.not_le]
      constructor
      · rintro (⟨h, rfl⟩ | ⟨h1, h, rfl⟩)
        · exact .elementBelow hm h
        · exact .elementAbove hm h1 h
      · intro h
        cases h with
        | elementBelow _ h => exact Or.inl ⟨h, rfl⟩
        | elementAbove _ h1 h => exact Or.inr ⟨h1, h, rfl⟩
        | nodeBelow h => exact absurd hm h
        | nodeAbove h => exact absurd hm h
    · rename_i hm
      simp only [andThen_corrupt, tellV_fine, tellV_corrupt, decide_eq_true_eq, UInt64.not_le]
      constructor
      · rintro (⟨h, rfl⟩ | ⟨h1, h, rfl⟩)
        · exact .nodeBelow hm h
        · exact .nodeAbove hm h1 h
      · intro h
        cases h with
        | elementBelow h => exact absurd h hm
        | elementAbove h => exact absurd h hm
        | nodeBelow _ h => exact Or.inl ⟨h, rfl⟩
        | nodeAbove _ h1 h => exact Or.inr ⟨h1, h, rfl⟩
  unfold tellElementBlock
  rw [if_neg h0]
  simp only
  rw [if_neg hne, andThen_corrupt, tellV_corrupt, tellV_fine, hs, tellZip_corrupt]
  constructor
  · rintro (⟨h, rfl⟩ | ⟨hs, j, t, ht, h1, h2⟩)
    · exact .size hz (by rw [hk]; exact h)
    · exact .entry j t m hz (by rw [hk]; exact hs) ht (fun i a hi ha => by rw [hk]; exact (hentry i a ha).mp (h1 i a hi ha))
        (by rw [hk]; exact (hbad j t ht).mp h2)
  · intro h
    cases h with
    | size _ h => rw [hk] at h; exact Or.inl ⟨h, rfl⟩
    | entry j t _ _ hs ht h1 h2 =>
      rw [hk] at hs h2
      simp only [hk] at h1
      exact Or.inr ⟨hs, j, t, ht, fun i a hi ha => (hentry i a ha).mpr (h1 i a hi ha), (hbad j t ht).mpr h2⟩

theorem tellSpec_corrupt (s : MshSpec) (hr : s.Real) (m : Bytes) : tellSpec s = .corrupt m ↔ s.Complaint m := by
  unfold tellSpec
  simp only [andThen_corrupt, tellV_corrupt, tellV_fine, decide_eq_true_eq, UInt64.not_le]
  rw [sizeU_beq hr.nodeBlocks, sizeU_beq hr.elementBlocks, tellAll_fine, tellAll_corrupt, tellAll_corrupt]
  have hn : ∀ a ∈ s.nodes.entityBlocks, (tellNodeBlock s.nodes a = .fine ↔ a.Valid s.nodes.minNodeTag s.nodes.maxNodeTag) :=
    fun a ha => tellNodeBlock_fine s.nodes a (hr.nodeTags a ha) (hr.nodeData a ha)
  have he : ∀ a ∈ s.elements.entityBlocks, (tellElementBlock s.nodes s.elements a = .fine ↔ a.Valid s.nodes s.elements) :=
    fun a ha => tellElementBlock_fine s.nodes s.elements a (hr.elementData a ha)
  constructor
  · rintro (⟨h, rfl⟩ | ⟨h1, ⟨h, rfl⟩ | ⟨h2, ⟨h, rfl⟩ | ⟨h3, ⟨h, rfl⟩ | ⟨h4, ⟨pre, b, post, e, hpre, h⟩ | ⟨hv, pre, b, post, e, hpre, h⟩⟩⟩⟩⟩)
    · exact .nodeCount h
    · exact .elementCount h1 h
    · exact .nodeRange h1 h2 h
    · exact .elementRange h1 h2 h3 h
    · have hb : b ∈ s.nodes.entityBlocks := by rw [e]; simp
      exact .node pre b post m ⟨h1, h2, h3, h4⟩ e (fun a ha => (hn a (by rw [e]; simp [ha])).mp (hpre a ha))
        ((tellNodeBlock_corrupt s.nodes b (hr.nodeTags b hb) (hr.nodeData b hb) m).mp h)
    · have hb : b ∈ s.elements.entityBlocks := by rw [e]; simp
      exact .element pre b post m ⟨h1, h2, h3, h4⟩ (fun a ha => (hn a ha).mp (hv a ha)) e
        (fun a ha => (he a (by rw [e]; simp [ha])).mp (hpre a ha))
        ((tellElementBlock_corrupt s.nodes s.elements b (hr.elementData b hb) m).mp h)
  · intro h
    cases h with
    | nodeCount h => exact Or.inl ⟨h, rfl⟩
    | elementCount h1 h => exact Or.inr ⟨h1, Or.inl ⟨h, rfl⟩⟩
    | nodeRange h1 h2 h => exact Or.inr ⟨h1, Or.inr ⟨h2, Or.inl ⟨h, rfl⟩⟩⟩
    | elementRange h1 h2 h3 h => exact Or.inr ⟨h1, Or.inr ⟨h2, Or.inr ⟨h3, Or.inl ⟨h, rfl⟩⟩⟩⟩
    | node pre b post _ hc e hpre h =>
      obtain ⟨h1, h2, h3, h4⟩ := hc
      have hb : b ∈ s.nodes.entityBlocks := by rw [e]; simp
      exact Or.inr ⟨h1, Or.inr ⟨h2, Or.inr ⟨h3, Or.inr ⟨h4, Or.inl ⟨pre, b, post, e,
        fun a ha => (hn a (by rw [e]; simp [ha])).mpr (hpre a ha),
        (tellNodeBlock_corrupt s.nodes b (hr.nodeTags b hb) (hr.nodeData b hb) m).mpr h⟩⟩⟩⟩⟩
    | element pre b post _ hc hv e hpre h =>
      obtain ⟨h1, h2, h3, h4⟩ := hc
      have hb : b ∈ s.elements.entityBlocks := by rw [e]; simp
      exact Or.inr ⟨h1, Or.inr ⟨h2, Or.inr ⟨h3, Or.inr ⟨h4, Or.inr ⟨fun a ha => (hn a ha).mpr (hv a ha), pre, b, post, e,
        fun a ha => (he a (by rw [e]; simp [ha])).mpr (hpre a ha),
        (tellElementBlock_corrupt s.nodes s.elements b (hr.elementData b hb) m).mpr h⟩⟩⟩⟩⟩

end MshIO
