import Verif.Model.Validate
import Verif.Proofs.Loaded22
import Verif.Spec.Valid

/-!
# C34: what `validate_spec` accepts

`MshSpec.Valid` and its parts are explained in `Spec/Valid.lean`.
-/

namespace MshIO

/-! ## Helper lemmas -/

/-- `o` accepts exactly when `V`, is undefined exactly when `B`, and otherwise throws `CorruptData`. -/
structure Checks (o : Outcome Unit) (V B : Prop) : Prop where
  ok : o = .ok () ↔ V
  ub : o = .ub ↔ B
  or : o = .ok () ∨ o = .throw .corruptData ∨ o = .ub

theorem Checks.cast {o : Outcome Unit} {V B V' B' : Prop} (h : Checks o V B) (hV : V ↔ V') (hB : B ↔ B') : Checks o V' B' :=
  ⟨h.ok.trans hV, h.ub.trans hB, h.or⟩

theorem checks_checkV {c : Bool} {V : Prop} (h : c = true ↔ V) : Checks (checkV c) V False := by
  unfold checkV
  cases c
  · exact ⟨⟨fun h => (by simp at h), fun hv => absurd (h.mpr hv) (by simp)⟩, by simp, by simp⟩
  · exact ⟨⟨fun _ => h.mp rfl, fun _ => rfl⟩, by simp, by simp⟩

theorem Checks.bind {x : Outcome Unit} {y : Unit → Outcome Unit} {V B V' B' : Prop} (h : Checks x V B) (h' : V → Checks (y ()) V' B') :
    Checks (x >>= y) (V ∧ V') (B ∨ V ∧ B') := by
  rcases h.or with e | e | e
  · have hv := h.ok.mp e
    have hb : ¬ B := fun hb => by rw [h.ub.mpr hb] at e; cases e
    have h'' := h' hv
    rw [Outcome.bind_ok _ e]
    exact ⟨by rw [h''.ok]; simp [hv], by rw [h''.ub]; simp [hv, hb], h''.or⟩
  · have hv : ¬ V := fun hv => by rw [h.ok.mpr hv] at e; cases e
    have hb : ¬ B := fun hb => by rw [h.ub.mpr hb] at e; cases e
    subst e
    exact ⟨⟨fun h => (by cases h), fun h => absurd h.1 hv⟩, ⟨fun h => (by cases h), fun h => by simp [hv, hb] at h⟩, Or.inr (Or.inl rfl)⟩
  · have hv : ¬ V := fun hv => by rw [h.ok.mpr hv] at e; cases e
    have hb : B := h.ub.mp e
    subst e
    exact ⟨⟨fun h => (by cases h), fun h => absurd h.1 hv⟩, ⟨fun _ => Or.inl hb, fun _ => rfl⟩, Or.inr (Or.inr rfl)⟩

theorem checks_foldO {α : Type} {f : α → Unit → Outcome Unit} {V B : α → Prop} (l : List α) (h : ∀ a ∈ l, Checks (f a ()) (V a) (B a)) :
    Checks (foldO f l ()) (∀ a ∈ l, V a) (∃ pre b post, l = pre ++ b :: post ∧ (∀ a ∈ pre, V a) ∧ B b) := by
  induction l with
  | nil => exact ⟨by simp [foldO], by simp [foldO], Or.inl rfl⟩
  | cons a l ih =>
    show Checks (f a () >>= fun st => foldO f l st) _ _
    refine ((h a (by simp)).bind fun _ => ih fun a ha => h a (by simp [ha])).cast (by simp) ?_
    constructor
    · rintro (hb | ⟨hv, pre, b, post, e, h1, h2⟩)
      · exact ⟨[], a, l, rfl, by simp, hb⟩
      · refine ⟨a :: pre, b, post, by simp [e], ?_, h2⟩
        intro x hx
        rcases List.mem_cons.mp hx with rfl | hx
        · exact hv
        · exact h1 x hx
    · rintro ⟨pre, b, post, e, h1, h2⟩
      cases pre with
      | nil => simp only [List.nil_append, List.cons.injEq] at e; rw [e.1]; exact Or.inl h2
      | cons c pre =>
        simp only [List.cons_append, List.cons.injEq] at e
        refine Or.inr ⟨by rw [e.1]; exact h1 c (by simp), pre, b, post, e.2, fun x hx => h1 x (by simp [hx]), h2⟩

theorem checks_loopO {f : Nat → Unit → Outcome Unit} {V : Nat → Prop} (n i : Nat) (h : ∀ j, i ≤ j → j < i + n → Checks (f j ()) (V j) False) :
    Checks (loopO f n i ()) (∀ j, i ≤ j → j < i + n → V j) False := by
  induction n generalizing i with
  | zero => exact ⟨⟨fun _ j h1 h2 => by omega, fun _ => rfl⟩, by simp [loopO], Or.inl rfl⟩
  | succ n ih =>
    show Checks (f i () >>= fun st => loopO f n (i + 1) st) _ _
    refine ((h i (Nat.le_refl _) (by omega)).bind fun _ => ih (i + 1) fun j h1 h2 => h j (by omega) (by omega)).cast ?_ (by simp)
    constructor
    · rintro ⟨h1, h2⟩ j h3 h4
      rcases Nat.eq_or_lt_of_le h3 with rfl | h5
      · exact h1
      · exact h2 j h5 (by omega)
    · intro h
      exact ⟨h i (Nat.le_refl _) (by omega), fun j h1 h2 => h j (by omega) (by omega)⟩

theorem sizeU_beq {α : Type} {v : List α} (hv : v.length < 2 ^ 64) (n : UInt64) : (n == sizeU v) = true ↔ n.toNat = v.length := by
  rw [beq_iff_eq, ← UInt64.toNat_inj, sizeU_toNat hv]

theorem sizeU_beq' {α : Type} {v : List α} (hv : v.length < 2 ^ 64) (n : UInt64) : (sizeU v == n) = true ↔ v.length = n.toNat := by
  rw [beq_iff_eq, ← UInt64.toNat_inj, sizeU_toNat hv]

theorem emod_sub_iff {a b m : Nat} (hb : b < m) : (((a : Int) - b) % m = 0) ↔ a % m = b := by
  rw [← Int.emod_emod_of_dvd (a - b) (dvd_refl (m : Int)), Int.sub_emod]
  constructor
  · intro h
    have h1 : ((a : Int) % m - (b : Int) % m) % m = 0 := by simpa using h
    rw [Int.emod_eq_of_lt (by omega) (by omega : (b : Int) < m)] at h1
    have h2 := Int.emod_nonneg (a : Int) (by omega : (m : Int) ≠ 0)
    have h3 := Int.emod_lt_of_pos (a : Int) (by omega : (0 : Int) < m)
    have h4 : ((a % m : Nat) : Int) = (a : Int) % m := by simp
    rcases Int.emod_emod_of_dvd ((a : Int) % m - b) (dvd_refl (m : Int)) with _
    have h5 : (m : Int) ∣ (a : Int) % m - b := Int.dvd_of_emod_eq_zero h1
    obtain ⟨k, hk⟩ := h5
    have : k = 0 := by
      by_contra hne
      rcases lt_or_gt_of_ne hne with hk' | hk'
      · have : (m : Int) * k ≤ m * (-1) := Int.mul_le_mul_of_nonneg_left (by omega) (by omega)
        omega
      · have : (m : Int) * 1 ≤ m * k := Int.mul_le_mul_of_nonneg_left (by omega) (by omega)
        omega
    subst this
    omega
  · intro h
    have h4 : ((a % m : Nat) : Int) = (a : Int) % m := by simp
    rw [← h4, h, Int.emod_eq_of_lt (by omega) (by omega : (b : Int) < m)]
    simp

theorem mul_wrap {a : UInt64} {z : Int32} {b : Nat} (hb : b < 2 ^ 64) :
    b = (a * sizeOfInt z).toNat ↔ (((a.toNat : Int) * z.toInt - b) % 2 ^ 64 = 0) := by
  rw [UInt64.toNat_mul]
  have hz := toNat_sizeOfInt z
  have key : ((a.toNat : Int) * z.toInt - b) % 2 ^ 64 = (((a.toNat * (sizeOfInt z).toNat : Nat) : Int) - b) % 2 ^ 64 := by
    rw [Nat.cast_mul, hz]
    split
    · rw [Int.mul_add, show (a.toNat : Int) * z.toInt + a.toNat * 2 ^ 64 - b = (a.toNat : Int) * z.toInt - b + a.toNat * 2 ^ 64 by omega,
        Int.add_mul_emod_self_right]
    · rfl
  rw [key]
  have := emod_sub_iff (a := a.toNat * (sizeOfInt z).toNat) hb
  rw [show ((2 ^ 64 : Nat) : Int) = 2 ^ 64 by norm_num] at this
  rw [this]
  exact eq_comm

theorem checks_range (lo hi t : UInt64) :
    Checks (do checkV (decide (lo ≤ t)); checkV (decide (t ≤ hi))) (lo ≤ t ∧ t ≤ hi) False :=
  ((checks_checkV (by simp)).bind fun _ => checks_checkV (V := t ≤ hi) (by simp)).cast Iff.rfl (by simp)

theorem checks_nodeBlock (n : Nodes) (b : NodeBlock) (ht : b.tags.length < 2 ^ 64) (hd : b.data.length < 2 ^ 64) :
    Checks (validateNodeBlock n b) (b.Valid n.minNodeTag n.maxNodeTag) (b.TagsValid n.minNodeTag n.maxNodeTag ∧ b.Overflows) := by
  have h1 : Checks (checkV (sizeU b.tags == b.numNodesInBlock)) (b.tags.length = b.numNodesInBlock.toNat) False :=
    checks_checkV (sizeU_beq' ht _)
  have h2 : Checks (validateTags n.minNodeTag n.maxNodeTag b.tags) (∀ t ∈ b.tags, n.minNodeTag ≤ t ∧ t ≤ n.maxNodeTag) False :=
    (checks_foldO (B := fun _ => False) b.tags fun t _ => checks_range n.minNodeTag n.maxNodeTag t).cast Iff.rfl (by simp)
  have hp : (0 < b.parametric) ↔ 0 < b.parametric.toInt := by rw [Int32.lt_iff_toInt_lt]; rfl
  have h3 : Checks (if 0 < b.parametric then
      if 2 ^ 31 ≤ 3 + b.entityDim.toInt then (.ub : Outcome Unit)
      else checkV (sizeU b.data == b.numNodesInBlock * sizeOfInt (3 + b.entityDim))
      else checkV (sizeU b.data == b.numNodesInBlock * 3))
      (¬ b.Overflows ∧ ((b.numNodesInBlock.toNat : Int) * b.wanted - b.data.length) % 2 ^ 64 = 0) b.Overflows := by
    by_cases hpp : 0 < b.parametric
    · have hq := hp.mp hpp
      rw [if_pos hpp]
      by_cases ho : 2 ^ 31 ≤ 3 + b.entityDim.toInt
      · rw [if_pos ho]
        have : b.Overflows := ⟨hq, ho⟩
        exact ⟨by simp [this], by simp [this], by simp⟩
      · rw [if_neg ho]
        have hno : ¬ b.Overflows := fun h => ho h.2
        refine (checks_checkV (V := b.data.length = (b.numNodesInBlock * sizeOfInt (3 + b.entityDim)).toNat) (sizeU_beq' hd _)).cast ?_ (by simp [hno])
        have hsum : (3 + b.entityDim).toInt = 3 + b.entityDim.toInt := by
          rw [Int32.toInt_add]
          have h1 := b.entityDim.le_toInt
          have h3 : (3 : Int32).toInt = 3 := by decide
          rw [h3]
          exact Int.bmod_eq_of_le (by omega) (by omega)
        rw [mul_wrap hd, hsum]
        unfold NodeBlock.wanted
        rw [if_pos hq]
        simp [hno]
    · have hq := fun h => hpp (hp.mpr h)
      rw [if_neg hpp]
      have hno : ¬ b.Overflows := fun h => hq h.1
      refine (checks_checkV (V := b.data.length = (b.numNodesInBlock * 3).toNat) (sizeU_beq' hd _)).cast ?_ (by simp [hno])
      have := mul_wrap (a := b.numNodesInBlock) (z := 3) hd
      rw [show sizeOfInt 3 = 3 from rfl, show (3 : Int32).toInt = 3 by decide] at this
      rw [this]
      unfold NodeBlock.wanted
      rw [if_neg hq]
      simp [hno]
  refine (h1.bind fun _ => h2.bind fun _ => h3).cast ?_ ?_
  · unfold NodeBlock.Valid NodeBlock.TagsValid; tauto
  · unfold NodeBlock.TagsValid; tauto

theorem checks_elementBlock (n : Nodes) (e : Elements) (b : ElementBlock) (hd : b.data.length < 2 ^ 64) :
    Checks (validateElementBlock n e b) (b.Valid n e) b.DividesByZero := by
  have hl := sizeU_toNat hd
  unfold validateElementBlock
  by_cases h0 : b.numElementsInBlock = 0
  · rw [if_pos h0]
    have : b.DividesByZero := Or.inr h0
    exact ⟨by simp [this, ElementBlock.Valid], by simp [this], by simp⟩
  rw [if_neg h0]
  have hpos : 0 < b.numElementsInBlock.toNat := by
    rcases Nat.eq_zero_or_pos b.numElementsInBlock.toNat with h | h
    · exact absurd (UInt64.toNat_inj.mp h) h0
    · exact h
  have hper : (sizeU b.data / b.numElementsInBlock).toNat = b.data.length / b.numElementsInBlock.toNat := by
    rw [UInt64.toNat_div, hl]
  generalize hk : b.data.length / b.numElementsInBlock.toNat = k at hper
  have hkz : (sizeU b.data / b.numElementsInBlock = 0) ↔ b.data.length < b.numElementsInBlock.toNat := by
    rw [← UInt64.toNat_inj, hper, ← hk]
    exact ⟨fun h => by
      rcases (Nat.div_eq_zero_iff).mp h with h | h
      · omega
      · exact h, fun h => Nat.div_eq_of_lt h⟩
  simp only
  by_cases hz : sizeU b.data / b.numElementsInBlock = 0
  · rw [if_pos hz]
    have : b.DividesByZero := Or.inl (hkz.mp hz)
    exact ⟨by simp [this, ElementBlock.Valid], by simp [this], by simp⟩
  rw [if_neg hz]
  have hnd : ¬ b.DividesByZero := fun h => h.elim (fun h => hz (hkz.mpr h)) h0
  have h1 : Checks (checkV (sizeU b.data % (sizeU b.data / b.numElementsInBlock) == 0)) (b.data.length % k = 0) False := by
    refine checks_checkV ?_
    rw [beq_iff_eq, ← UInt64.toNat_inj, UInt64.toNat_mod, hper, hl]
    rfl
  have h2 : Checks (loopO (fun j _ => validateElementEntry n e (sizeU b.data / b.numElementsInBlock) b j) b.data.length 0 ())
      (∀ j, 0 ≤ j → j < 0 + b.data.length → ∀ t, b.data[j]? = some t →
        if j % k = 0 then e.minElementTag ≤ t ∧ t ≤ e.maxElementTag else n.minNodeTag ≤ t ∧ t ≤ n.maxNodeTag) False := by
    refine checks_loopO _ _ fun j _ hj => ?_
    have hj : j < b.data.length := by omega
    have hju : (UInt64.ofNat j).toNat = j := ofNat_toNat_lt (by omega)
    unfold validateElementEntry
    rw [Outcome.bind_ok _ (show vecGet b.data (UInt64.ofNat j) = .ok b.data[j] by unfold vecGet; rw [hju, List.getElem?_eq_getElem hj])]
    have hmod : (UInt64.ofNat j % (sizeU b.data / b.numElementsInBlock) = 0) ↔ j % k = 0 := by
      rw [← UInt64.toNat_inj, UInt64.toNat_mod, hper, hju]
      rfl
    rw [List.getElem?_eq_getElem hj]
    by_cases hm : j % k = 0
    · rw [if_pos (hmod.mpr hm)]
      exact (checks_range e.minElementTag e.maxElementTag b.data[j]).cast (by simp [hm]) Iff.rfl
    · rw [if_neg fun h => hm (hmod.mp h)]
      exact (checks_range n.minNodeTag n.maxNodeTag b.data[j]).cast (by simp [hm]) Iff.rfl
  refine (h1.bind fun _ => h2).cast ?_ (by simp [hnd])
  constructor
  · rintro ⟨h3, h4⟩
    refine ⟨hnd, k, hk.symm, h3, fun j t ht => h4 j (by omega) ?_ t ht⟩
    have := (List.getElem?_eq_some_iff.mp ht).1
    omega
  · rintro ⟨_, k', hk', h3, h4⟩
    rw [hk] at hk'
    subst hk'
    exact ⟨h3, fun j _ _ t ht => h4 j t ht⟩

theorem checks_spec (s : MshSpec) (hr : s.Real) :
    Checks (validateSpec s) s.Valid
      (s.CountsValid ∧
        ((∃ pre b post, s.nodes.entityBlocks = pre ++ b :: post ∧ (∀ a ∈ pre, a.Valid s.nodes.minNodeTag s.nodes.maxNodeTag) ∧
            b.TagsValid s.nodes.minNodeTag s.nodes.maxNodeTag ∧ b.Overflows) ∨
         (∀ b ∈ s.nodes.entityBlocks, b.Valid s.nodes.minNodeTag s.nodes.maxNodeTag) ∧
         ∃ pre b post, s.elements.entityBlocks = pre ++ b :: post ∧ (∀ a ∈ pre, a.Valid s.nodes s.elements) ∧ b.DividesByZero)) := by
  have h1 : Checks (checkV (s.nodes.numEntityBlocks == sizeU s.nodes.entityBlocks)) _ False := checks_checkV (sizeU_beq hr.nodeBlocks _)
  have h2 : Checks (checkV (s.elements.numEntityBlocks == sizeU s.elements.entityBlocks)) _ False := checks_checkV (sizeU_beq hr.elementBlocks _)
  have h3 : Checks (checkV (decide (s.nodes.minNodeTag ≤ s.nodes.maxNodeTag))) (s.nodes.minNodeTag ≤ s.nodes.maxNodeTag) False :=
    checks_checkV (by simp)
  have h4 : Checks (checkV (decide (s.elements.minElementTag ≤ s.elements.maxElementTag))) (s.elements.minElementTag ≤ s.elements.maxElementTag) False :=
    checks_checkV (by simp)
  have h5 := checks_foldO (f := fun b _ => validateNodeBlock s.nodes b) s.nodes.entityBlocks fun b hb => checks_nodeBlock s.nodes b (hr.nodeTags b hb) (hr.nodeData b hb)
  have h6 := checks_foldO (f := fun b _ => validateElementBlock s.nodes s.elements b) s.elements.entityBlocks fun b hb =>
    checks_elementBlock s.nodes s.elements b (hr.elementData b hb)
  refine (h1.bind fun _ => h2.bind fun _ => h3.bind fun _ => h4.bind fun _ => h5.bind fun _ => h6).cast ?_ ?_
  · unfold MshSpec.Valid MshSpec.CountsValid; tauto
  · simp only [MshSpec.CountsValid, false_or, and_assoc]

/-! ## C34 -/

/-- **C34** `validate_spec` returns normally exactly on the specs described by `MshSpec.Valid`. -/
theorem C34_accepts_iff (s : MshSpec) (hr : s.Real) : validateSpec s = .ok () ↔ s.Valid := (checks_spec s hr).ok

/-- **C34** On every other spec `validate_spec` throws `CorruptData` or is undefined; it never throws anything
else, aborts or loops. -/
theorem C34_rejects (s : MshSpec) (hr : s.Real) (h : ¬ s.Valid) :
    validateSpec s = .throw .corruptData ∨ validateSpec s = .ub := by
  rcases (checks_spec s hr).or with e | e
  · exact absurd ((C34_accepts_iff s hr).mp e) h
  · exact e

/-- **C34** It is undefined exactly when the checks in front of it pass and the first offending block is a node block
whose `3 + entity_dim` overflows or an element block on which it divides by zero. -/
theorem C34_undefined_iff (s : MshSpec) (hr : s.Real) :
    validateSpec s = .ub ↔ s.CountsValid ∧
      ((∃ pre b post, s.nodes.entityBlocks = pre ++ b :: post ∧ (∀ a ∈ pre, a.Valid s.nodes.minNodeTag s.nodes.maxNodeTag) ∧
          b.TagsValid s.nodes.minNodeTag s.nodes.maxNodeTag ∧ b.Overflows) ∨
       (∀ b ∈ s.nodes.entityBlocks, b.Valid s.nodes.minNodeTag s.nodes.maxNodeTag) ∧
       ∃ pre b post, s.elements.entityBlocks = pre ++ b :: post ∧ (∀ a ∈ pre, a.Valid s.nodes s.elements) ∧ b.DividesByZero) :=
  (checks_spec s hr).ub

/-- **C34** Without such blocks, `validate_spec` decides `MshSpec.Valid`. -/
theorem C34_decides (s : MshSpec) (hr : s.Real) (hn : ∀ b ∈ s.nodes.entityBlocks, ¬ b.Overflows)
    (he : ∀ b ∈ s.elements.entityBlocks, ¬ b.DividesByZero) :
    (s.Valid ∧ validateSpec s = .ok ()) ∨ (¬ s.Valid ∧ validateSpec s = .throw .corruptData) := by
  by_cases hv : s.Valid
  · exact Or.inl ⟨hv, (C34_accepts_iff s hr).mpr hv⟩
  · refine Or.inr ⟨hv, (C34_rejects s hr hv).resolve_right fun h => ?_⟩
    obtain ⟨_, ⟨pre, b, post, e, _, _, h⟩ | ⟨_, pre, b, post, e, _, h⟩⟩ := (C34_undefined_iff s hr).mp h
    · exact hn b (by rw [e]; simp) h
    · exact he b (by rw [e]; simp) h

/-- **C34** Parametric blocks of sensible dimension need exactly `3 + dim` doubles per node, others 3. -/
theorem C34_node_data (lo hi : UInt64) (b : NodeBlock) (h0 : 0 ≤ b.entityDim.toInt) (hd : b.data.length < 2 ^ 64)
    (hp : (b.numNodesInBlock.toNat : Int) * b.wanted < 2 ^ 64) (h : b.Valid lo hi) :
    (b.data.length : Int) = b.numNodesInBlock.toNat * b.wanted := by
  obtain ⟨_, _, h⟩ := h
  have hw : 0 ≤ b.wanted := by unfold NodeBlock.wanted; split <;> omega
  obtain ⟨k, hk⟩ := Int.dvd_of_emod_eq_zero h
  have : 0 ≤ (b.numNodesInBlock.toNat : Int) * b.wanted := Int.mul_nonneg (by omega) hw
  generalize (b.numNodesInBlock.toNat : Int) * b.wanted = p at *
  omega

end MshIO
