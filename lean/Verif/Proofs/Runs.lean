import Verif.Spec.Mesh22
import Verif.Proofs.Num
import Mathlib.Data.List.SplitBy

/-!
# Maximal runs
-/

namespace MshIO

section
variable {α κ β : Type} [DecidableEq κ] {key : α → κ}

theorem runs_flatten (key : α → κ) (l : List α) : (runs key l).flatten = l := List.flatten_splitBy _ _

theorem runs_ne_nil {l r : List α} (h : r ∈ runs key l) : r ≠ [] := List.ne_nil_of_mem_splitBy h

theorem runs_key {l r : List α} (h : r ∈ runs key l) {a b : α} (ha : a ∈ r) (hb : b ∈ r) : key a = key b := by
  have hc := List.isChain_of_mem_splitBy h
  simp only [decide_eq_true_eq] at hc
  have hp : r.Pairwise fun a b => key a = key b :=
    (@List.isChain_iff_pairwise _ (fun a b => key a = key b) _ ⟨fun h1 h2 => h1.trans h2⟩).mp hc
  rcases List.mem_iff_getElem.mp ha with ⟨i, hi, rfl⟩
  rcases List.mem_iff_getElem.mp hb with ⟨j, hj, rfl⟩
  rw [List.pairwise_iff_getElem] at hp
  rcases Nat.lt_trichotomy i j with h | h | h
  · exact hp i j hi hj h
  · subst h; rfl
  · exact (hp j i hj hi h).symm

theorem runs_adjacent (key : α → κ) (l : List α) :
    (runs key l).IsChain fun r r' => ∀ a ∈ r, ∀ b ∈ r', key a ≠ key b := by
  have h := List.isChain_getLast_head_splitBy (fun a b => decide (key a = key b)) l
  have hmem : ∀ r ∈ runs key l, r ∈ runs key l := fun r h => h
  rw [List.isChain_iff_getElem] at h ⊢
  intro i hi
  obtain ⟨h1, h2, h3⟩ := h i hi
  intro a ha b hb hab
  simp only [decide_eq_false_iff_not] at h3
  have m1 : (runs key l)[i] ∈ runs key l := List.getElem_mem _
  have m2 : (runs key l)[i + 1] ∈ runs key l := List.getElem_mem _
  exact h3 ((runs_key m1 (List.getLast_mem h1) ha).trans (hab.trans (runs_key m2 hb (List.head_mem h2))))

/-- The four facts determine the runs. -/
theorem runs_unique {l : List α} {rs : List (List α)} (h1 : rs.flatten = l) (h2 : ∀ r ∈ rs, r ≠ [])
    (h3 : ∀ r ∈ rs, ∀ a ∈ r, ∀ b ∈ r, key a = key b)
    (h4 : rs.IsChain fun r r' => ∀ a ∈ r, ∀ b ∈ r', key a ≠ key b) : runs key l = rs := by
  unfold runs
  rw [List.splitBy_eq_iff]
  refine ⟨h1.symm, fun h => h2 _ h rfl, fun r hr => ?_, ?_⟩
  · simp only [decide_eq_true_eq]
    refine List.Pairwise.isChain ?_
    rw [List.pairwise_iff_getElem]
    intro i j hi hj _
    exact h3 r hr _ (List.getElem_mem _) _ (List.getElem_mem _)
  · rw [List.isChain_iff_getElem] at h4 ⊢
    intro i hi
    have e1 := h2 _ (List.getElem_mem (by omega : i < rs.length))
    have e2 := h2 _ (List.getElem_mem hi)
    refine ⟨e1, e2, ?_⟩
    simp only [decide_eq_false_iff_not]
    exact h4 i hi _ (List.getLast_mem e1) _ (List.head_mem e2)

theorem runs_map {γ : Type} {key : γ → κ} (f : α → γ) (l : List α) :
    runs key (l.map f) = (runs (fun a => key (f a)) l).map (List.map f) := by
  refine runs_unique ?_ ?_ ?_ ?_
  · rw [← List.map_flatten, runs_flatten]
  · intro r hr
    obtain ⟨r, hr', rfl⟩ := List.mem_map.mp hr
    simpa using runs_ne_nil hr'
  · intro r hr a ha b hb
    obtain ⟨r, hr', rfl⟩ := List.mem_map.mp hr
    obtain ⟨a, ha', rfl⟩ := List.mem_map.mp ha
    obtain ⟨b, hb', rfl⟩ := List.mem_map.mp hb
    exact runs_key (key := fun a => key (f a)) hr' ha' hb'
  · have h := runs_adjacent (fun a => key (f a)) l
    rw [List.isChain_map]
    refine h.imp fun r r' h a ha b hb => ?_
    obtain ⟨a, ha', rfl⟩ := List.mem_map.mp ha
    obtain ⟨b, hb', rfl⟩ := List.mem_map.mp hb
    exact h a ha' b hb'

theorem runs_snoc_new {l : List α} {a : α} (h : ∀ b ∈ l.getLast?, key b ≠ key a) :
    runs key (l ++ [a]) = runs key l ++ [[a]] := by
  unfold runs
  rw [List.splitBy_append]
  · rfl
  · intro x hx y hy
    have hy : a = y := by simpa using hy
    subst hy
    simpa using h x hx

theorem runs_snoc_old {l : List α} {a b : α} (hb : l.getLast? = some b) (h : key b = key a) :
    ∃ rs r, runs key l = rs ++ [r] ∧ r.getLast? = some b ∧ runs key (l ++ [a]) = rs ++ [r ++ [a]] := by
  have hl : l ≠ [] := by rintro rfl; simp at hb
  have hne : runs key l ≠ [] := List.splitBy_ne_nil.mpr hl
  obtain ⟨rs, r, e⟩ : ∃ rs r, runs key l = rs ++ [r] :=
    ⟨(runs key l).dropLast, (runs key l).getLast hne, (List.dropLast_append_getLast hne).symm⟩
  have hr : r ≠ [] := runs_ne_nil (key := key) (l := l) (by rw [e]; simp)
  have hfl := runs_flatten key l
  have hrl : r.getLast? = some b := by
    rw [e] at hfl
    rw [← hb, ← hfl]
    simp [List.getLast?_append, List.getLast?_eq_getLast_of_ne_nil hr]
  refine ⟨rs, r, e, hrl, runs_unique ?_ ?_ ?_ ?_⟩
  · rw [e] at hfl; rw [← hfl]; simp
  · intro x hx
    rcases List.mem_append.mp hx with hx | hx
    · exact runs_ne_nil (key := key) (l := l) (by rw [e]; simp [hx])
    · rw [List.mem_singleton] at hx; subst hx; simp
  · have hb' : b ∈ r := List.mem_of_getLast? hrl
    have key1 : ∀ x ∈ r ++ [a], key x = key b := by
      intro x hx
      rcases List.mem_append.mp hx with hx | hx
      · exact runs_key (l := l) (r := r) (by rw [e]; simp) hx hb'
      · rw [List.mem_singleton] at hx; subst hx; exact h.symm
    intro x hx u hu v hv
    rcases List.mem_append.mp hx with hx | hx
    · exact runs_key (l := l) (r := x) (by rw [e]; simp [hx]) hu hv
    · rw [List.mem_singleton] at hx; subst hx
      rw [key1 u hu, key1 v hv]
  · have h4 := runs_adjacent key l
    rw [e] at h4
    have hb' : b ∈ r := List.mem_of_getLast? hrl
    rw [List.isChain_append] at h4 ⊢
    refine ⟨h4.1, by simp, ?_⟩
    intro x hx y hy
    have hy : r ++ [a] = y := by simpa using hy
    subst hy
    intro u hu v hv
    have h5 := h4.2.2 x hx r (by simp) u hu
    rcases List.mem_append.mp hv with hv | hv
    · exact h5 v hv
    · rw [List.mem_singleton] at hv; subst hv
      rw [← h]; exact h5 b hb'

theorem runBlocks_snoc_new {mk : κ → List α → β} {l : List α} {a : α} (h : ∀ b ∈ l.getLast?, key b ≠ key a) :
    runBlocks key mk (l ++ [a]) = runBlocks key mk l ++ [mk (key a) [a]] := by
  unfold runBlocks
  rw [runs_snoc_new h]
  simp [runBlock]

theorem runBlocks_snoc_old {mk : κ → List α → β} {l : List α} {a b : α} (hb : l.getLast? = some b)
    (h : key b = key a) :
    ∃ bs r, runBlocks key mk l = bs ++ [mk (key a) r] ∧ runBlocks key mk (l ++ [a]) = bs ++ [mk (key a) (r ++ [a])] ∧
      r.length ≤ l.length ∧ ∃ p, l = p ++ r := by
  obtain ⟨rs, r, e1, e2, e3⟩ := runs_snoc_old hb h
  unfold runBlocks
  rw [e3, e1]
  have hfl := runs_flatten key l
  rw [e1] at hfl
  obtain ⟨c, r', rfl⟩ : ∃ c r', r = c :: r' := by
    cases r with
    | nil => simp at e2
    | cons c r' => exact ⟨c, r', rfl⟩
  have hk : key c = key a := by
    rw [← h]
    exact runs_key (l := l) (r := c :: r') (by rw [e1]; simp) (by simp) (List.mem_of_getLast? e2)
  refine ⟨rs.flatMap (runBlock key mk), c :: r', ?_, ?_, ?_,
    rs.flatten, ?_⟩
  · rw [List.flatMap_append]; simp [hk, runBlock]
  · rw [List.flatMap_append]; simp [hk, runBlock]
  · rw [← hfl]; simp
  · rw [← hfl]; simp

theorem runs_length_le (key : α → κ) (l : List α) : (runs key l).length ≤ l.length := by
  conv_rhs => rw [← runs_flatten key l]
  rw [List.length_flatten]
  have : ∀ rs : List (List α), (∀ r ∈ rs, r ≠ []) → rs.length ≤ (rs.map List.length).sum := by
    intro rs
    induction rs with
    | nil => simp
    | cons r rs ih =>
      intro h
      have h1 : r.length ≠ 0 := by
        have := h r (by simp)
        simpa using this
      have := ih fun x hx => h x (by simp [hx])
      simp only [List.length_cons, List.map_cons, List.sum_cons]
      omega
  exact this _ fun r hr => runs_ne_nil hr

theorem runBlocks_eq_map {mk : κ → List α → β} {l : List α} (d : κ) :
    runBlocks key mk l = (runs key l).map fun r => mk ((r.head?.map key).getD d) r := by
  unfold runBlocks
  have : ∀ rs : List (List α), (∀ r ∈ rs, r ≠ []) →
      rs.flatMap (runBlock key mk) =
        rs.map fun r => mk ((r.head?.map key).getD d) r := by
    intro rs
    induction rs with
    | nil => simp
    | cons r rs ih =>
      intro h
      rw [List.flatMap_cons, List.map_cons, ih fun x hx => h x (by simp [hx])]
      cases r with
      | nil => exact absurd rfl (h [] (by simp))
      | cons a r => simp [runBlock]
  exact this _ fun r hr => runs_ne_nil hr

theorem runBlocks_of_map {γ : Type} {key : γ → κ} {mk : κ → List γ → β} (f : α → γ) (l : List α) :
    runBlocks key mk (l.map f) = runBlocks (fun a => key (f a)) (fun k r => mk k (r.map f)) l := by
  unfold runBlocks
  rw [runs_map, List.flatMap_map]
  refine List.flatMap_congr fun r _ => ?_
  cases r <;> rfl

theorem map_runBlocks {γ : Type} {mk : κ → List α → β} (g : β → γ) (l : List α) :
    (runBlocks key mk l).map g = runBlocks key (fun k r => g (mk k r)) l := by
  unfold runBlocks
  rw [List.map_flatMap]
  refine List.flatMap_congr fun r _ => ?_
  cases r <;> rfl

theorem runBlocks_length {mk : κ → List α → β} {l : List α} :
    (runBlocks key mk l).length = (runs key l).length := by
  cases l with
  | nil => rfl
  | cons a l => rw [runBlocks_eq_map (key a), List.length_map]

theorem runBlocks_length_le {mk : κ → List α → β} {l : List α} : (runBlocks key mk l).length ≤ l.length := by
  rw [runBlocks_length]; exact runs_length_le key l

theorem mem_runBlocks {mk : κ → List α → β} {l : List α} {b : β} :
    b ∈ runBlocks key mk l ↔ ∃ r ∈ runs key l, ∃ a ∈ r, b = mk (key a) r := by
  unfold runBlocks
  rw [List.mem_flatMap]
  constructor
  · rintro ⟨r, hr, hb⟩
    cases r with
    | nil => simp [runBlock] at hb
    | cons a r => exact ⟨_, hr, a, by simp, by simpa [runBlock] using hb⟩
  · rintro ⟨r, hr, a, ha, rfl⟩
    refine ⟨r, hr, ?_⟩
    cases r with
    | nil => simp at ha
    | cons c r => simp [runBlock, runs_key hr ha (by simp : c ∈ c :: r)]

end

end MshIO
