import Verif.Proofs.Frame

/-!
# Each section of a v2.2 file fills its own members of the spec

`$Elements` fills the elements and the entities; `$Entities` is rejected.
-/

namespace MshIO

/-- `s` with the members that the section `name` of a v2.2 file fills taken from `t`. -/
def MshSpec.put22 (name : Bytes) (t s : MshSpec) : MshSpec :=
  { MshSpec.put name t s with entities := if name = b! "Elements" then t.entities else s.entities }

theorem put22_comm {n m : Bytes} (h : n ≠ m) (t u s : MshSpec) : MshSpec.put22 n t (MshSpec.put22 m u s) = MshSpec.put22 m u (MshSpec.put22 n t s) := by
  unfold MshSpec.put22 MshSpec.put
  simp only [put_ite_swap h]

theorem put22_format {n : Bytes} (h : n ≠ b! "MeshFormat") (t s : MshSpec) : (MshSpec.put22 n t s).meshFormat = s.meshFormat := if_neg h

theorem put22_ne_get {n m : Bytes} (h : n ≠ m) (t u s : MshSpec) : MshSpec.put22 m (MshSpec.put22 n t u) s = MshSpec.put22 m u s := by
  have key : ∀ {α : Type} (x : Bytes) (a b c : α), (if m = x then (if n = x then a else b) else c) = if m = x then b else c := by
    intro α x a b c
    by_cases h2 : m = x
    · subst h2; simp [h]
    · simp [h2]
  unfold MshSpec.put22 MshSpec.put
  simp only [key]

theorem put22_self (n : Bytes) (s : MshSpec) : MshSpec.put22 n s s = s := by
  unfold MshSpec.put22 MshSpec.put
  simp only [ite_self]

theorem put22_other {n : Bytes} (h1 : n ≠ b! "Elements") (h2 : n ≠ b! "Entities") (t s : MshSpec) : MshSpec.put22 n t s = MshSpec.put n t s := by
  unfold MshSpec.put22 MshSpec.put
  simp only [if_neg h1, if_neg h2]

theorem put22_elements (t s : MshSpec) : MshSpec.put22 (b! "Elements") t s = { s with elements := t.elements, entities := t.entities } := by
  unfold MshSpec.put22
  rw [put_elements]
  simp

theorem loadSection_frame22 (cfg : Cfg) {name : Bytes} (hn : name ≠ b! "MeshFormat") (hn2 : name ≠ b! "Entities") {s1 s2 : MshSpec}
    (hf : s1.meshFormat = s2.meshFormat) (ho : MshSpec.put22 name s1 s2 = s2) :
    loadSection cfg (36 :: name) s2 = (loadSection cfg (36 :: name) s1 >>= fun t => pure (MshSpec.put22 name t s2)) := by
  by_cases h : name = b! "Elements"
  · subst h
    have hg : s1.elements = s2.elements := by
      rw [put22_elements] at ho; exact (congrArg MshSpec.elements ho :)
    have hg' : s1.entities = s2.entities := by
      rw [put22_elements] at ho; exact (congrArg MshSpec.entities ho :)
    show (loadElements cfg s2.meshFormat s2.elements s2.entities >>= fun q =>
        pure { s2 with elements := q.1, entities := q.2 }) =
      ((loadElements cfg s1.meshFormat s1.elements s1.entities >>= fun q =>
        pure { s1 with elements := q.1, entities := q.2 }) >>= fun t => pure (MshSpec.put22 _ t s2))
    rw [← hf, ← hg, ← hg']
    simp only [bind_assoc, pure_bind, put22_elements, ← hf]
  · rw [put22_other h hn2] at ho
    rw [loadSection_frame cfg hn hf (fun h' => absurd h' h) ho]
    simp only [put22_other h hn2]

theorem IsSection.frame22 {cfg : Cfg} {name A : Bytes} (hn : name ≠ b! "MeshFormat") {s1 s2 t : MshSpec}
    (hf : s1.meshFormat = s2.meshFormat) (hv : s1.meshFormat.version = b! "2.2")
    (ho : MshSpec.put22 name s1 s2 = s2) (h : IsSection cfg s1 name A t) :
    IsSection cfg s2 name A (MshSpec.put22 name t s2) := by
  refine ⟨h.start, h.word, ?_⟩
  obtain ⟨w, hw, -, hm⟩ := h.round
  refine ⟨w, hw, rfl, ?_⟩
  obtain ⟨r, hA, c, r', rfl, hc⟩ := h.start
  subst hA
  change loadRound cfg s1 (gs (36 :: name ++ c :: r')) = _ at hm
  show loadRound cfg s2 (gs (36 :: name ++ c :: r')) = _
  have hh : WsHead (c :: r') := ⟨c, r', rfl, hc⟩
  rw [loadRound_start cfg _ h.word hh] at hm ⊢
  by_cases hn2 : name = b! "Entities"
  · exfalso
    subst hn2
    have : loadSection cfg (36 :: b! "Entities") s1 (gs (c :: r')) = .throw .invalidFormat := by
      show (loadEntities cfg s1.meshFormat s1.entities >>= fun q => pure { s1 with entities := q }) _ = _
      unfold loadEntities
      rw [if_neg (by rw [hv]; decide), if_pos hv]
      rfl
    rw [Rd.bind_def, this] at hm
    cases hm
  rw [loadSection_frame22 cfg hn hn2 hf ho]
  simp only [bind_assoc, pure_bind]
  simp only [Rd.bind_def] at hm ⊢
  revert hm
  cases loadSection cfg (36 :: name) s1 (gs (c :: r')) <;> simp only <;> try (intro hm; cases hm)
  rename_i p
  cases forwardTo (endTag name) p.2 <;> intro hm <;> try (cases hm; done)
  rename_i a
  obtain ⟨⟨⟩, a⟩ := a
  simp only [Rd.pure_def, Outcome.ok.injEq, Prod.mk.injEq] at hm ⊢
  obtain ⟨rfl, rfl⟩ := hm
  exact ⟨rfl, rfl⟩

theorem IsSection.own22 {cfg : Cfg} {name A : Bytes} (hn : name ≠ b! "MeshFormat") {s t : MshSpec}
    (hv : s.meshFormat.version = b! "2.2") (h : IsSection cfg s name A t) : MshSpec.put22 name t s = t := by
  obtain ⟨w, hw, -, hm⟩ := h.round
  obtain ⟨w', hw', -, hm'⟩ := (h.frame22 hn rfl hv (put22_self name s)).round
  have := hm.symm.trans hm'
  simp only [Outcome.ok.injEq, Prod.mk.injEq] at this
  exact this.1.symm

/-- Neighbouring sections of different names may be exchanged. -/
theorem chain_swap22 {cfg : Cfg} {s u : MshSpec} {p q : Bytes × Bytes} {L : List (Bytes × Bytes)}
    (hv : s.meshFormat.version = b! "2.2") (hp : p.1 ≠ b! "MeshFormat") (hq : q.1 ≠ b! "MeshFormat")
    (hpq : p.1 ≠ q.1) (h : Chain cfg s (p :: q :: L) u) : Chain cfg s (q :: p :: L) u := by
  obtain ⟨n, A⟩ := p
  obtain ⟨m, B⟩ := q
  cases h with
  | @cons _ t _ _ _ _ hA h =>
  cases h with
  | @cons _ t' _ _ _ _ hB h =>
  simp only at hp hq hpq
  have e1 := hA.own22 hp hv
  have f1 : t.meshFormat = s.meshFormat := by rw [← e1]; exact put22_format hp _ _
  have hv' : t.meshFormat.version = b! "2.2" := by rw [f1]; exact hv
  have e2 := hB.own22 hq hv'
  have g1 : MshSpec.put22 m t s = s := by
    rw [← e1, put22_ne_get hpq, put22_self]
  have hB' := hB.frame22 hq f1 hv' g1
  have g2 : MshSpec.put22 n s (MshSpec.put22 m t' s) = MshSpec.put22 m t' s := by
    rw [put22_comm hpq, put22_self]
  have hA' := hA.frame22 (s2 := MshSpec.put22 m t' s) hp (put22_format hq _ _).symm hv g2
  refine .cons hB' (.cons hA' ?_)
  rw [put22_comm hpq, e1, e2]
  exact h

theorem chain_format22 {cfg : Cfg} {s u : MshSpec} {L : List (Bytes × Bytes)} (h : Chain cfg s L u)
    (hv : s.meshFormat.version = b! "2.2") (hL : ∀ p ∈ L, p.1 ≠ b! "MeshFormat") :
    u.meshFormat = s.meshFormat := by
  induction h with
  | nil s => rfl
  | @cons s t u name A L hA h ih =>
    have e1 := hA.own22 (hL (name, A) (by simp)) hv
    have f1 : t.meshFormat = s.meshFormat := by rw [← e1]; exact put22_format (hL (name, A) (by simp)) _ _
    rw [ih (by rw [f1]; exact hv) (fun p hp => hL p (by simp [hp])), f1]

theorem chain_reorder22 {cfg : Cfg} {s u : MshSpec} {L M : List (Bytes × Bytes)} (h : Reorder L M)
    (hv : s.meshFormat.version = b! "2.2") (hL : ∀ p ∈ L, p.1 ≠ b! "MeshFormat") (hc : Chain cfg s L u) :
    Chain cfg s M u := by
  induction h with
  | refl L => exact hc
  | swap K L h =>
    obtain ⟨t, h1, h2⟩ := chain_append.mp hc
    refine chain_append.mpr ⟨t, h1, chain_swap22 ?_ (hL _ (by simp)) (hL _ (by simp)) h h2⟩
    rw [chain_format22 h1 hv (fun p hp => hL p (by simp [hp]))]; exact hv
  | trans h1 h2 ih1 ih2 =>
    exact ih2 (fun p hp => hL p ((reorder_mem h1 p).mpr hp)) (ih1 hL hc)

end MshIO
