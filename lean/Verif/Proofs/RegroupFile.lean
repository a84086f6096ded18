import Verif.Proofs.RegroupRuns

/-! # What follows reading, for files in which `$MeshFormat` comes first -/

namespace MshIO

theorem elemEntries_sum (r : List MeshElem) : elemEntries r = (r.map fun e => 1 + e.nodes.length).sum := by
  unfold elemEntries
  induction r with
  | nil => rfl
  | cons e r ih => rw [List.flatMap_cons, List.length_append, ih, List.map_cons, List.sum_cons, List.length_cons]; omega

theorem elements_tail {e0 : Elements} (he : e0.Raw) {p : UInt64 → Prop} : (∀ b ∈ e0.entityBlocks, ∀ t ∈ b.data.tail, p t) ↔ ∀ e ∈ e0.list, ∀ t ∈ e.nodes, p t := by
  rw [he.eq.1]
  constructor
  · intro h e h1 t ht
    exact h e.block (List.mem_map.mpr ⟨e, h1, rfl⟩) t ht
  · intro h b hb t ht
    obtain ⟨e, h1, rfl⟩ := List.mem_map.mp hb
    exact h e h1 t ht

/-- All that can follow reading a file of version 2.2. -/
theorem post_exact (cfg : Cfg) {s : MshSpec} (hv : s.meshFormat.version = b! "2.2") (hn : s.nodes.Raw) (hp : s.nodes.Plain) (he : s.elements.Raw) (hi : s.Inv cfg) :
    ((cfg.maxCount : Int) < s.tableSize ∧ loadPostProcess cfg s = .throw .alloc) ∨ (s.tableSize ≤ cfg.maxCount ∧ ¬ s.TagsInside ∧ loadPostProcess cfg s = .ub) ∨
    (s.tableSize ≤ cfg.maxCount ∧ s.TagsInside ∧ ¬ RunsFit cfg s ∧ loadPostProcess cfg s = .throw .alloc) ∨
    (s.tableSize ≤ cfg.maxCount ∧ s.TagsInside ∧ RunsFit cfg s ∧ loadPostProcess cfg s = .ok s.regrouped) := by
  by_cases hmax : s.tableSize ≤ cfg.maxCount
  case neg =>
    refine Or.inl ⟨by omega, ?_⟩
    rw [table_size] at hmax
    unfold loadPostProcess
    rw [if_pos hv]
    unfold regroupNodes
    have : vecResize cfg ([] : List UInt64) (s.nodes.maxNodeTag - s.nodes.minNodeTag + 1) 0 = .throw .alloc := by unfold vecResize; rw [if_neg (by omega)]
    simp only [this]
    rfl
  refine Or.inr ?_
  by_cases hin : s.TagsInside
  case neg =>
    refine Or.inl ⟨hmax, hin, (loadPostProcess_ub_iff cfg hv hn he).mpr ⟨hmax, ?_⟩⟩
    unfold MshSpec.TagsInside at hin
    push Not at hin
    exact hin
  refine Or.inr ?_
  have hts := table_size s
  have hlook : ∀ t, s.LooksUp t → (t - s.nodes.minNodeTag).toNat < (s.nodes.maxNodeTag - s.nodes.minNodeTag + 1).toNat := by
    intro t ht
    have := hin t ht
    rw [table_index] at this
    omega
  have h1 := regroupNodes_fits cfg hn hp hi.nodes he rfl (by omega) (fun b hb t ht => hlook t (Or.inl ⟨b, hb, ht⟩))
    ((elements_tail he).mp fun b hb t ht => hlook t (Or.inr ⟨b, hb, ht⟩))
  have h2 := regroupElements_fits cfg he hi.elements
  have hfit : RunsFit cfg s ↔ RunsRoom (fun n : MeshNode => lastEntity s.elements.list n.tag) (3 * ·.length) cfg.maxCount s.nodes.list ∧
      ∀ r ∈ runs MeshElem.key s.elements.list, elemEntries r ≤ cfg.maxCount := by
    simp only [elemEntries_sum]
    exact ⟨fun h => ⟨⟨h.1, h.2⟩, h.3⟩, fun h => ⟨h.1.1, h.1.2, h.2⟩⟩
  unfold loadPostProcess
  rw [if_pos hv, hfit]
  rcases h1 with ⟨a1, n1, e1, q1⟩ | ⟨a1, e1⟩
  · rw [e1, okBind]
    rcases h2 with ⟨a2, n2, e2, q2⟩ | ⟨a2, e2⟩
    · rw [e2, okBind, q1, q2]
      exact Or.inr ⟨hmax, hin, ⟨a1, a2⟩, rfl⟩
    · rw [e2]
      exact Or.inl ⟨hmax, hin, fun h => a2 h.2, rfl⟩
  · rw [e1]
    exact Or.inl ⟨hmax, hin, fun h => a1 h.1, rfl⟩

variable {cfg : Cfg} {file : Bytes}

theorem post_ok_iff (hf : FormatFirst cfg file) {s : MshSpec} {st : Stream} (h : Arrives cfg (Stream.ofBytes file) (s, st)) (t : MshSpec) :
    loadPostProcess cfg s = .ok t ↔ RegroupingWorks cfg s ∧ t = s.final := by
  unfold RegroupingWorks MshSpec.final
  by_cases hv : s.meshFormat.version = b! "2.2"
  · obtain ⟨h1, h2⟩ := arrives_raw hf h hv
    rw [if_pos hv]
    rcases post_exact cfg hv h1 (arrives_plain hf h hv) h2 (arrives_inv h) with ⟨a, e⟩ | ⟨a, b, e⟩ | ⟨a, b, c, e⟩ | ⟨a, b, c, e⟩ <;> rw [e]
    · exact ⟨(fun h => by cases h), fun h => by have := (h.1 hv).1; omega⟩
    · exact ⟨(fun h => by cases h), fun h => absurd (h.1 hv).2.1 b⟩
    · exact ⟨(fun h => by cases h), fun h => absurd (h.1 hv).2.2 c⟩
    · constructor
      · intro h; cases h; exact ⟨fun _ => ⟨a, b, c⟩, rfl⟩
      · rintro ⟨_, rfl⟩; rfl
  · unfold loadPostProcess
    rw [if_neg hv, if_neg hv]
    constructor
    · intro h; cases h; exact ⟨fun h => absurd h hv, rfl⟩
    · rintro ⟨_, rfl⟩; rfl

theorem post_exhausts_iff (hf : FormatFirst cfg file) {s : MshSpec} {st : Stream} (h : Arrives cfg (Stream.ofBytes file) (s, st)) :
    loadPostProcess cfg s = .throw .alloc ↔ RegroupingExhausts cfg s := by
  unfold RegroupingExhausts
  by_cases hv : s.meshFormat.version = b! "2.2"
  · obtain ⟨h1, h2⟩ := arrives_raw hf h hv
    rcases post_exact cfg hv h1 (arrives_plain hf h hv) h2 (arrives_inv h) with ⟨a, e⟩ | ⟨a, b, e⟩ | ⟨a, b, c, e⟩ | ⟨a, b, c, e⟩ <;> rw [e]
    · exact ⟨fun _ => ⟨hv, Or.inl a⟩, fun _ => rfl⟩
    · refine ⟨(fun h => by cases h), ?_⟩
      rintro ⟨_, h | h⟩
      · omega
      · exact absurd h.1 b
    · exact ⟨fun _ => ⟨hv, Or.inr ⟨b, c⟩⟩, fun _ => rfl⟩
    · refine ⟨(fun h => by cases h), ?_⟩
      rintro ⟨_, h | h⟩
      · omega
      · exact absurd c h.2
  · unfold loadPostProcess
    rw [if_neg hv]
    exact ⟨(fun h => by cases h), fun h => absurd h.1 hv⟩

end MshIO
