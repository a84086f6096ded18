import Verif.Spec.Stuck
import Verif.Proofs.Cut

/-!
# Readers that do not get stuck

`Unstuck s`: the stream has not failed before its end.  `Flows m`: `m` keeps it that way.  `Lands m`: `m` ends that way whatever the stream was.
-/

namespace MshIO

/-- Not failed before the end. -/
def Unstuck (s : Stream) : Prop := s.fail = true → s.eof = true

/-- Keeps the stream from being stuck. -/
structure Flows {α : Type} (m : Rd α) : Prop where
  of ::
  all : ∀ s a s', Unstuck s → m s = .ok (a, s') → Unstuck s'

/-- Leaves the stream not stuck. -/
structure Lands {α : Type} (m : Rd α) : Prop where
  of ::
  all : ∀ s a s', m s = .ok (a, s') → Unstuck s'

section closure
variable {α β : Type}

theorem Lands.flows {m : Rd α} (h : Lands m) : Flows m := ⟨fun s a s' _ e => h.all s a s' e⟩

theorem EndsGood.lands {m : Rd α} (h : EndsGood m) : Lands m := by
  apply Lands.of
  intro s a s' e hf
  have := h s a s' e
  rw [Stream.good_iff] at this
  rw [this.2] at hf; cases hf

theorem Flows.pure (a : α) : Flows (Pure.pure a : Rd α) := by
  apply Flows.of
  intro s a s' h e
  rw [Rd.pure_def] at e; cases e; exact h

theorem Flows.bind {m : Rd α} {f : α → Rd β} (h1 : Flows m) (h2 : ∀ a, Flows (f a)) : Flows (m >>= f) := by
  apply Flows.of
  intro s b s' h e
  obtain ⟨a, s1, e1, e2⟩ := Rd.bind_eq_ok e
  exact (h2 a).all _ _ _ (h1.all _ _ _ h e1) e2

theorem Lands.bind {m : Rd α} {f : α → Rd β} (h2 : ∀ a, Lands (f a)) : Lands (m >>= f) := by
  apply Lands.of
  intro s b s' e
  obtain ⟨a, s1, _, e2⟩ := Rd.bind_eq_ok e
  exact (h2 a).all _ _ _ e2

theorem Lands.then {m : Rd α} {f : α → Rd β} (h1 : Lands m) (h2 : ∀ a, Flows (f a)) : Lands (m >>= f) := by
  apply Lands.of
  intro s b s' e
  obtain ⟨a, s1, e1, e2⟩ := Rd.bind_eq_ok e
  exact (h2 a).all _ _ _ (h1.all _ _ _ e1) e2

theorem Flows.throw (e : Exc) : Flows (Rd.throw e : Rd α) := ⟨fun _ _ _ _ h => by cases h⟩
theorem Flows.ub : Flows (Rd.ub : Rd α) := ⟨fun _ _ _ _ h => by cases h⟩

theorem Flows.lift (x : Outcome α) : Flows (Rd.lift x) := by
  apply Flows.of
  intro s a s' h e
  cases x with
  | ok b => simp only [Rd.lift, Outcome.ok.injEq, Prod.mk.injEq] at e; rw [← e.2]; exact h
  | _ => simp [Rd.lift] at e

theorem Flows.ite {c : Prop} [Decidable c] {p q : Rd α} (h1 : Flows p) (h2 : Flows q) : Flows (if c then p else q) := by
  split
  · exact h1
  · exact h2

theorem Flows.dite {c : Prop} [Decidable c] {p q : Rd α} (h1 : c → Flows p) (h2 : ¬ c → Flows q) : Flows (if c then p else q) := by
  by_cases h : c
  · rw [if_pos h]; exact h1 h
  · rw [if_neg h]; exact h2 h

theorem Flows.forEach {f : α → Rd α} (h : ∀ a, Flows (f a)) (l : List α) : Flows (forEach f l) := by
  induction l with
  | nil => exact Flows.pure _
  | cons a as ih => exact (h a).bind fun _ => ih.bind fun _ => Flows.pure _

theorem Flows.loopN {f : Nat → α → Rd α} (h : ∀ i a, Flows (f i a)) (n i : Nat) (a : α) : Flows (loopN f n i a) := by
  induction n generalizing i a with
  | zero => exact Flows.pure _
  | succ n ih => exact (h i a).bind fun _ => ih _ _

end closure

theorem flows_useVar {α : Type} (x : Option α) : Flows (useVar x) := by
  cases x with
  | none => exact Flows.ub
  | some a => exact Flows.pure a

theorem flows_assertGood (cfg : Cfg) : Flows (assertGood cfg) := by
  apply Flows.of
  intro s a s' h e
  unfold assertGood at e
  split at e
  · cases e
  · cases e; exact h

theorem flows_resize {α : Type} (cfg : Cfg) (v : List α) (n : UInt64) (d : α) : Flows (resize cfg v n d) := Flows.lift _
theorem flows_pushBack {α : Type} (cfg : Cfg) (v : List α) (d : α) : Flows (pushBack cfg v d) := Flows.lift _

theorem unstuck_setFail {s : Stream} (h : Unstuck s) (hg : ¬ s.good = true) : Unstuck { s with fail := true } := by
  intro _
  rw [Bool.not_eq_true, Stream.good_false_iff] at hg
  exact hg.elim id h

theorem flows_readRaw (o : Bytes) : Flows (readRaw o) := by
  apply Flows.of
  intro s a s' h e
  unfold readRaw at e
  split at e
  · split at e
    · cases e; intro hf; cases hf
    · cases e; intro _; rfl
  · cases e; exact unstuck_setFail h ‹_›

theorem flows_readSize (o : UInt64) : Flows (readSize o) := (flows_readRaw _).bind fun _ => Flows.pure _
theorem flows_readInt (o : Int32) : Flows (readInt o) := (flows_readRaw _).bind fun _ => Flows.pure _
theorem flows_readDouble (o : Double) : Flows (readDouble o) := (flows_readRaw _).bind fun _ => Flows.pure _
theorem flows_readSizes (o : List UInt64) : Flows (readSizes o) := (flows_readRaw _).bind fun _ => Flows.pure _
theorem flows_readInts (o : List Int32) : Flows (readInts o) := (flows_readRaw _).bind fun _ => Flows.pure _
theorem flows_readDoubles (o : List Double) : Flows (readDoubles o) := (flows_readRaw _).bind fun _ => Flows.pure _

theorem flows_readSizeVar : Flows readSizeVar := by
  apply Flows.of
  intro s a s' h e
  unfold readSizeVar at e
  split at e
  · split at e
    · cases e; intro hf; cases hf
    · cases e; intro _; rfl
  · cases e; exact unstuck_setFail h ‹_›

theorem flows_readIntVar (o : Option Int32) : Flows (readIntVar o) := by
  cases o with
  | some v =>
    apply Flows.of
    intro s a s' h e
    unfold readIntVar at e
    simp only at e
    split at e <;> cases e
    rename_i e
    exact (flows_readInt v).all _ _ _ h e
  | none =>
    apply Flows.of
    intro s a s' h e
    unfold readIntVar at e
    simp only at e
    split at e
    · split at e
      · cases e; intro hf; cases hf
      · cases e; intro _; rfl
    · cases e; exact unstuck_setFail h ‹_›

theorem eatLoop_unstuck (n : Nat) (b : Bytes) : Unstuck (eatLoop n b) := by
  induction n generalizing b with
  | zero => cases b <;> (intro hf; cases hf)
  | succ n ih =>
    cases b with
    | nil => intro hf; cases hf
    | cons c r =>
      unfold eatLoop
      split
      · exact ih r
      · intro hf; cases hf

theorem flows_eatWhiteSpace (n : Nat) : Flows (eatWhiteSpace n) := by
  apply Flows.of
  intro s a s' h e
  unfold eatWhiteSpace at e
  split at e
  · cases e; exact eatLoop_unstuck _ _
  · cases e; exact unstuck_setFail h ‹_›

theorem sentry_unstuck {s : Stream} (h : Unstuck s) : Unstuck (sentry s).2 := by
  unfold sentry
  split
  · split
    · intro _; rfl
    · intro hf; cases hf
  · exact unstuck_setFail h ‹_›

theorem flows_inString (o : Bytes) : Flows (inString o) := by
  apply Flows.of
  intro s a s' h e
  have hs := sentry_unstuck h
  unfold inString at e
  split at e <;> rename_i he
  · cases e; rw [he] at hs; exact hs
  · cases e; intro hf; cases hf

/-- Proves `Flows` of a reader built from the readers above. -/
macro "flows" : tactic => `(tactic| repeat' (first
  | assumption
  | with_reducible exact Flows.pure _
  | with_reducible exact Flows.throw _
  | with_reducible exact Flows.ub
  | with_reducible exact flows_inString _
  | with_reducible exact flows_readSize _
  | with_reducible exact flows_readInt _
  | with_reducible exact flows_readDouble _
  | with_reducible exact flows_readSizes _
  | with_reducible exact flows_readInts _
  | with_reducible exact flows_readDoubles _
  | with_reducible exact flows_readSizeVar
  | with_reducible exact flows_readIntVar _
  | with_reducible exact flows_eatWhiteSpace _
  | with_reducible exact flows_assertGood _
  | with_reducible exact flows_useVar _
  | with_reducible exact flows_resize _ _ _ _
  | with_reducible exact flows_pushBack _ _ _
  | with_reducible exact Flows.lift _
  | with_reducible apply Flows.bind
  | with_reducible apply Flows.ite
  | with_reducible apply Flows.forEach
  | with_reducible apply Flows.loopN
  | intro _
  | split))

theorem flows_entitiesBinary (cfg : Cfg) (e : Entities) : Flows (loadEntitiesBinary41 cfg e) := by
  unfold loadEntitiesBinary41 loadPointBinary loadBoxBinary loadIntListBinary; flows

theorem flows_nodesBinary41 (cfg : Cfg) (n : Nodes) : Flows (loadNodesBinary41 cfg n) := by
  unfold loadNodesBinary41 loadNodeBlockBinary41; flows

theorem flows_elementsBinary41 (cfg : Cfg) (n : Elements) : Flows (loadElementsBinary41 cfg n) := by
  unfold loadElementsBinary41 loadElementBlockBinary41; flows

theorem flows_nodesBinary22 (cfg : Cfg) (hA : cfg.asserts = true) (n : Nodes) : Flows (loadNodesBinary22 cfg n) := by
  unfold loadNodesBinary22 loadNodeBinary22
  refine (flows_pushBack _ _ _).bind fun _ => ((Lands.bind fun _ => ?_).flows)
  refine (EndsGood.assertGood hA).lands.then fun _ => ?_
  flows

/-- A section that is not in the list does not get stuck. -/
theorem section_flows {cfg : Cfg} {name : Bytes} {spec : MshSpec} (hn : name ∉ stuckSections cfg.asserts cfg.nanospline spec.meshFormat) :
    Flows (loadSection cfg (36 :: name) spec) := by
  by_cases hu : cfg.asserts = true ∧ name ∉ uncheckedSections cfg.nanospline spec.meshFormat
  · rcases section_ends hu.1 hu.2 with h | h
    · exact h.lands.flows
    · rw [h]; exact Flows.pure _
  have hn1 : name ≠ b! "MeshFormat" := fun h => hn (by simp [stuckSections, h])
  have hc : ¬ (cfg.nanospline = true ∧ (name = b! "Curves" ∨ name = b! "Patches")) := fun h => hn (by
    rcases h with ⟨h1, h2 | h2⟩ <;> simp [stuckSections, h1, h2])
  have hE22 : ¬ (spec.meshFormat.version = b! "2.2" ∧ name = b! "Elements") := fun h => hn (by
    unfold stuckSections; rw [if_pos h.1, h.2]; simp)
  unfold loadSection
  simp only [List.cons.injEq, true_and]
  rw [if_neg hn1]
  have hno : ∀ {m : Rd MshSpec}, (cfg.asserts = true → name ∉ uncheckedSections cfg.nanospline spec.meshFormat) →
      (cfg.asserts = false → name ∈ stuckSections cfg.asserts cfg.nanospline spec.meshFormat) → Flows m := by
    intro m h1 h2
    cases hA : cfg.asserts
    · exact absurd (h2 hA) hn
    · exact absurd ⟨hA, h1 hA⟩ hu
  have hun : spec.meshFormat.version = b! "4.1" → name = b! "Entities" ∨ name = b! "Nodes" ∨ name = b! "Elements" → name ∉ uncheckedSections cfg.nanospline spec.meshFormat := by
    intro hv h
    unfold uncheckedSections; rw [hv, if_neg (by decide : ¬ (b! "4.1" : Bytes) = b! "2.2")]
    rcases h with h | h | h <;> rw [h] <;> cases cfg.nanospline <;> decide
  have hst : spec.meshFormat.version = b! "4.1" ∧ spec.meshFormat.fileType = 0 → name = b! "Entities" ∨ name = b! "Nodes" ∨ name = b! "Elements" → cfg.asserts = false →
      name ∈ stuckSections cfg.asserts cfg.nanospline spec.meshFormat := by
    intro hv h hA
    unfold stuckSections; rw [hA, if_pos hv]
    rcases h with h | h | h <;> rw [h] <;> simp
  have hud : name = b! "PhysicalNames" ∨ name = b! "NodeData" ∨ name = b! "ElementData" ∨ name = b! "ElementNodeData" →
      name ∉ uncheckedSections cfg.nanospline spec.meshFormat := by
    intro h hm
    simp only [uncheckedSections, List.mem_append, List.mem_cons, List.not_mem_nil, or_false] at hm
    rcases hm with (hm | hm) | hm
    · rcases hm with hm | hm <;> rw [hm] at h <;> revert h <;> decide
    · cases hx : cfg.nanospline <;> rw [hx] at hm
      · simp at hm
      · simp only [if_true, List.mem_cons, List.not_mem_nil, or_false] at hm
        rcases hm with hm | hm <;> rw [hm] at h <;> revert h <;> decide
    · by_cases hv : spec.meshFormat.version = b! "2.2"
      · rw [if_pos hv] at hm
        by_cases ht : spec.meshFormat.fileType = 0
        · rw [if_pos ht] at hm
          simp only [List.mem_cons, List.not_mem_nil, or_false] at hm
          rw [hm] at h; revert h; decide
        · rw [if_neg ht] at hm
          simp only [List.mem_cons, List.not_mem_nil, or_false] at hm
          rcases hm with hm | hm <;> rw [hm] at h <;> revert h <;> decide
      · rw [if_neg hv] at hm; cases hm
  have hsd : name = b! "PhysicalNames" ∨ name = b! "NodeData" ∨ name = b! "ElementData" ∨ name = b! "ElementNodeData" → cfg.asserts = false →
      name ∈ stuckSections cfg.asserts cfg.nanospline spec.meshFormat := by
    intro h hA
    unfold stuckSections; rw [hA]
    rcases h with h | h | h | h <;> rw [h] <;> simp
  have hx : name = b! "Curves" ∨ name = b! "Patches" → cfg.nanospline = false := fun h => by
    cases hn : cfg.nanospline
    · rfl
    · exact absurd ⟨hn, h⟩ hc
  refine Flows.dite (fun h => ?_) fun _ => ?_
  · by_cases hv : spec.meshFormat.version = b! "4.1"
    · by_cases ht : spec.meshFormat.fileType = 0
      · exact hno (fun _ => hun hv (Or.inl h)) (hst ⟨hv, ht⟩ (Or.inl h))
      · unfold loadEntities; rw [if_pos hv, if_neg ht]
        exact (flows_entitiesBinary _ _).bind fun _ => Flows.pure _
    · unfold loadEntities; rw [if_neg hv]; flows
  refine Flows.dite (fun h => hno (fun _ => hud (Or.inl h)) (hsd (Or.inl h))) fun _ => ?_
  refine Flows.dite (fun h => ?_) fun _ => ?_
  · by_cases hv : spec.meshFormat.version = b! "4.1"
    · by_cases ht : spec.meshFormat.fileType = 0
      · exact hno (fun _ => hun hv (Or.inr (Or.inl h))) (hst ⟨hv, ht⟩ (Or.inr (Or.inl h)))
      · unfold loadNodes; rw [if_pos hv, if_neg ht]
        exact (flows_nodesBinary41 _ _).bind fun _ => Flows.pure _
    · refine Flows.bind ?_ fun _ => Flows.pure _
      unfold loadNodes; rw [if_neg hv]
      refine Flows.dite (fun hv => ?_) fun _ => Flows.throw _
      cases hA : cfg.asserts
      · exact absurd (by unfold stuckSections; rw [hA, if_pos hv, if_pos hv, h]; simp) hn
      · exact Flows.ite (ends_nodesAscii22 hA _).lands.flows (flows_nodesBinary22 _ hA _)
  refine Flows.dite (fun h => ?_) fun _ => ?_
  · by_cases hv : spec.meshFormat.version = b! "4.1"
    · by_cases ht : spec.meshFormat.fileType = 0
      · exact hno (fun _ => hun hv (Or.inr (Or.inr h))) (hst ⟨hv, ht⟩ (Or.inr (Or.inr h)))
      · unfold loadElements; rw [if_pos hv, if_neg ht]
        exact ((flows_elementsBinary41 _ _).bind fun _ => Flows.pure _).bind fun _ => Flows.pure _
    · refine Flows.bind ?_ fun _ => Flows.pure _
      unfold loadElements; rw [if_neg hv, if_neg fun hv => hE22 ⟨hv, h⟩]
      exact Flows.throw _
  refine Flows.dite (fun h => hno (fun _ => hud (Or.inr (Or.inl h))) (hsd (Or.inr (Or.inl h)))) fun _ => ?_
  refine Flows.dite (fun h => hno (fun _ => hud (Or.inr (Or.inr (Or.inl h)))) (hsd (Or.inr (Or.inr (Or.inl h))))) fun _ => ?_
  refine Flows.dite (fun h => hno (fun _ => hud (Or.inr (Or.inr (Or.inr h)))) (hsd (Or.inr (Or.inr (Or.inr h))))) fun _ => ?_
  refine Flows.dite (fun h => ?_) fun _ => ?_
  · unfold loadNanosplineFormat; flows
  refine Flows.dite (fun h => ?_) fun _ => ?_
  · unfold loadCurves; rw [hx (Or.inl h)]; exact Flows.bind (Flows.pure _) fun _ => Flows.pure _
  refine Flows.dite (fun h => ?_) fun _ => Flows.pure _
  unfold loadPatches; rw [hx (Or.inr h)]; exact Flows.bind (Flows.pure _) fun _ => Flows.pure _

end MshIO
