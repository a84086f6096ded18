import Verif.Proofs.Complain
import Verif.Props.Demo

/-!
# C82: what `validate_spec` says is wrong

`MshSpec.Complaint` (one rule per message) is in `Spec/Complain.lean`, `MshSpec.Valid` in `Spec/Valid.lean`.
-/

namespace MshIO

/-- **C82** With the message left out, this model of `validate_spec` is the one of C34. -/
theorem C82_same_outcome (s : MshSpec) (hr : s.Real) : (tellSpec s).outcome = validateSpec s := tellSpec_outcome s hr

/-- **C82** `validate_spec` throws `CorruptData` with message `m` exactly when `m` is the complaint about the spec:
what the message says is the case, and nothing checked before it is wrong. -/
theorem C82_message_iff (s : MshSpec) (hr : s.Real) (m : Bytes) : tellSpec s = .corrupt m ↔ s.Complaint m := tellSpec_corrupt s hr m

/-- **C82** There is at most one complaint about a spec. -/
theorem C82_one_message (s : MshSpec) (hr : s.Real) (m m' : Bytes) (h : s.Complaint m) (h' : s.Complaint m') : m = m' := by
  rw [← C82_message_iff s hr] at h h'
  rw [h] at h'
  exact Told.corrupt.inj h'

/-- **C82** None about a valid spec. -/
theorem C82_valid_silent (s : MshSpec) (hr : s.Real) (hv : s.Valid) (m : Bytes) : ¬ s.Complaint m := by
  rw [← C82_message_iff s hr, Told.fine_iff.mpr ((C82_same_outcome s hr).trans ((C34_accepts_iff s hr).mpr hv))]
  intro h; cases h

/-- **C82** Exactly one about an invalid spec on whose blocks no computation overflows or divides by zero. -/
theorem C82_invalid_told (s : MshSpec) (hr : s.Real) (hv : ¬ s.Valid) (hn : ∀ b ∈ s.nodes.entityBlocks, ¬ b.Overflows)
    (he : ∀ b ∈ s.elements.entityBlocks, ¬ b.DividesByZero) : ∃ m, s.Complaint m ∧ ∀ m', s.Complaint m' → m' = m := by
  have h := ((C34_decides s hr hn he).resolve_left fun h => hv h.1).2
  rw [← C82_same_outcome s hr] at h
  cases ht : tellSpec s with
  | fine => rw [ht] at h; cases h
  | ub => rw [ht] at h; cases h
  | corrupt m =>
    have hm := (C82_message_iff s hr m).mp ht
    exact ⟨m, hm, fun m' h' => C82_one_message s hr m' m h' hm⟩

/-! ### The hypotheses can be met -/

/-- The demo spec with the tag of its second node replaced. -/
def demoMistagged (t : UInt64) : MshSpec :=
  { demoSpec {} dOne with nodes := ⟨2, 3, 1, 3, [⟨2, 1, 1, 1, [1], [dOne, dTenth, dOne, dOne, dOne]⟩,
      ⟨2, 1, 0, 2, [t, 3], [dOne, dOne, dOne, dTenth, dOne, dTenth]⟩]⟩ }

theorem demoMistagged_real (t : UInt64) : (demoMistagged t).Real where
  nodeBlocks := (by decide : (2 : Nat) < 2 ^ 64)
  nodeTags := by
    intro b hb
    simp only [demoMistagged, List.mem_cons, List.not_mem_nil, or_false] at hb
    rcases hb with rfl | rfl <;> simp
  nodeData := by
    intro b hb
    simp only [demoMistagged, List.mem_cons, List.not_mem_nil, or_false] at hb
    rcases hb with rfl | rfl <;> simp
  elementBlocks := (by decide : (1 : Nat) < 2 ^ 64)
  elementData := by
    intro b hb
    simp only [demoMistagged, demoSpec, List.mem_cons, List.not_mem_nil, or_false] at hb
    subst hb; simp

example : (demoMistagged 0).Complaint (b! "Node tag < min node tag.") :=
  (C82_message_iff _ (demoMistagged_real 0) _).mp (by decide +kernel)

example : (demoMistagged 4).Complaint (b! "Node tag > max node tag.") :=
  (C82_message_iff _ (demoMistagged_real 4) _).mp (by decide +kernel)

example (m : Bytes) : ¬ (demoMistagged 2).Complaint m :=
  C82_valid_silent _ (demoMistagged_real 2) ((C34_accepts_iff _ (demoMistagged_real 2)).mp (by decide +kernel)) m

example : ∃ m, (demoMistagged 0).Complaint m ∧ ∀ m', (demoMistagged 0).Complaint m' → m' = m := by
  refine C82_invalid_told _ (demoMistagged_real 0) (fun h => ?_) ?_ ?_
  · exact absurd ((C34_accepts_iff _ (demoMistagged_real 0)).mpr h) (by decide +kernel)
  · intro b hb
    simp only [demoMistagged, List.mem_cons, List.not_mem_nil, or_false] at hb
    rcases hb with rfl | rfl <;> unfold NodeBlock.Overflows <;> decide
  · intro b hb
    simp only [demoMistagged, demoSpec, List.mem_cons, List.not_mem_nil, or_false] at hb
    subst hb; unfold ElementBlock.DividesByZero; decide

end MshIO
