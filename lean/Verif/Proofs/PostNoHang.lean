import Verif.Proofs.Loop

/-! # The post-processing step never loops forever -/

namespace MshIO

theorem NoHang.markBlock (m : UInt64) (b : ElementBlock) (st : List UInt64 × List UInt64) :
    NoHang (markBlock m b st) := by
  unfold MshIO.markBlock
  refine NoHang.bind (NoHang.nodesPerElement _) fun n => NoHang.loopO (fun i s => NoHang.loopO (fun j s => ?_) _ _ _) _ _ _
  repeat' first
    | with_reducible exact NoHang.pure _
    | with_reducible exact NoHang.vecGet _ _
    | with_reducible exact NoHang.vecSet _ _ _
    | with_reducible apply NoHang.bind
    | intro _

theorem NoHang.regroupNode (cfg : Cfg) (m : UInt64) (ds ts : List UInt64) (b : NodeBlock) (i : Nat)
    (st : Regroup) : NoHang (regroupNode cfg m ds ts b i st) := by
  unfold MshIO.regroupNode
  repeat' first
    | with_reducible exact NoHang.pure _
    | with_reducible exact NoHang.abort
    | with_reducible exact NoHang.vecGet _ _
    | with_reducible exact NoHang.vecSet _ _ _
    | with_reducible exact NoHang.vecPush _ _ _
    | with_reducible exact NoHang.vecReserve _ _
    | with_reducible apply NoHang.vecModifyBack
    | with_reducible apply NoHang.bind
    | with_reducible apply NoHang.ite
    | intro _

theorem NoHang.regroupNodes (cfg : Cfg) (n : Nodes) (e : Elements) : NoHang (regroupNodes cfg n e) := by
  unfold MshIO.regroupNodes
  refine NoHang.bind (NoHang.vecResize ..) fun _ => NoHang.bind (NoHang.vecResize ..) fun _ =>
    NoHang.bind (NoHang.foldO (fun _ _ => NoHang.markBlock _ _ _) _ _) fun _ =>
    NoHang.bind (NoHang.foldO (fun _ _ => NoHang.loopO (fun _ _ => NoHang.regroupNode ..) _ _ _) _ _)
      fun _ => NoHang.pure _

theorem NoHang.regroupElements (cfg : Cfg) (e : Elements) : NoHang (regroupElements cfg e) := by
  unfold MshIO.regroupElements
  refine NoHang.bind (NoHang.vecReserve ..) fun _ => NoHang.bind (NoHang.foldO (fun b st => ?_) _ _)
    fun _ => NoHang.pure _
  unfold MshIO.regroupElement
  repeat' first
    | with_reducible exact NoHang.pure _
    | with_reducible exact NoHang.ok _
    | with_reducible exact NoHang.throw _
    | with_reducible exact NoHang.vecPush _ _ _
    | with_reducible apply NoHang.vecModifyBack
    | with_reducible apply NoHang.bind
    | with_reducible apply NoHang.ite
    | intro _

theorem NoHang.loadPostProcess (cfg : Cfg) (s : MshSpec) : NoHang (loadPostProcess cfg s) := by
  unfold MshIO.loadPostProcess
  exact NoHang.ite (NoHang.bind (NoHang.regroupNodes ..) fun _ =>
    NoHang.bind (NoHang.regroupElements ..) fun _ => NoHang.pure _) (NoHang.ok _)

theorem fwd_hang_iff (flag buf : Bytes) (s : Stream) :
    fwd flag buf s = .hang ↔ s.fail = true ∧ s.eof = false ∧ buf ≠ flag := by
  constructor
  · intro h
    by_cases hb : s.eof = true ∨ buf = flag
    · rw [fwd_step, if_pos (by rcases hb with hb | hb <;> simp [hb])] at h
      cases h
    · rw [not_or] at hb
      refine ⟨?_, by simpa using hb.1, hb.2⟩
      cases hf : s.fail with
      | true => rfl
      | false =>
        obtain ⟨s', e, _⟩ := fwd_good flag _ buf s le_rfl (by simp [Stream.good, hf, hb.1])
        rw [e] at h; cases h
  · rintro ⟨h1, h2, h3⟩; exact fwd_stuck h1 h2 h3

theorem fwd_ok_good (flag : Bytes) (k : Nat) : ∀ (buf : Bytes) (s s' : Stream), s.rem.length ≤ k →
    fwd flag buf s = .ok ((), s') → s.fail = false → s'.eof = false → s'.fail = false := by
  induction k using Nat.strongRecOn with
  | ind k ih =>
    intro buf s s' hk h hf he
    cases hs : s.eof with
    | true =>
      rw [fwd_step, if_pos (by simp [hs])] at h
      cases h; exact hf
    | false =>
      by_cases hb : buf = flag
      · rw [fwd_step, if_pos (by simp [hb])] at h
        cases h; exact hf
      · rw [fwd_step, if_neg (by simp [hs, hb])] at h
        obtain ⟨t, s1, h1, h2⟩ := Rd.bind_eq_ok h
        rcases inString_good (by simp [Stream.good, hs, hf]) h1 with hi | ⟨hi, hl⟩
        · rcases fwd_cases flag t s1 with hq | ⟨s3, e, hst⟩
          · rw [hq] at h2; cases h2
          · rw [h2] at e; cases e
            rw [hst.eof hi] at he; cases he
        · exact ih s1.rem.length (by omega) t s1 s' le_rfl h2 ((Stream.good_iff _).1 hi).2 he

theorem endMarker_ne_nil (b : Bytes) : ([] : Bytes) ≠ endMarker b := by simp [endMarker]

theorem inString_ok (o : Bytes) (s : Stream) : ∃ t s', inString o s = .ok (t, s') := by
  unfold inString; split <;> exact ⟨_, _, rfl⟩

theorem loadRound_hang_iff (cfg : Cfg) (spec : MshSpec) (s : Stream) :
    loadRound cfg spec s = .hang ↔ ∃ r s1 spec' s2, inString [] s = .ok (36 :: r, s1) ∧
      loadSection cfg (36 :: r) spec s1 = .ok (spec', s2) ∧ s2.fail = true ∧ s2.eof = false := by
  unfold loadRound
  obtain ⟨t, s1, h1⟩ := inString_ok [] s
  rw [Rd.bind_ok h1]
  constructor
  · intro h
    split at h
    · rename_i r
      rw [Rd.bind_def] at h
      have ht := (tame_loadSection cfg (36 :: r) spec).all s1
      cases hs : loadSection cfg (36 :: r) spec s1 with
      | ok q =>
        rw [hs] at h
        simp only at h
        refine ⟨r, s1, q.1, q.2, h1, hs, ?_⟩
        rw [forwardTo_eq, Rd.bind_def] at h
        rcases fwd_cases (endMarker (36 :: r)) [] q.2 with hf | ⟨s', e, _⟩
        · obtain ⟨a, b, _⟩ := (fwd_hang_iff _ _ _).1 hf
          exact ⟨a, b⟩
        · rw [e] at h; cases h
      | hang => exact absurd hs ht.1
      | throw e => rw [hs] at h; cases h
      | abort => rw [hs] at h; cases h
      | ub => rw [hs] at h; cases h
    · cases h
  · rintro ⟨r, s1', spec', s2, e1, e2, hf, he⟩
    rw [h1] at e1
    cases e1
    simp only
    rw [Rd.bind_ok e2, Rd.bind_def, forwardTo_eq, fwd_stuck hf he (endMarker_ne_nil _)]

end MshIO
