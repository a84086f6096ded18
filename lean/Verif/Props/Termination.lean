import Verif.Model.Formats
import Verif.Spec.Execution
import Verif.Proofs.PostNoHang
import Verif.Proofs.Sim

/-!
# Termination of `load_msh` (C20, C21, C22)

The two unbounded loops of `src/load_msh.cpp` are described in `Spec/Execution.lean` once more as
transition relations, without any bound on the number of rounds.  The theorems
`forwardTo_hang_iff_endless` and `load_hang_iff_endless` say that the outcome `hang` of the
model is exactly the existence of an infinite execution of one of these loops.
-/

namespace MshIO

/-! ## The model's `hang` is real divergence -/

/-- `forward_to` is reported as hanging exactly when its loop has an infinite execution. -/
theorem forwardTo_hang_iff_endless (flag : Bytes) (s : Stream) :
    forwardTo flag s = .hang ↔ Endless (FwdIter flag) ([], s) := by
  rw [forwardTo_eq]
  constructor
  · intro h
    obtain ⟨hf, he, hb⟩ := (fwd_hang_iff flag [] s).1 h
    exact ⟨fun _ => ([], s), rfl, fun _ => ⟨he, hb, inString_stuck hf⟩⟩
  · rintro ⟨f, h0, hs⟩
    have key : ∀ n k, forwardToFuel flag n (f k).1 (f k).2 = .hang := by
      intro n
      induction n with
      | zero => intro k; rfl
      | succ n ih =>
        intro k
        obtain ⟨h1, h2, h3⟩ := hs k
        rw [forwardToFuel_succ, if_neg (by simp [h1, h2]), Rd.bind_ok h3, ih]
    have := key (s.rem.length + 2) 0
    rw [h0] at this
    exact this

theorem loadFull_arrives {cfg : Cfg} {a b : MshSpec × Stream}
    (h : Relation.ReflTransGen (MainIter cfg) a b) : loadFull cfg a.1 a.2 = loadFull cfg b.1 b.2 := by
  induction h with
  | refl => rfl
  | tail _ h ih => rw [ih, loadFull_round_ok h.1 h.2]

theorem loadFull_hang (cfg : Cfg) (k : Nat) : ∀ (spec : MshSpec) (s : Stream), s.rem.length ≤ k →
    loadFull cfg spec s = .hang →
    ∃ x, Relation.ReflTransGen (MainIter cfg) (spec, s) x ∧ x.2.eof = false ∧
      (x.2.fail = true ∨ loadRound cfg x.1 x.2 = .hang) := by
  induction k using Nat.strongRecOn with
  | ind k ih =>
    intro spec s hk h
    cases he : s.eof with
    | true => rw [loadFull_eof he] at h; cases h
    | false =>
      cases hf : s.fail with
      | true => exact ⟨(spec, s), .refl, he, Or.inl hf⟩
      | false =>
        rw [loadFull_round he, Rd.bind_def] at h
        cases hr : loadRound cfg spec s with
        | ok q =>
          rw [hr] at h
          simp only at h
          have hp := loadRound_progress (by simp [Stream.good, he, hf]) hr
          rcases hp with hp | hp
          · rw [loadFull_eof hp] at h; cases h
          · obtain ⟨x, hx, hx'⟩ := ih q.2.rem.length (by omega) q.1 q.2 le_rfl h
            exact ⟨x, .head ⟨he, hr⟩ hx, hx'⟩
        | hang => exact ⟨(spec, s), .refl, he, Or.inr hr⟩
        | throw e => rw [hr] at h; cases h
        | abort => rw [hr] at h; cases h
        | ub => rw [hr] at h; cases h

theorem loadStream_hang_iff_full (cfg : Cfg) (s : Stream) :
    loadStream cfg s = .hang ↔ loadFull cfg {} s = .hang := by
  rw [loadStream_eq]
  cases loadFull cfg {} s with
  | ok q => simpa using (NoHang.loadPostProcess cfg q.1).ne
  | hang => simp
  | throw e => simp
  | abort => simp
  | ub => simp

/-- `load_msh` is reported as hanging exactly when the main loop has an infinite execution, or when
it arrives at a round in which `forward_to` has one. -/
theorem load_hang_iff_endless (cfg : Cfg) (s : Stream) :
    loadStream cfg s = .hang ↔ Endless (MainIter cfg) ({}, s) ∨
      ∃ x r s1 spec s2, Arrives cfg s x ∧ x.2.eof = false ∧ inString [] x.2 = .ok (36 :: r, s1) ∧
        loadSection cfg (36 :: r) x.1 s1 = .ok (spec, s2) ∧
        Endless (FwdIter (endMarker (36 :: r))) ([], s2) := by
  rw [loadStream_hang_iff_full]
  constructor
  · intro h
    obtain ⟨x, hx, he, hf | hr⟩ := loadFull_hang cfg _ _ _ le_rfl h
    · left
      have hstuck : Endless (MainIter cfg) x :=
        ⟨fun _ => x, rfl, fun _ => ⟨he, loadRound_stuck hf⟩⟩
      clear h he hf
      have hx' : Relation.ReflTransGen (MainIter cfg) ({}, s) x := hx
      generalize (({}, s) : MshSpec × Stream) = y at hx'
      clear hx
      induction hx' using Relation.ReflTransGen.head_induction_on with
      | refl => exact hstuck
      | head h1 _ ih =>
        obtain ⟨f, f0, fs⟩ := ih
        refine ⟨fun n => match n with | 0 => _ | n + 1 => f n, rfl, fun n => ?_⟩
        cases n with
        | zero => subst f0; exact h1
        | succ n => exact fs n
    · right
      obtain ⟨r, s1, sp, s2, e1, e2, e3, e4⟩ := (loadRound_hang_iff _ _ _).1 hr
      exact ⟨x, r, s1, sp, s2, hx, he, e1, e2,
        (forwardTo_hang_iff_endless _ _).1 (by rw [forwardTo_eq]; exact fwd_stuck e3 e4 (endMarker_ne_nil _))⟩
  · rintro (⟨f, h0, hs⟩ | ⟨x, r, s1, sp, s2, hx, he, e1, e2, e3⟩)
    · have key : ∀ n k, loadLoop cfg n (f k).1 (f k).2 = .hang := by
        intro n
        induction n with
        | zero => intro k; rfl
        | succ n ih =>
          intro k
          obtain ⟨h1, h2⟩ := hs k
          rw [loadLoop_succ, if_neg (by simp [h1]), Rd.bind_ok h2, ih]
      have := key (s.rem.length + 2) 0
      rw [h0] at this
      exact this
    · rw [loadFull_arrives hx, loadFull_round he, Rd.bind_def,
        (loadRound_hang_iff _ _ _).2 ⟨r, s1, sp, s2, e1, e2, ?_⟩]
      have := (forwardTo_hang_iff_endless _ _).2 e3
      rw [forwardTo_eq] at this
      exact ⟨((fwd_hang_iff _ _ _).1 this).1, ((fwd_hang_iff _ _ _).1 this).2.1⟩

/-- The same holds with any larger bound on the number of rounds in the model. -/
theorem load_rounds_irrelevant (cfg : Cfg) (spec : MshSpec) (s : Stream) (n : Nat)
    (hn : s.rem.length + 2 ≤ n) :
    loadLoop cfg n spec s = loadLoop cfg (s.rem.length + 2) spec s :=
  loadLoop_stable n _ spec s hn le_rfl

/-! ## C20: exactly which streams make `load_msh` loop forever -/

/-- Full claim (false): `load_msh` comes back on every file. -/
def C20_full : Prop := ∀ (cfg : Cfg) (file : Bytes), loadMsh cfg file ≠ .hang

/-- A release build used for concrete cases. -/
def demoCfg : Cfg := ⟨false, false, .general 6, 1000000, by decide⟩

/-- The file `$MeshFormat\n4.1 x` makes `load_msh` loop forever. -/
theorem C20_false : ¬ C20_full := by
  intro h
  exact h demoCfg (b! "$MeshFormat\n4.1 x") (by decide +kernel)

/-- `load_msh` loops forever exactly when the main loop arrives at a round that starts on a failed
stream which is not at end of file, or at a round whose section reader leaves the stream in that
state. -/
theorem C20_hang_iff (cfg : Cfg) (s : Stream) :
    loadStream cfg s = .hang ↔ ∃ spec s', Arrives cfg s (spec, s') ∧ s'.eof = false ∧
      (s'.fail = true ∨ ∃ r s1 spec' s2, inString [] s' = .ok (36 :: r, s1) ∧
        loadSection cfg (36 :: r) spec s1 = .ok (spec', s2) ∧ s2.fail = true ∧ s2.eof = false) := by
  rw [loadStream_hang_iff_full]
  constructor
  · intro h
    obtain ⟨x, hx, he, hf⟩ := loadFull_hang cfg _ _ _ le_rfl h
    exact ⟨x.1, x.2, hx, he, hf.imp id (loadRound_hang_iff _ _ _).1⟩
  · rintro ⟨spec, s', hx, he, hf | hr⟩
    · rw [loadFull_arrives hx]; exact loadFull_stuck hf he
    · rw [loadFull_arrives hx, loadFull_round he, Rd.bind_def, (loadRound_hang_iff _ _ _).2 hr]

/-- What remains true of C20 for all files: as long as no section reader fails before the end of
the file, `load_msh` comes back.  Missing from the full claim: files where a number does not parse
(there `load_msh` does not return, see `C20_false`). -/
theorem C20_partial (cfg : Cfg) (file : Bytes)
    (h : ∀ spec s' r s1 spec' s2, Arrives cfg (Stream.ofBytes file) (spec, s') →
      inString [] s' = .ok (36 :: r, s1) → loadSection cfg (36 :: r) spec s1 = .ok (spec', s2) →
      s2.fail = true → s2.eof = true) :
    loadMsh cfg file ≠ .hang := by
  intro hh
  obtain ⟨x, hx, he, hf⟩ := loadFull_hang cfg _ _ _ le_rfl ((loadStream_hang_iff_full _ _).1 hh)
  -- no round can start on a failed stream that is not at the end
  have inv : ∀ x, Arrives cfg (Stream.ofBytes file) x → x.2.eof = false → x.2.fail = false := by
    intro x hx
    induction hx with
    | refl => intro _; rfl
    | tail ha hb ih =>
      rename_i a b
      intro hb'
      have hg : a.2.good = true := by simp [Stream.good, hb.1, ih hb.1]
      have hr := hb.2
      unfold loadRound at hr
      obtain ⟨t, s1, h1⟩ := inString_ok [] a.2
      rw [Rd.bind_ok h1] at hr
      rcases inString_good hg h1 with hi | ⟨hi, _⟩
      · exfalso
        have hs := loadRound_step hb.2
        split at hr
        · obtain ⟨sp, s2, k1, k2⟩ := Rd.bind_eq_ok hr
          obtain ⟨_, s3, k3, k4⟩ := Rd.bind_eq_ok k2
          have e2 := (((tame_loadSection cfg _ a.1).all s1).2 _ _ k1).eof hi
          rw [forwardTo_eq] at k3
          rcases fwd_cases _ [] s2 with hq | ⟨s', e, hst⟩
          · rw [hq] at k3; cases k3
          · rw [k3] at e; cases e
            cases k4
            simp only at hb'
            rw [hst.eof e2] at hb'; cases hb'
        · cases hr; simp [hi] at hb'
      · split at hr
        · obtain ⟨sp, s2, k1, k2⟩ := Rd.bind_eq_ok hr
          obtain ⟨_, s3, k3, k4⟩ := Rd.bind_eq_ok k2
          cases k4
          simp only at hb' ⊢
          rw [forwardTo_eq] at k3
          have hsf := h _ _ _ _ _ _ ha h1 k1
          cases hs2 : s2.fail with
          | true =>
            have := hsf hs2
            rcases fwd_cases _ [] s2 with hq | ⟨s', e, hst⟩
            · rw [hq] at k3; cases k3
            · rw [k3] at e; cases e
              rw [hst.eof this] at hb'; cases hb'
          | false =>
            exact fwd_ok_good _ _ _ _ _ le_rfl k3 hs2 hb'
        · cases hr
          simp only at hb' ⊢
          exact ((Stream.good_iff _).1 hi).2
  rcases hf with hf | hr
  · rw [inv x hx he] at hf; cases hf
  · obtain ⟨r, s1, sp, s2, e1, e2, e3, e4⟩ := (loadRound_hang_iff _ _ _).1 hr
    rw [h x.1 x.2 r s1 sp s2 hx e1 e2 e3] at e4
    cases e4

/-- The hypothesis of `C20_partial` is met by a file with a data section cut short. -/
example : ∀ spec s' r s1 spec' s2,
    Arrives demoCfg (Stream.ofBytes (b! "$MeshFormat\n4.1 0 8\n$EndMeshFormat\n$Nodes\n1 2 1 2\n2 1 0 2\n1\n2\n0 0 0\n1 0 ")) (spec, s') →
    inString [] s' = .ok (36 :: r, s1) → loadSection demoCfg (36 :: r) spec s1 = .ok (spec', s2) →
    s2.fail = true → s2.eof = true := by
  intro spec s' r s1 spec' s2 h1 h2 h3 h4
  by_contra h5
  have : loadMsh demoCfg (b! "$MeshFormat\n4.1 0 8\n$EndMeshFormat\n$Nodes\n1 2 1 2\n2 1 0 2\n1\n2\n0 0 0\n1 0 ") ≠ .hang := by
    decide +kernel
  refine this ((C20_hang_iff demoCfg _).2 ⟨spec, s', h1, ?_, Or.inr ⟨r, s1, spec', s2, h2, h3, h4, by simpa using h5⟩⟩)
  cases he : s'.eof with
  | false => rfl
  | true =>
    rw [inString_bad (by simp [Stream.good, he])] at h2
    cases h2

/-! ## C21: cutting a file short never introduces an endless loop -/

/-- If `load_msh` loops forever on a prefix of a file, it loops forever on the file. -/
theorem C21_truncation (cfg : Cfg) (file pre : Bytes) (hp : pre <+: file)
    (h : loadMsh cfg file ≠ .hang) : loadMsh cfg pre ≠ .hang := by
  obtain ⟨rest, rfl⟩ := hp
  intro hh
  exact h ((loadStream_hang_iff_full _ _).2
    (loadFull_trunc cfg _ {} pre rest false le_rfl ((loadStream_hang_iff_full _ _).1 hh)))

/-- A complete file to which `C21_truncation` applies; every one of its prefixes comes back. -/
example (pre : Bytes)
    (hp : pre <+: b! "$MeshFormat\n4.1 0 8\n$EndMeshFormat\n$Nodes\n1 1 1 1\n2 1 0 1\n1\n0 0 0\n$EndNodes\n") :
    loadMsh demoCfg pre ≠ .hang :=
  C21_truncation demoCfg _ pre hp (by decide +kernel)

/-! ## C22: a failed stream handed to `load_msh` -/

/-- A stream that has failed without being at end of file (an `ifstream` that could not be opened)
makes `load_msh` loop forever. -/
theorem C22_failed_stream (cfg : Cfg) (s : Stream) (hf : s.fail = true) (he : s.eof = false) :
    loadStream cfg s = .hang ∧ Endless (MainIter cfg) ({}, s) :=
  ⟨(loadStream_hang_iff_full _ _).2 (loadFull_stuck hf he),
   fun _ => ({}, s), rfl, fun _ => ⟨he, loadRound_stuck hf⟩⟩

/-- A stream at end of file gives the default spec. -/
theorem C22_eof_stream (cfg : Cfg) (s : Stream) (he : s.eof = true) :
    loadStream cfg s = .ok {} := by
  rw [loadStream_eq, loadFull_eof he]
  rfl

example : loadStream demoCfg ⟨[], false, true⟩ = .hang := (C22_failed_stream _ _ rfl rfl).1
example : loadStream demoCfg ⟨b! "junk", true, false⟩ = .ok {} := C22_eof_stream _ _ rfl

end MshIO
