import Verif.Proofs.Tame

/-!
# The two loops of `load_msh`: round bounds do not matter

`loadFull` and `fwd` are the loops with the bound used by the model; their step equations are those
of the unbounded `while` loops.
-/

namespace MshIO

/-- `in >> str` on a stream that is not good: nothing happens except `failbit`. -/
theorem inString_bad {o : Bytes} {s : Stream} (h : s.good = false) :
    inString o s = .ok (o, { s with fail := true }) := by
  simp [inString, sentry, h]

/-- A stream that failed before the end of the file is stuck. -/
theorem inString_stuck {o : Bytes} {s : Stream} (h : s.fail = true) : inString o s = .ok (o, s) := by
  rw [inString_bad (by rw [Stream.good_false_iff]; exact Or.inr h)]
  cases s; simp_all

/-- What `in >> str` does on a good stream: either the end is reached, or a non-empty word is
extracted and at least one byte consumed. -/
theorem inString_good {o t : Bytes} {s s' : Stream} (hg : s.good = true)
    (h : inString o s = .ok (t, s')) :
    s'.eof = true ∨ (s'.good = true ∧ s'.rem.length < s.rem.length) := by
  obtain ⟨h1, h2, h3⟩ := sentry_step s
  unfold inString at h
  rcases hs : sentry s with ⟨b, s1⟩
  rw [hs] at h h1 h2 h3
  cases b with
  | false =>
    simp only [Outcome.ok.injEq, Prod.mk.injEq] at h
    rw [← h.2]
    left
    unfold sentry at hs
    rw [if_pos hg] at hs
    split at hs
    · cases hs; rfl
    · cases hs
  | true =>
    obtain ⟨_, c, r, e, hc, hsuf⟩ := h2 rfl
    simp only at e
    subst e
    simp only [Outcome.ok.injEq, Prod.mk.injEq] at h
    rw [← h.2]
    cases he : ((c :: r).dropWhile (fun c => !isSpace c)).isEmpty with
    | true => left; rfl
    | false =>
      right
      refine ⟨rfl, ?_⟩
      simp only
      rw [List.dropWhile_cons_of_pos (by simp [hc])]
      have a1 := (List.dropWhile_suffix (p := fun c => !isSpace c) (l := r)).length_le
      have a2 := hsuf.length_le
      simp only [List.length_cons] at a2
      omega

/-! ## `forward_to` -/

theorem forwardToFuel_succ (flag : Bytes) (n : Nat) (buf : Bytes) (s : Stream) :
    forwardToFuel flag (n + 1) buf s = if s.eof || buf == flag then .ok ((), s)
      else (inString buf >>= fun b => forwardToFuel flag n b) s := by
  rw [forwardToFuel]

theorem forwardToFuel_stuck {flag buf : Bytes} {s : Stream} (hf : s.fail = true) (he : s.eof = false)
    (hb : buf ≠ flag) (n : Nat) : forwardToFuel flag n buf s = .hang := by
  induction n with
  | zero => rfl
  | succ n ih =>
    rw [forwardToFuel_succ, if_neg (by simp [he, hb]), Rd.bind_ok (inString_stuck hf), ih]

theorem forwardToFuel_stable {flag : Bytes} (n : Nat) : ∀ (m : Nat) (buf : Bytes) (s : Stream),
    s.rem.length + 2 ≤ n → s.rem.length + 2 ≤ m →
    forwardToFuel flag n buf s = forwardToFuel flag m buf s := by
  induction n with
  | zero => intro m buf s h; omega
  | succ n ih =>
    intro m buf s hn hm
    cases m with
    | zero => omega
    | succ m =>
      by_cases hx : (s.eof || buf == flag) = true
      · rw [forwardToFuel_succ, forwardToFuel_succ, if_pos hx, if_pos hx]
      · have hx' := hx
        simp only [Bool.or_eq_true, beq_iff_eq, not_or, Bool.not_eq_true] at hx'
        by_cases hf : s.fail = true
        · rw [forwardToFuel_stuck hf hx'.1 hx'.2, forwardToFuel_stuck hf hx'.1 hx'.2]
        · have hg : s.good = true := by rw [Stream.good_iff]; exact ⟨hx'.1, by simpa using hf⟩
          rw [forwardToFuel_succ, forwardToFuel_succ, if_neg hx, if_neg hx, Rd.bind_def, Rd.bind_def]
          cases hi : inString buf s with
          | ok r =>
            obtain ⟨b, s'⟩ := r
            simp only
            rcases inString_good hg hi with h | ⟨_, h⟩
            · obtain ⟨n', rfl⟩ : ∃ n', n = n' + 1 := ⟨n - 1, by omega⟩
              obtain ⟨m', rfl⟩ : ∃ m', m = m' + 1 := ⟨m - 1, by omega⟩
              rw [forwardToFuel_succ, forwardToFuel_succ, if_pos (by simp [h]), if_pos (by simp [h])]
            · exact ih m b s' (by omega) (by omega)
          | throw e => rfl
          | abort => rfl
          | ub => rfl
          | hang => rfl

/-- `forward_to` entered with `buf` as the last word read. -/
def fwd (flag buf : Bytes) : Rd Unit := fun s => forwardToFuel flag (s.rem.length + 2) buf s

theorem forwardTo_eq (flag : Bytes) : forwardTo flag = fwd flag [] := rfl

theorem fwd_step (flag buf : Bytes) (s : Stream) :
    fwd flag buf s = if s.eof || buf == flag then .ok ((), s) else (inString buf >>= fwd flag) s := by
  have e : ∀ b s, fwd flag b s = forwardToFuel flag (s.rem.length + 2) b s := fun _ _ => rfl
  rw [e, forwardToFuel_succ]
  split
  · rfl
  · rename_i hx
    simp only [Bool.or_eq_true, beq_iff_eq, not_or, Bool.not_eq_true] at hx
    rw [Rd.bind_def, Rd.bind_def]
    cases hi : inString buf s with
    | ok r =>
      obtain ⟨b, s'⟩ := r
      simp only
      rw [e]
      have ht := ((tame_inString buf).all s).2 _ _ hi
      have hl := ht.length_le
      by_cases hf : s.fail = true
      · rw [inString_stuck hf] at hi
        simp only [Outcome.ok.injEq, Prod.mk.injEq] at hi
        obtain ⟨rfl, rfl⟩ := hi
        rw [forwardToFuel_stuck hf hx.1 hx.2, forwardToFuel_stuck hf hx.1 hx.2]
      · have hg : s.good = true := by rw [Stream.good_iff]; exact ⟨hx.1, by simpa using hf⟩
        rcases inString_good hg hi with h | ⟨_, h⟩
        · rw [forwardToFuel_succ, forwardToFuel_succ, if_pos (by simp [h]), if_pos (by simp [h])]
        · exact forwardToFuel_stable _ _ _ _ (by omega) (by omega)
    | throw e => rfl
    | abort => rfl
    | ub => rfl
    | hang => rfl

theorem fwd_stuck {flag buf : Bytes} {s : Stream} (hf : s.fail = true) (he : s.eof = false)
    (hb : buf ≠ flag) : fwd flag buf s = .hang := forwardToFuel_stuck hf he hb _

/-- Normal exits of `forward_to` are steps, and it only exits or hangs. -/
theorem forwardToFuel_cases {flag : Bytes} (n : Nat) : ∀ (buf : Bytes) (s : Stream),
    forwardToFuel flag n buf s = .hang ∨
      ∃ s', forwardToFuel flag n buf s = .ok ((), s') ∧ Step s s' := by
  induction n with
  | zero => intro buf s; exact Or.inl rfl
  | succ n ih =>
    intro buf s
    rw [forwardToFuel_succ]
    split
    · exact Or.inr ⟨s, rfl, Step.refl s⟩
    · have ht := (tame_inString buf).all s
      rw [Rd.bind_def]
      cases hi : inString buf s with
      | ok r =>
        obtain ⟨b, s'⟩ := r
        simp only
        rcases ih b s' with h | ⟨s'', h, hs⟩
        · exact Or.inl h
        · exact Or.inr ⟨s'', h, (ht.2 _ _ hi).trans hs⟩
      | hang => exact absurd hi ht.1
      | throw e =>
        unfold inString at hi; split at hi <;> cases hi
      | abort => unfold inString at hi; split at hi <;> cases hi
      | ub => unfold inString at hi; split at hi <;> cases hi

theorem fwd_cases (flag buf : Bytes) (s : Stream) :
    fwd flag buf s = .hang ∨ ∃ s', fwd flag buf s = .ok ((), s') ∧ Step s s' :=
  forwardToFuel_cases _ buf s

/-- On a good stream `forward_to` always comes back. -/
theorem fwd_good (flag : Bytes) (k : Nat) : ∀ (buf : Bytes) (s : Stream), s.rem.length ≤ k →
    s.good = true → ∃ s', fwd flag buf s = .ok ((), s') ∧ Step s s' := by
  induction k with
  | zero =>
    intro buf s hk hg
    rw [fwd_step]
    split
    · exact ⟨s, rfl, Step.refl s⟩
    · have ht := (tame_inString buf).all s
      obtain ⟨b, s', hi⟩ : ∃ b s', inString buf s = .ok (b, s') := by
        unfold inString; split <;> exact ⟨_, _, rfl⟩
      rw [Rd.bind_ok hi]
      rcases inString_good hg hi with h | ⟨_, h⟩
      · rw [fwd_step, if_pos (by simp [h])]
        exact ⟨s', rfl, ht.2 _ _ hi⟩
      · omega
  | succ k ih =>
    intro buf s hk hg
    rw [fwd_step]
    split
    · exact ⟨s, rfl, Step.refl s⟩
    · have ht := (tame_inString buf).all s
      obtain ⟨b, s', hi⟩ : ∃ b s', inString buf s = .ok (b, s') := by
        unfold inString; split <;> exact ⟨_, _, rfl⟩
      rw [Rd.bind_ok hi]
      rcases inString_good hg hi with h | ⟨hg', h⟩
      · rw [fwd_step, if_pos (by simp [h])]
        exact ⟨s', rfl, ht.2 _ _ hi⟩
      · obtain ⟨s'', h'', hs''⟩ := ih b s' (by omega) hg'
        exact ⟨s'', h'', (ht.2 _ _ hi).trans hs''⟩

/-! ## The main loop -/

theorem loadLoop_succ (cfg : Cfg) (n : Nat) (spec : MshSpec) (s : Stream) :
    loadLoop cfg (n + 1) spec s = if s.eof then .ok (spec, s)
      else (loadRound cfg spec >>= fun spec => loadLoop cfg n spec) s := by
  rw [loadLoop]

theorem loadRound_stuck {cfg : Cfg} {spec : MshSpec} {s : Stream} (hf : s.fail = true) :
    loadRound cfg spec s = .ok (spec, s) := by
  unfold loadRound
  rw [Rd.bind_ok (inString_stuck hf)]
  rfl

/-- Normal exits of a round are steps. -/
theorem loadRound_step {cfg : Cfg} {spec spec' : MshSpec} {s s' : Stream}
    (h : loadRound cfg spec s = .ok (spec', s')) : Step s s' := by
  unfold loadRound at h
  obtain ⟨buf, s1, h1, h⟩ := Rd.bind_eq_ok h
  have t1 := ((tame_inString []).all s).2 _ _ h1
  split at h
  · obtain ⟨sp, s2, h2, h⟩ := Rd.bind_eq_ok h
    have t2 := ((tame_loadSection cfg _ spec).all s1).2 _ _ h2
    obtain ⟨_, s3, h3, h⟩ := Rd.bind_eq_ok h
    simp only [Rd.pure_def, Outcome.ok.injEq, Prod.mk.injEq] at h
    rw [← h.2]
    rcases fwd_cases (endMarker _) [] s2 with h' | ⟨s4, h', hs⟩
    · rw [forwardTo_eq, h'] at h3; cases h3
    · rw [forwardTo_eq, h'] at h3
      simp only [Outcome.ok.injEq, Prod.mk.injEq] at h3
      rw [← h3.2]
      exact t1.trans (t2.trans hs)
  · simp only [Rd.pure_def, Outcome.ok.injEq, Prod.mk.injEq] at h
    rw [← h.2]; exact t1

/-- A completed round on a good stream reaches the end of the file or consumes a byte. -/
theorem loadRound_progress {cfg : Cfg} {spec spec' : MshSpec} {s s' : Stream} (hg : s.good = true)
    (h : loadRound cfg spec s = .ok (spec', s')) :
    s'.eof = true ∨ s'.rem.length < s.rem.length := by
  unfold loadRound at h
  obtain ⟨buf, s1, h1, h⟩ := Rd.bind_eq_ok h
  have key : Step s1 s' := by
    split at h
    · obtain ⟨sp, s2, h2, h⟩ := Rd.bind_eq_ok h
      have t2 := ((tame_loadSection cfg _ spec).all s1).2 _ _ h2
      obtain ⟨_, s3, h3, h⟩ := Rd.bind_eq_ok h
      simp only [Rd.pure_def, Outcome.ok.injEq, Prod.mk.injEq] at h
      rw [← h.2]
      rcases fwd_cases (endMarker _) [] s2 with h' | ⟨s4, h', hs⟩
      · rw [forwardTo_eq, h'] at h3; cases h3
      · rw [forwardTo_eq, h'] at h3
        simp only [Outcome.ok.injEq, Prod.mk.injEq] at h3
        rw [← h3.2]
        exact t2.trans hs
    · simp only [Rd.pure_def, Outcome.ok.injEq, Prod.mk.injEq] at h
      rw [← h.2]; exact Step.refl _
  rcases inString_good hg h1 with h' | ⟨_, h'⟩
  · exact Or.inl (key.eof h')
  · exact Or.inr (lt_of_le_of_lt key.length_le h')

theorem loadLoop_stuck {cfg : Cfg} {spec : MshSpec} {s : Stream} (hf : s.fail = true)
    (he : s.eof = false) (n : Nat) : loadLoop cfg n spec s = .hang := by
  induction n with
  | zero => rfl
  | succ n ih => rw [loadLoop_succ, if_neg (by simp [he]), Rd.bind_ok (loadRound_stuck hf), ih]

theorem loadLoop_stable {cfg : Cfg} (n : Nat) : ∀ (m : Nat) (spec : MshSpec) (s : Stream),
    s.rem.length + 2 ≤ n → s.rem.length + 2 ≤ m → loadLoop cfg n spec s = loadLoop cfg m spec s := by
  induction n with
  | zero => intro m spec s h; omega
  | succ n ih =>
    intro m spec s hn hm
    cases m with
    | zero => omega
    | succ m =>
      by_cases he : s.eof = true
      · rw [loadLoop_succ, loadLoop_succ, if_pos he, if_pos he]
      · by_cases hf : s.fail = true
        · rw [loadLoop_stuck hf (by simpa using he), loadLoop_stuck hf (by simpa using he)]
        · have hg : s.good = true := by rw [Stream.good_iff]; exact ⟨by simpa using he, by simpa using hf⟩
          rw [loadLoop_succ, loadLoop_succ, if_neg he, if_neg he, Rd.bind_def, Rd.bind_def]
          cases hi : loadRound cfg spec s with
          | ok r =>
            obtain ⟨sp, s'⟩ := r
            simp only
            rcases loadRound_progress hg hi with h | h
            · obtain ⟨n', rfl⟩ : ∃ n', n = n' + 1 := ⟨n - 1, by omega⟩
              obtain ⟨m', rfl⟩ : ∃ m', m = m' + 1 := ⟨m - 1, by omega⟩
              rw [loadLoop_succ, loadLoop_succ, if_pos h, if_pos h]
            · exact ih m sp s' (by omega) (by omega)
          | throw e => rfl
          | abort => rfl
          | ub => rfl
          | hang => rfl

/-- The main loop with the bound used by `loadStream`. -/
def loadFull (cfg : Cfg) (spec : MshSpec) : Rd MshSpec := fun s =>
  loadLoop cfg (s.rem.length + 2) spec s

theorem loadFull_stuck {cfg : Cfg} {spec : MshSpec} {s : Stream} (hf : s.fail = true)
    (he : s.eof = false) : loadFull cfg spec s = .hang := loadLoop_stuck hf he _

theorem loadFull_step (cfg : Cfg) (spec : MshSpec) (s : Stream) :
    loadFull cfg spec s = if s.eof then .ok (spec, s) else (loadRound cfg spec >>= loadFull cfg) s := by
  have e : ∀ sp s, loadFull cfg sp s = loadLoop cfg (s.rem.length + 2) sp s := fun _ _ => rfl
  rw [e, loadLoop_succ]
  split
  · rfl
  · rename_i he
    rw [Rd.bind_def, Rd.bind_def]
    cases hi : loadRound cfg spec s with
    | ok r =>
      obtain ⟨sp, s'⟩ := r
      simp only
      rw [e]
      by_cases hf : s.fail = true
      · rw [loadRound_stuck hf] at hi
        simp only [Outcome.ok.injEq, Prod.mk.injEq] at hi
        obtain ⟨rfl, rfl⟩ := hi
        rw [loadLoop_stuck hf (by simpa using he), loadLoop_stuck hf (by simpa using he)]
      · have hg : s.good = true := by rw [Stream.good_iff]; exact ⟨by simpa using he, by simpa using hf⟩
        have hl := (loadRound_step hi).length_le
        rcases loadRound_progress hg hi with h | h
        · rw [loadLoop_succ, loadLoop_succ, if_pos h, if_pos h]
        · exact loadLoop_stable _ _ _ _ (by omega) (by omega)
    | throw e => rfl
    | abort => rfl
    | ub => rfl
    | hang => rfl

theorem loadFull_eof {cfg : Cfg} {spec : MshSpec} {s : Stream} (he : s.eof = true) :
    loadFull cfg spec s = .ok (spec, s) := by rw [loadFull_step, if_pos he]

theorem loadFull_round {cfg : Cfg} {spec : MshSpec} {s : Stream} (he : s.eof = false) :
    loadFull cfg spec s = (loadRound cfg spec >>= loadFull cfg) s := by
  rw [loadFull_step, if_neg (by simp [he])]

theorem loadFull_round_ok {cfg : Cfg} {spec spec' : MshSpec} {s s' : Stream} (he : s.eof = false)
    (h : loadRound cfg spec s = .ok (spec', s')) : loadFull cfg spec s = loadFull cfg spec' s' := by
  rw [loadFull_round he, Rd.bind_ok h]

theorem loadStream_eq (cfg : Cfg) (s : Stream) :
    loadStream cfg s = match loadFull cfg {} s with
      | .ok (spec, _) => loadPostProcess cfg spec
      | .throw e => .throw e
      | .abort => .abort
      | .ub => .ub
      | .hang => .hang := rfl

end MshIO
