import Verif.Proofs.BrokenEnds

/-!
# Input that can fail: the loops of the two models side by side
-/

namespace MshIO.Broken

/-! ## Streams that do not break -/

theorem along_forwardToFuel (flag : Bytes) (n : Nat) : ∀ buf, Along emb (fun _ => True) (MshIO.forwardToFuel flag n buf) (forwardToFuel flag n buf) := by
  induction n with
  | zero => intro buf; exact .hang
  | succ n ih =>
    intro buf
    refine ⟨fun s hs => ?_⟩
    rw [forwardToFuel_succ]
    change (∃ a s', (if (s.eof || buf == flag) = true then Outcome.ok ((), s) else (MshIO.inString buf >>= MshIO.forwardToFuel flag n : MshIO.Rd Unit) s) = .ok (a, s') ∧ _) ∨ _
    rw [show MshIO.forwardToFuel flag (n + 1) buf s = (if (s.eof || buf == flag) = true then Outcome.ok ((), s) else (MshIO.inString buf >>= MshIO.forwardToFuel flag n : MshIO.Rd Unit) s) from rfl]
    by_cases h : (s.eof || buf == flag) = true
    · rw [if_pos h, if_pos (show ((emb s).eof || buf == flag) = true from h)]
      exact .inl ⟨_, _, rfl, rfl, trivial⟩
    · rw [if_neg h, if_neg (show ¬ ((emb s).eof || buf == flag) = true from h)]
      exact ((shape_emb.string buf).bind ih).run s trivial

theorem along_forwardTo (flag : Bytes) : Along emb (fun _ => True) (MshIO.forwardTo flag) (forwardTo flag) := ⟨fun s hs => (along_forwardToFuel flag (s.rem.length + 2) []).run s hs⟩

theorem along_loadRound (cfg : Cfg) (spec : MshSpec) : Along emb (fun _ => True) (MshIO.loadRound cfg spec) (loadRound cfg spec) := by
  unfold MshIO.loadRound loadRound
  refine (shape_emb.string []).bind fun buf => ?_
  by_cases h : ∃ r, buf = 36 :: r
  · obtain ⟨r, rfl⟩ := h
    exact (shape_emb.prims.loadSection cfg _ spec).bind fun _ => (along_forwardTo _).bind fun _ => .pure _
  · split
    · rename_i r; exact absurd ⟨r, rfl⟩ h
    · split
      · rename_i e; exact absurd ⟨_, rfl⟩ h
      · exact .pure _

theorem along_loadLoop (cfg : Cfg) (n : Nat) : ∀ spec, Along emb (fun _ => True) (MshIO.loadLoop cfg n spec) (loadLoop cfg n spec) := by
  induction n with
  | zero => intro spec; exact .hang
  | succ n ih =>
    intro spec
    refine ⟨fun s hs => ?_⟩
    rw [loadLoop_succ, show MshIO.loadLoop cfg (n + 1) spec s = (if s.eof = true then Outcome.ok (spec, s) else (MshIO.loadRound cfg spec >>= MshIO.loadLoop cfg n : MshIO.Rd MshSpec) s) from rfl]
    by_cases h : s.eof = true
    · rw [if_pos h, if_pos (show (emb s).eof = true from h)]
      exact .inl ⟨_, _, rfl, rfl, trivial⟩
    · rw [if_neg h, if_neg (show ¬ (emb s).eof = true from h)]
      exact ((along_loadRound cfg spec).bind ih).run s trivial

/-! ## Files that end in white space -/

/-- The two runs end alike, except that where the first one is at the end of the file the other may hang. -/
structure Near {α : Type} (p : MshIO.Rd α) (q : Rd α) (s : MshIO.Stream) : Prop where
  run : (∃ a s', p s = .ok (a, s') ∧ EndsBlank s'.rem ∧ (q (twin s) = .ok (a, twin s') ∨ (s'.eof = true ∧ q (twin s) = .hang))) ∨
    (∃ e, p s = .throw e ∧ q (twin s) = .throw e) ∨ (p s = .abort ∧ q (twin s) = .abort) ∨ (p s = .ub ∧ q (twin s) = .ub) ∨ (p s = .hang ∧ q (twin s) = .hang)

theorem inString_kept {old t : Bytes} {s s' : MshIO.Stream} (hs : EndsBlank s.rem) (h : MshIO.inString old s = .ok (t, s')) (he : s'.eof = true) : t = old := by
  unfold MshIO.inString at h
  rcases shape_twin.enter s hs with ⟨c, r, hi, h1, _⟩ | ⟨s1, hi, h1, _⟩
  · rw [h1] at h
    simp only [Outcome.ok.injEq, Prod.mk.injEq] at h
    rw [← h.2] at he
    simp only [List.isEmpty_iff] at he
    exact absurd he (EndsBlank.stops (fun c hc => by simp [hc]) hi (by simp))
  · rw [h1] at h
    cases h
    rfl

theorem near_forwardToFuel (flag : Bytes) (n : Nat) : ∀ buf s, EndsBlank s.rem → (buf = flag → s.eof = false) →
    (∃ s', MshIO.forwardToFuel flag n buf s = .ok ((), s') ∧ EndsBlank s'.rem ∧ ((s'.eof = false ∧ forwardToFuel flag n buf (twin s) = .ok ((), twin s')) ∨
      (s'.eof = true ∧ forwardToFuel flag n buf (twin s) = .hang))) ∨
    (MshIO.forwardToFuel flag n buf s = .hang ∧ forwardToFuel flag n buf (twin s) = .hang) := by
  induction n with
  | zero => intro buf s _ _; exact .inr ⟨rfl, rfl⟩
  | succ n ih =>
    intro buf s hs hb
    rw [show MshIO.forwardToFuel flag (n + 1) buf s = (if (s.eof || buf == flag) = true then Outcome.ok ((), s) else (MshIO.inString buf >>= MshIO.forwardToFuel flag n : MshIO.Rd Unit) s) from rfl]
    cases he : s.eof with
    | true =>
      have hne : buf ≠ flag := fun e => by rw [hb e] at he; cases he
      rw [if_pos (by simp)]
      refine .inl ⟨s, rfl, hs, .inr ⟨he, forwardToFuel_stuck ?_ rfl hne _⟩⟩
      simp [twin, MshIO.Stream.good, he]
    | false =>
      rw [forwardToFuel_succ]
      by_cases h : buf = flag
      · rw [if_pos (by simp [h]), if_pos (by simp [h])]
        exact .inl ⟨s, rfl, hs, .inl ⟨he, rfl⟩⟩
      · rw [if_neg (by simp [h]), if_neg (by simp [h, twin]), bind_def, MshIO.Rd.bind_def]
        rcases (shape_twin.string buf).run s hs with ⟨t, s1, h1, h2, h3⟩ | ⟨e, h1, _⟩ | ⟨h1, _⟩ | ⟨h1, _⟩ | ⟨h1, h2⟩
        · rw [h1, h2]
          refine ih t s1 h3 fun ht => ?_
          cases h4 : s1.eof with
          | false => rfl
          | true => exact absurd ((inString_kept hs h1 h4).symm.trans ht) h
        · obtain ⟨t, s', k, _⟩ := inString_step buf (s := twin s) rfl rfl
          unfold MshIO.inString at h1
          split at h1 <;> cases h1
        · unfold MshIO.inString at h1
          split at h1 <;> cases h1
        · unfold MshIO.inString at h1
          split at h1 <;> cases h1
        · unfold MshIO.inString at h1
          split at h1 <;> cases h1

theorem near_loadRound (cfg : Cfg) (spec : MshSpec) (s : MshIO.Stream) (hs : EndsBlank s.rem) : Near (MshIO.loadRound cfg spec) (loadRound cfg spec) s := ⟨by
  unfold MshIO.loadRound loadRound
  rw [bind_def, MshIO.Rd.bind_def]
  rcases (shape_twin.string []).run s hs with ⟨t, s1, h1, h2, h3⟩ | ⟨e, h1, h2⟩ | ⟨h1, h2⟩ | ⟨h1, h2⟩ | ⟨h1, h2⟩ <;> rw [h1, h2]
  · simp only
    by_cases h : ∃ r, t = 36 :: r
    · obtain ⟨r, rfl⟩ := h
      simp only
      rw [bind_def, MshIO.Rd.bind_def]
      rcases (shape_twin.prims.loadSection cfg (36 :: r) spec).run s1 h3 with ⟨sp, s2, h4, h5, h6⟩ | ⟨e, h4, h5⟩ | ⟨h4, h5⟩ | ⟨h4, h5⟩ | ⟨h4, h5⟩ <;> rw [h4, h5]
      · simp only
        rw [bind_def, MshIO.Rd.bind_def]
        have hk := near_forwardToFuel (endMarker (36 :: r)) (s2.rem.length + 2) [] s2 h6 (fun e => by simp [endMarker] at e)
        change _ ∨ _ at hk
        rw [show MshIO.forwardTo (endMarker (36 :: r)) s2 = MshIO.forwardToFuel (endMarker (36 :: r)) (s2.rem.length + 2) [] s2 from rfl,
          show forwardTo (endMarker (36 :: r)) (twin s2) = forwardToFuel (endMarker (36 :: r)) (s2.rem.length + 2) [] (twin s2) from rfl]
        rcases hk with ⟨s3, k1, k2, ⟨k3, k4⟩ | ⟨k3, k4⟩⟩ | ⟨k1, k2⟩
        · rw [k1, k4]
          exact .inl ⟨_, _, rfl, k2, .inl rfl⟩
        · rw [k1, k4]
          exact .inl ⟨_, _, rfl, k2, .inr ⟨k3, rfl⟩⟩
        · rw [k1, k2]
          exact .inr (.inr (.inr (.inr ⟨rfl, rfl⟩)))
      · exact .inr (.inl ⟨_, rfl, rfl⟩)
      · exact .inr (.inr (.inl ⟨rfl, rfl⟩))
      · exact .inr (.inr (.inr (.inl ⟨rfl, rfl⟩)))
      · exact .inr (.inr (.inr (.inr ⟨rfl, rfl⟩)))
    · split
      · rename_i r; exact absurd ⟨r, rfl⟩ h
      · split
        · rename_i e; exact absurd ⟨_, rfl⟩ h
        · exact .inl ⟨_, _, rfl, h3, .inl rfl⟩
  · exact .inr (.inl ⟨_, rfl, rfl⟩)
  · exact .inr (.inr (.inl ⟨rfl, rfl⟩))
  · exact .inr (.inr (.inr (.inl ⟨rfl, rfl⟩)))
  · exact .inr (.inr (.inr (.inr ⟨rfl, rfl⟩)))⟩

/-- Where the run over a file is over, the run over its broken twin hangs; otherwise they end alike. -/
theorem twin_loadLoop (cfg : Cfg) (n : Nat) : ∀ spec s, EndsBlank s.rem → s.eof = false →
    loadLoop cfg n spec (twin s) = match MshIO.loadLoop cfg n spec s with
      | .ok _ => .hang
      | .throw e => .throw e
      | .abort => .abort
      | .ub => .ub
      | .hang => .hang := by
  induction n with
  | zero => intro spec s _ _; rfl
  | succ n ih =>
    intro spec s hs he
    rw [loadLoop_succ, show MshIO.loadLoop cfg (n + 1) spec s = (if s.eof = true then Outcome.ok (spec, s) else (MshIO.loadRound cfg spec >>= MshIO.loadLoop cfg n : MshIO.Rd MshSpec) s) from rfl,
      if_neg (by simp [twin]), if_neg (by simp [he]), bind_def, MshIO.Rd.bind_def]
    rcases (near_loadRound cfg spec s hs).run with ⟨sp, s1, h1, h2, h3 | ⟨h3, h4⟩⟩ | ⟨e, h1, h2⟩ | ⟨h1, h2⟩ | ⟨h1, h2⟩ | ⟨h1, h2⟩
    · rw [h1, h3]
      simp only
      cases h4 : s1.eof with
      | false => exact ih sp s1 h2 h4
      | true =>
        rw [loadLoop_stuck cfg (by simp [twin, MshIO.Stream.good, h4]) rfl]
        cases n with
        | zero => rfl
        | succ n =>
          rw [show MshIO.loadLoop cfg (n + 1) sp s1 = (if s1.eof = true then Outcome.ok (sp, s1) else (MshIO.loadRound cfg sp >>= MshIO.loadLoop cfg n : MshIO.Rd MshSpec) s1) from rfl, if_pos h4]
    · rw [h1, h4]
      simp only
      cases n with
      | zero => rfl
      | succ n =>
        rw [show MshIO.loadLoop cfg (n + 1) sp s1 = (if s1.eof = true then Outcome.ok (sp, s1) else (MshIO.loadRound cfg sp >>= MshIO.loadLoop cfg n : MshIO.Rd MshSpec) s1) from rfl, if_pos h3]
    · rw [h1, h2]
    · rw [h1, h2]
    · rw [h1, h2]
    · rw [h1, h2]

end MshIO.Broken
