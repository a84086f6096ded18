import Verif.Proofs.WarnFile

/-!
# Lemmas about the warnings a truncated file causes
-/

namespace MshIO

theorem said_lines (cfg : Cfg) (spec : MshSpec) (s : Stream) : ∃ ns, said cfg spec s = lines ns := by
  obtain ⟨ms, x, h1, h2⟩ := rounds_final cfg _ (spec, s) le_rfl
  have := said_rounds h1
  rw [said_final h2, ← lines_append] at this
  exact ⟨_, this⟩

/-- The round that starts in `s` writes first. -/
theorem said_starts {cfg : Cfg} {spec : MshSpec} {s : Stream} (he : s.eof = false) : ∃ ns, said cfg spec s = lineAt s ++ lines ns := by
  by_cases h : ∃ y, loadRound cfg spec s = .ok y
  · obtain ⟨⟨sp, s'⟩, h⟩ := h
    obtain ⟨ns, hn⟩ := said_lines cfg sp s'
    exact ⟨ns, by rw [said_round he h, hn]⟩
  · exact ⟨[], by rw [said_last he fun y hy => h ⟨y, hy⟩]; exact (List.append_nil _).symm⟩

/-- A round that comes to the end of the file is the last one. -/
theorem said_atEof {cfg : Cfg} {spec : MshSpec} {s : Stream} (he : s.eof = false) (h : AtEof (loadRound cfg spec s)) : said cfg spec s = lineAt s := by
  by_cases hy : ∃ y, loadRound cfg spec s = .ok y
  · obtain ⟨⟨sp, s'⟩, hy⟩ := hy
    rw [hy] at h
    rw [said_round he hy, said_eof h, List.append_nil]
  · exact said_last he fun y h => hy ⟨y, h⟩

theorem atEof_word {cfg : Cfg} {spec : MshSpec} {s s' : Stream} {t : Bytes} (hi : inString [] s = .ok (t, s')) (h : s'.eof = true) : AtEof (loadRound cfg spec s) := by
  unfold loadRound
  rw [Rd.bind_ok hi]
  split
  · rw [Rd.bind_def]
    have hl := atEof_of_tame (tame_loadSection cfg (36 :: ‹_›) spec) h
    cases hs : loadSection cfg (36 :: ‹_›) spec s' with
    | ok r =>
      rw [hs] at hl
      simp only
      have : forwardTo (endMarker (36 :: ‹_›)) r.2 = .ok ((), r.2) := by
        rw [forwardTo_eq, fwd_step, if_pos (by rw [show r.2.eof = true from hl]; rfl)]
      rw [Rd.bind_ok this]
      exact hl
    | hang => rw [hs] at hl; exact hl
    | throw e => trivial
    | abort => trivial
    | ub => trivial
  · exact h

/-- What is written about a truncated file `a`, besides what is written about the whole file. -/
structure CutName (a n : Bytes) : Prop where
  unknown : n ∉ knownSections true
  clean : ∀ c ∈ n, isSpace c = false
  last : 36 :: n <:+ a

theorem said_trunc (cfg : Cfg) (k : Nat) : ∀ (spec : MshSpec) (a b : Bytes) (f : Bool), a.length ≤ k →
    ∃ told untold extra, said cfg spec ⟨a ++ b, false, f⟩ = lines (told ++ untold) ∧ said cfg spec ⟨a, false, f⟩ = lines (told ++ extra) ∧
      (extra = [] ∨ ∃ n, extra = [n] ∧ CutName a n) := by
  induction k using Nat.strongRecOn with
  | ind k ih =>
    intro spec a b f hk
    cases f with
    | true => exact ⟨[], [], [], by rw [said_stuck rfl]; rfl, by rw [said_stuck rfl]; rfl, Or.inl rfl⟩
    | false =>
      change ∃ told untold extra, said cfg spec (gs (a ++ b)) = _ ∧ said cfg spec (gs a) = _ ∧ _
      rcases (tsim_inString []).sim.all a b false with h | ⟨t, r, f, e1, e2⟩
      · change AtEof (inString [] (gs a)) at h
        obtain ⟨t, s', hi⟩ : ∃ t s', inString [] (gs a) = .ok (t, s') := by
          unfold inString; split <;> exact ⟨_, _, rfl⟩
        rw [hi] at h
        change s'.eof = true at h
        obtain ⟨ns, hn⟩ := said_lines cfg spec (gs (a ++ b))
        have hs := said_atEof (cfg := cfg) (spec := spec) (s := gs a) rfl (atEof_word hi h)
        have hl : lineAt (gs a) = lines (unknownName t) := by
          unfold lineAt; rw [hi]
        refine ⟨[], ns, unknownName t, hn, by rw [hs, hl]; rfl, ?_⟩
        have hmem : ∀ n, n ∈ unknownName t → Strange a n := fun n hn => unknownName_strange (s := gs a) List.suffix_rfl hi hn
        have hlast : t = [] ∨ t <:+ a := by
          rcases (inString_word hi).2 with e | ⟨e, e'⟩
          · exact Or.inl e
          · rw [e'] at h
            have : s'.rem = [] := by simpa using h
            rw [this, List.append_nil] at e
            exact Or.inr e
        by_cases hu : unknownName t = []
        · exact Or.inl hu
        · right
          obtain ⟨n, rfl⟩ : ∃ n, t = 36 :: n := by
            unfold unknownName at hu
            split at hu
            · exact ⟨_, rfl⟩
            · exact absurd rfl hu
          have hu' : unknownName (36 :: n) = [n] := by
            have e : unknownName (36 :: n) = if n ∈ knownSections true then [] else [n] := rfl
            rw [e] at hu ⊢
            split at hu
            · exact absurd rfl hu
            · rename_i h; rw [if_neg h]
          have hst := hmem n (by rw [hu']; simp)
          refine ⟨n, hu', hst.unknown, hst.clean, ?_⟩
          rcases hlast with e | e
          · cases e
          · exact e
      · change inString [] (gs a) = _ at e1
        change inString [] (gs (a ++ b)) = _ at e2
        have hl1 : lineAt (gs a) = lines (unknownName t) := by unfold lineAt; rw [e1]
        have hl2 : lineAt (gs (a ++ b)) = lines (unknownName t) := by unfold lineAt; rw [e2]
        rcases loadRound_trunc cfg spec a b false with h | ⟨h1, h2⟩ | ⟨v, a', f', h1, h2⟩
        · obtain ⟨ns, hn⟩ := said_starts (cfg := cfg) (spec := spec) (s := gs (a ++ b)) rfl
          exact ⟨unknownName t, ns, [], by rw [hn, hl2, lines_append], by rw [said_atEof (s := gs a) rfl h, hl1, List.append_nil], Or.inl rfl⟩
        · refine ⟨unknownName t, [], [], ?_, ?_, Or.inl rfl⟩
          · rw [said_last rfl fun y hy => (by have := h2.symm.trans hy; cases this), hl2, List.append_nil]
          · rw [said_last rfl fun y hy => (by have := h1.symm.trans hy; cases this), hl1, List.append_nil]
        · have hp : a'.length < a.length := by
            rcases loadRound_progress (s := gs a) rfl h1 with h | h
            · cases h
            · exact h
          obtain ⟨told, untold, extra, i1, i2, i3⟩ := ih a'.length (by omega) v a' b f' le_rfl
          refine ⟨unknownName t ++ told, untold, extra, ?_, ?_, ?_⟩
          · rw [said_round rfl h2, hl2, i1, ← lines_append, List.append_assoc]
          · rw [said_round rfl h1, hl1, i2, ← lines_append, List.append_assoc]
          · rcases i3 with i3 | ⟨n, i3, i4⟩
            · exact Or.inl i3
            · exact Or.inr ⟨n, i3, i4.unknown, i4.clean, i4.last.trans (loadRound_step h1).suffix⟩

end MshIO
