import Verif.Proofs.Broken

/-!
# Input that can fail: streams that do not, and files that end in white space

`emb s` is the stream `s` of the first model as one that does not break; `twin s` is a broken stream that holds the same bytes.
-/

namespace MshIO.Broken

/-- The same stream. -/
def emb (s : MshIO.Stream) : Stream := ⟨s.rem, s.eof, s.fail, false⟩

/-- A stream with the same bytes which breaks after them. -/
def twin (s : MshIO.Stream) : Stream := ⟨s.rem, false, !s.good, true⟩

/-- Nothing, or a last byte that is white space. -/
def EndsBlank (b : Bytes) : Prop := b = [] ∨ ∃ p c, b = p ++ [c] ∧ isSpace c = true

theorem EndsBlank.suffix {a b : Bytes} (h : EndsBlank b) (hs : a <:+ b) : EndsBlank a := by
  rcases h with rfl | ⟨p, c, rfl, hc⟩
  · exact .inl (List.suffix_nil.1 hs)
  · rcases List.eq_nil_or_concat a with rfl | ⟨q, d, rfl⟩
    · exact .inl rfl
    · obtain ⟨t, ht⟩ := hs
      rw [List.concat_eq_append, ← List.append_assoc] at ht
      have := List.append_inj_right' ht rfl
      exact .inr ⟨q, d, by simp, by simp_all⟩

theorem EndsBlank.nil : EndsBlank [] := .inl rfl

theorem EndsBlank.cons {c : UInt8} {r : Bytes} (h : EndsBlank (c :: r)) (hc : isSpace c = false) : r ≠ [] ∧ EndsBlank r := by
  refine ⟨?_, h.suffix (List.suffix_cons _ _)⟩
  rintro rfl
  rcases h with h | ⟨p, d, h, hd⟩
  · cases h
  · have e : p = [] ∧ c = d := by
      cases p with
      | nil => simpa using h
      | cons x p => simp at h
    rw [e.2, hd] at hc
    cases hc

/-- The first blank stops a run of other characters. -/
theorem EndsBlank.stops {f : UInt8 → Bool} (hf : ∀ c, isSpace c = true → f c = false) : ∀ {b : Bytes}, EndsBlank b → b ≠ [] → b.dropWhile f ≠ []
  | [], _, h0 => absurd rfl h0
  | c :: r, h, _ => by
    rw [List.dropWhile_cons]
    cases hc : f c with
    | false => simp
    | true =>
      have hs : isSpace c = false := by
        cases hs : isSpace c with
        | false => rfl
        | true => rw [hf c hs] at hc; cases hc
      obtain ⟨h1, h2⟩ := h.cons hs
      simpa using stops hf h2 h1

theorem space_not_digit (c : UInt8) (h : isSpace c = true) : isDigit c = false := by
  cases hd : isDigit c with
  | false => rfl
  | true =>
    unfold isSpace at h
    unfold isDigit at hd
    simp only [Bool.or_eq_true, Bool.and_eq_true, beq_iff_eq, decide_eq_true_eq, UInt8.le_iff_toNat_le, ← UInt8.toNat_inj] at h hd
    simp at h hd
    omega

theorem EndsBlank.sign {b : Bytes} (h : EndsBlank b) (h0 : b ≠ []) : (scanSign b).2 ≠ [] ∧ EndsBlank (scanSign b).2 := by
  refine ⟨?_, h.suffix (scanSign_suffix b)⟩
  unfold scanSign
  split
  · exact (h.cons (by decide)).1
  · exact (h.cons (by decide)).1
  · exact h0

theorem EndsBlank.digits {b : Bytes} (h : EndsBlank b) (h0 : b ≠ []) : b.dropWhile isDigit ≠ [] ∧ EndsBlank (b.dropWhile isDigit) :=
  ⟨EndsBlank.stops space_not_digit h h0, h.suffix (List.dropWhile_suffix _)⟩

theorem EndsBlank.int {b : Bytes} (h : EndsBlank b) (h0 : b ≠ []) : (scanInt b).2.2 ≠ [] ∧ EndsBlank (scanInt b).2.2 := by
  obtain ⟨h1, h2⟩ := h.sign h0
  unfold scanInt
  exact h2.digits h1

theorem EndsBlank.frac {b : Bytes} (h : EndsBlank b) (h0 : b ≠ []) : (scanFrac b).2 ≠ [] ∧ EndsBlank (scanFrac b).2 := by
  unfold scanFrac
  split
  · obtain ⟨h1, h2⟩ := h.cons (by decide)
    exact h2.digits h1
  · exact ⟨h0, h⟩

theorem EndsBlank.float {b : Bytes} (h : EndsBlank b) (h0 : b ≠ []) : (scanFloat b).rest ≠ [] ∧ EndsBlank (scanFloat b).rest := by
  obtain ⟨h1, h2⟩ := h.sign h0
  obtain ⟨h3, h4⟩ := h2.digits h1
  obtain ⟨h5, h6⟩ := h4.frac h3
  unfold scanFloat
  simp only
  split
  · rename_i c r e
    rw [e] at h5 h6
    split
    · rename_i hc
      have : isSpace c = false := by
        simp only [Bool.and_eq_true, Bool.or_eq_true, beq_iff_eq] at hc
        rcases hc.1 with rfl | rfl <;> decide
      obtain ⟨h7, h8⟩ := h6.cons this
      obtain ⟨h9, h10⟩ := h8.sign h7
      exact h10.digits h9
    · exact ⟨h5, h6⟩
  · rename_i e
    exact absurd e h5

theorem quotedBody_some (b : Bytes) : (∃ t r, quotedBody b = (t, some r) ∧ MshIO.quotedBody b = (t, ⟨r, false, false⟩) ∧ r <:+ b) ∨
    (∃ t, quotedBody b = (t, none) ∧ MshIO.quotedBody b = (t, ⟨[], true, true⟩)) := by
  fun_induction MshIO.quotedBody b with
  | case1 => exact .inr ⟨_, rfl, rfl⟩
  | case2 r => exact .inl ⟨_, _, rfl, rfl, List.suffix_cons _ _⟩
  | case3 => exact .inr ⟨_, rfl, rfl⟩
  | case4 c r t s hs ih =>
    rcases ih with ⟨t', r', h1, h2, h3⟩ | ⟨t', h1, h2⟩
    · rw [hs] at h2
      cases h2
      exact .inl ⟨c :: t, r', by rw [quotedBody, h1], rfl, h3.trans ((List.suffix_cons _ _).trans (List.suffix_cons _ _))⟩
    · rw [hs] at h2
      cases h2
      exact .inr ⟨c :: t, by rw [quotedBody, h1], rfl⟩
  | case5 c r h1 h2 h3 t s hs ih =>
    rcases ih with ⟨t', r', h4, h5, h6⟩ | ⟨t', h4, h5⟩
    · rw [hs] at h5
      cases h5
      refine .inl ⟨c :: t, r', ?_, rfl, h6.trans (List.suffix_cons _ _)⟩
      rw [quotedBody, h4] <;> assumption
    · rw [hs] at h5
      cases h5
      refine .inr ⟨c :: t, ?_, rfl⟩
      rw [quotedBody, h4] <;> assumption

theorem eatLoop_some (n : Nat) (b : Bytes) : (∃ r, eatLoop n b = some r ∧ MshIO.eatLoop n b = ⟨r, false, false⟩ ∧ r <:+ b) ∨
    (eatLoop n b = none ∧ MshIO.eatLoop n b = ⟨[], true, false⟩) := by
  induction b generalizing n with
  | nil => right; cases n <;> exact ⟨rfl, rfl⟩
  | cons c r ih =>
    cases n with
    | zero => exact .inl ⟨_, rfl, rfl, List.suffix_refl _⟩
    | succ n =>
      rw [eatLoop, MshIO.eatLoop]
      by_cases h : isEatSpace c = true
      · rw [if_pos h, if_pos h]
        rcases ih n with ⟨r', h1, h2, h3⟩ | h
        · exact .inl ⟨r', h1, h2, h3.trans (List.suffix_cons _ _)⟩
        · exact .inr h
      · rw [if_neg h, if_neg h]
        exact .inl ⟨_, rfl, rfl, List.suffix_refl _⟩

/-- What the two translations have in common. -/
structure Shape (T : MshIO.Stream → Stream) (br : Bool) (I : Bytes → Prop) : Prop where
  rem : ∀ s, (T s).rem = s.rem
  fine : ∀ b f, T ⟨b, false, f⟩ = ⟨b, false, f, br⟩
  past : ∀ (r : Bytes) (e f g : Bool), Stream.past ⟨r, e, f, br⟩ g = T ⟨[], true, g⟩
  spent : ∀ s : MshIO.Stream, s.good = false → (T s).good = false ∧ { T s with fail := true } = T { s with fail := true }
  suffix : ∀ {a b}, I b → a <:+ b → I a
  stops : br = true → ∀ b, I b → EndsBlank b

namespace Shape

variable {T : MshIO.Stream → Stream} {br : Bool} {I : Bytes → Prop} (S : Shape T br I)
include S

theorem nil {b : Bytes} (h : I b) : I [] := S.suffix h (List.nil_suffix)

theorem at_good {s : MshIO.Stream} (h : s.good = true) : s = ⟨s.rem, false, false⟩ := by
  obtain ⟨r, e, f⟩ := s
  simp only [MshIO.Stream.good, Bool.and_eq_true, Bool.not_eq_true'] at h
  rw [h.1, h.2]

/-- Streams that are not good behave the same under every operation that only sets `failbit` there. -/
theorem enter (s : MshIO.Stream) (hs : I s.rem) :
    (∃ c r, I (c :: r) ∧ MshIO.sentry s = (true, ⟨c :: r, false, false⟩) ∧ sentry (T s) = (true, ⟨c :: r, false, false, br⟩)) ∨
    (∃ s', I s'.rem ∧ MshIO.sentry s = (false, s') ∧ sentry (T s) = (false, T s')) := by
  cases hg : s.good with
  | false =>
    obtain ⟨h1, h2⟩ := S.spent s hg
    exact .inr ⟨{ s with fail := true }, hs, by simp [MshIO.sentry, hg], by simp [sentry, h1, h2]⟩
  | true =>
    rw [at_good S hg, S.fine]
    cases hd : s.rem.dropWhile isSpace with
    | nil => exact .inr ⟨⟨[], true, true⟩, S.nil hs, by simp [MshIO.sentry, MshIO.Stream.good, hd], by simp [sentry, Stream.good, hd, S.past]⟩
    | cons c r => exact .inl ⟨c, r, S.suffix hs (hd ▸ List.dropWhile_suffix _), by simp [MshIO.sentry, MshIO.Stream.good, hd], by simp [sentry, Stream.good, hd]⟩

theorem look (r rest : Bytes) (e f bad : Bool) : Stream.look ⟨r, e, f, br⟩ rest bad = T ⟨rest, rest.isEmpty, bad⟩ := by
  unfold Stream.look
  cases rest with
  | nil => simp [S.past]
  | cons c r => simp [S.fine]

/-- Numbers. -/
theorem number {β : Type} (c : UInt8) (r rest : Bytes) (bad : Bool) (v : β) (hs : I (c :: r)) (hr : rest <:+ c :: r) (h : br = true → rest ≠ []) :
    I rest ∧ (if br && rest.isEmpty then (.ok (none, Stream.past ⟨c :: r, false, false, br⟩ true) : Outcome (Option β × Stream)) else .ok (some v, Stream.look ⟨c :: r, false, false, br⟩ rest bad)) =
      .ok (some v, T ⟨rest, rest.isEmpty, bad⟩) := by
  refine ⟨S.suffix hs hr, ?_⟩
  rw [if_neg, S.look]
  intro hb
  simp only [Bool.and_eq_true, List.isEmpty_iff] at hb
  exact h hb.1 hb.2

theorem string (old : Bytes) : Along T I (MshIO.inString old) (inString old) := ⟨fun s hs => by
  left
  unfold MshIO.inString inString
  rcases S.enter s hs with ⟨c, r, h, h1, h2⟩ | ⟨s', h, h1, h2⟩
  · rw [h1, h2]
    exact ⟨_, _, rfl, by simp only [S.look], S.suffix h (List.dropWhile_suffix _)⟩
  · rw [h1, h2]
    exact ⟨_, _, rfl, rfl, h⟩⟩

theorem prims : Prims T I where
  rem := S.rem
  size := ⟨fun s hs => by
    left
    unfold MshIO.extractSize extractSize
    rcases S.enter s hs with ⟨c, r, h, h1, h2⟩ | ⟨s', h, h1, h2⟩
    · rw [h1, h2]
      have := S.number c r (scanInt (c :: r)).2.2 (convertU64 (scanInt (c :: r)).1 (scanInt (c :: r)).2.1).2 (convertU64 (scanInt (c :: r)).1 (scanInt (c :: r)).2.1).1 h
        ((List.dropWhile_suffix _).trans (scanSign_suffix _)) fun hb => ((S.stops hb _ h).int (by simp)).1
      exact ⟨_, _, rfl, this.2, this.1⟩
    · rw [h1, h2]
      exact ⟨_, _, rfl, rfl, h⟩⟩
  int := ⟨fun s hs => by
    left
    unfold MshIO.extractInt extractInt
    rcases S.enter s hs with ⟨c, r, h, h1, h2⟩ | ⟨s', h, h1, h2⟩
    · rw [h1, h2]
      have := S.number c r (scanInt (c :: r)).2.2 (convertI32 (scanInt (c :: r)).1 (scanInt (c :: r)).2.1).2 (convertI32 (scanInt (c :: r)).1 (scanInt (c :: r)).2.1).1 h
        ((List.dropWhile_suffix _).trans (scanSign_suffix _)) fun hb => ((S.stops hb _ h).int (by simp)).1
      exact ⟨_, _, rfl, this.2, this.1⟩
    · rw [h1, h2]
      exact ⟨_, _, rfl, rfl, h⟩⟩
  double := ⟨fun s hs => by
    left
    unfold MshIO.extractDouble extractDouble
    rcases S.enter s hs with ⟨c, r, h, h1, h2⟩ | ⟨s', h, h1, h2⟩
    · rw [h1, h2]
      have := S.number c r (scanFloat (c :: r)).rest (convertFloat (scanFloat (c :: r))).2 (convertFloat (scanFloat (c :: r))).1 h (scanFloat_suffix _)
        fun hb => ((S.stops hb _ h).float (by simp)).1
      exact ⟨_, _, rfl, this.2, this.1⟩
    · rw [h1, h2]
      exact ⟨_, _, rfl, rfl, h⟩⟩
  string := S.string
  quoted := fun old => ⟨fun s hs => by
    unfold MshIO.inQuoted inQuoted
    rcases S.enter s hs with ⟨c, r, h, h1, h2⟩ | ⟨s', h, h1, h2⟩
    · rw [h1, h2]
      simp only
      by_cases hc : c = 34
      · subst hc
        left
        simp only
        rcases quotedBody_some r with ⟨t, r', h3, h4, h5⟩ | ⟨t, h3, h4⟩
        · rw [h3, h4]
          exact ⟨_, _, rfl, by simp only [S.fine], S.suffix h (h5.trans (List.suffix_cons _ _))⟩
        · rw [h3, h4]
          exact ⟨_, _, rfl, by simp only [S.past], S.nil h⟩
      · have := (S.string old).run ⟨c :: r, false, false⟩ h
        rw [S.fine] at this
        split
        · rename_i e; cases e; exact absurd rfl hc
        · split
          · rename_i e; cases e; exact absurd rfl hc
          · exact this
    · rw [h1, h2]
      exact .inl ⟨_, _, rfl, rfl, h⟩⟩
  raw := fun old => ⟨fun s hs => by
    left
    unfold MshIO.readRaw readRaw
    cases hg : s.good with
    | false =>
      obtain ⟨h1, h2⟩ := S.spent s hg
      rw [h1, h2]
      exact ⟨_, _, rfl, rfl, hs⟩
    | true =>
      rw [at_good S hg, S.fine]
      by_cases hl : old.length ≤ s.rem.length
      · simp only [Stream.good, Bool.not_false, Bool.and_self, if_true, if_pos hl]
        exact ⟨_, _, rfl, by simp only [S.fine], S.suffix hs (List.drop_suffix _ _)⟩
      · simp only [Stream.good, Bool.not_false, Bool.and_self, if_true, if_neg hl]
        exact ⟨_, _, rfl, by simp only [S.past], S.nil hs⟩⟩
  var := ⟨fun s hs => by
    left
    unfold MshIO.readIntVar readIntVar
    simp only
    cases hg : s.good with
    | false =>
      obtain ⟨h1, h2⟩ := S.spent s hg
      rw [h1, h2]
      exact ⟨_, _, rfl, rfl, hs⟩
    | true =>
      rw [at_good S hg, S.fine]
      by_cases hl : 4 ≤ s.rem.length
      · simp only [Stream.good, Bool.not_false, Bool.and_self, if_true, if_pos hl]
        exact ⟨_, _, rfl, by simp only [S.fine], S.suffix hs (List.drop_suffix _ _)⟩
      · simp only [Stream.good, Bool.not_false, Bool.and_self, if_true, if_neg hl]
        exact ⟨_, _, rfl, by simp only [S.past], S.nil hs⟩⟩
  sizeVar := ⟨fun s hs => by
    left
    unfold MshIO.readSizeVar readSizeVar
    cases hg : s.good with
    | false =>
      obtain ⟨h1, h2⟩ := S.spent s hg
      rw [h1, h2]
      exact ⟨_, _, rfl, rfl, hs⟩
    | true =>
      rw [at_good S hg, S.fine]
      by_cases hl : 8 ≤ s.rem.length
      · simp only [Stream.good, Bool.not_false, Bool.and_self, if_true, if_pos hl]
        exact ⟨_, _, rfl, by simp only [S.fine], S.suffix hs (List.drop_suffix _ _)⟩
      · simp only [Stream.good, Bool.not_false, Bool.and_self, if_true, if_neg hl]
        exact ⟨_, _, rfl, by simp only [S.past], S.nil hs⟩⟩
  eat := fun n => ⟨fun s hs => by
    left
    unfold MshIO.eatWhiteSpace eatWhiteSpace
    cases hg : s.good with
    | false =>
      obtain ⟨h1, h2⟩ := S.spent s hg
      rw [h1, h2]
      exact ⟨_, _, rfl, rfl, hs⟩
    | true =>
      rw [at_good S hg, S.fine]
      simp only [Stream.good, Bool.not_false, Bool.and_self, if_true]
      rcases eatLoop_some n s.rem with ⟨r, h1, h2, h3⟩ | ⟨h1, h2⟩
      · rw [h1, h2]
        exact ⟨_, _, rfl, by simp only [S.fine], S.suffix hs h3⟩
      · rw [h1, h2]
        exact ⟨_, _, rfl, by simp only [S.past], S.nil hs⟩⟩
  good := fun cfg => ⟨fun s hs => by
    unfold MshIO.assertGood assertGood
    have : (T s).good = s.good := by
      cases hg : s.good with
      | false => exact (S.spent s hg).1
      | true => rw [at_good S hg, S.fine]; rfl
    rw [this]
    by_cases hc : (cfg.asserts && !s.good) = true
    · rw [if_pos hc, if_pos hc]; exact .inr (.inr (.inl ⟨rfl, rfl⟩))
    · rw [if_neg hc, if_neg hc]; exact .inl ⟨_, _, rfl, rfl, hs⟩⟩

end Shape

theorem shape_emb : Shape emb false fun _ => True where
  rem := fun _ => rfl
  fine := fun _ _ => rfl
  past := fun _ _ _ _ => rfl
  spent := fun s h => ⟨h, rfl⟩
  suffix := fun _ _ => trivial
  stops := fun h => by cases h

theorem shape_twin : Shape twin true EndsBlank where
  rem := fun _ => rfl
  fine := fun b f => by cases f <;> rfl
  past := fun _ _ _ g => by cases g <;> rfl
  spent := fun s h => by
    unfold twin
    rw [h]
    refine ⟨rfl, ?_⟩
    simp [MshIO.Stream.good]
  suffix := fun h hs => h.suffix hs
  stops := fun _ _ h => h

end MshIO.Broken
