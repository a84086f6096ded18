import Verif.Proofs.Loop

/-!
# Running a reader on a prefix of the input

`Sim p`: running `p` on the first part `a` of the input `a ++ b` either runs exactly as on the whole
input, or ends with `eofbit` set, or ends abnormally (but does not hang).
-/

namespace MshIO

/-- Anything but a normal return with `eofbit` clear, and not a hang. -/
def AtEof {α : Type} (x : Outcome (α × Stream)) : Prop :=
  match x with
  | .ok (_, s) => s.eof = true
  | .hang => False
  | _ => True

/-- `p` on a truncated input behaves as on the whole input until it notices the end. -/
structure Sim {α : Type} (p : Rd α) : Prop where
  of ::
  all : ∀ (a b : Bytes) (f : Bool), AtEof (p ⟨a, false, f⟩) ∨
    ∃ v a' f', p ⟨a, false, f⟩ = .ok (v, ⟨a', false, f'⟩) ∧
      p ⟨a ++ b, false, f⟩ = .ok (v, ⟨a' ++ b, false, f'⟩)

/-- Tame and truncation-compatible. -/
structure TSim {α : Type} (p : Rd α) : Prop where
  tame : Tame p
  sim : Sim p

section closure
variable {α β : Type}

theorem atEof_of_tame {p : Rd α} (h : Tame p) {s : Stream} (he : s.eof = true) : AtEof (p s) := by
  obtain ⟨h1, h2⟩ := h.all s
  cases hp : p s with
  | ok r => obtain ⟨a, s'⟩ := r; exact (h2 _ _ hp).eof he
  | throw e => trivial
  | abort => trivial
  | ub => trivial
  | hang => exact absurd hp h1

theorem TSim.pure (a : α) : TSim (Pure.pure a : Rd α) :=
  ⟨Tame.pure a, ⟨fun x _b f => Or.inr ⟨a, x, f, rfl, rfl⟩⟩⟩

theorem TSim.bind {p : Rd α} {g : α → Rd β} (h1 : TSim p) (h2 : ∀ a, TSim (g a)) :
    TSim (p >>= g) := by
  refine ⟨Tame.bind h1.tame fun a => (h2 a).tame, ⟨?_⟩⟩
  intro a b f
  rcases h1.sim.all a b f with h | ⟨v, a', f', e1, e2⟩
  · left
    rw [Rd.bind_def]
    cases hp : p ⟨a, false, f⟩ with
    | ok r =>
      obtain ⟨v, s'⟩ := r
      rw [hp] at h
      exact atEof_of_tame (h2 v).tame h
    | throw e => trivial
    | abort => trivial
    | ub => trivial
    | hang => rw [hp] at h; exact h
  · rw [Rd.bind_ok e1, Rd.bind_ok e2]
    exact (h2 v).sim.all a' b f'

theorem TSim.throw (e : Exc) : TSim (Rd.throw e : Rd α) := ⟨Tame.throw e, ⟨fun _ _ _ => Or.inl trivial⟩⟩
theorem TSim.ub : TSim (Rd.ub : Rd α) := ⟨Tame.ub, ⟨fun _ _ _ => Or.inl trivial⟩⟩

theorem TSim.lift {x : Outcome α} (h : NoHang x) : TSim (Rd.lift x) := by
  refine ⟨Tame.lift h, ⟨fun a b f => ?_⟩⟩
  cases x with
  | ok v => exact Or.inr ⟨v, a, f, rfl, rfl⟩
  | throw e => exact Or.inl trivial
  | abort => exact Or.inl trivial
  | ub => exact Or.inl trivial
  | hang => exact absurd rfl h.ne

theorem TSim.ite {c : Prop} [Decidable c] {p q : Rd α} (h1 : TSim p) (h2 : TSim q) :
    TSim (if c then p else q) := by split <;> assumption

theorem TSim.forEach {f : α → Rd α} (h : ∀ a, TSim (f a)) (l : List α) :
    TSim (MshIO.forEach f l) := by
  induction l with
  | nil => exact TSim.pure _
  | cons a l ih => exact TSim.bind (h a) fun _ => TSim.bind ih fun _ => TSim.pure _

theorem TSim.loopN {f : Nat → α → Rd α} (h : ∀ i a, TSim (f i a)) (n i : Nat) (a : α) :
    TSim (MshIO.loopN f n i a) := by
  induction n generalizing i a with
  | zero => exact TSim.pure _
  | succ n ih => exact TSim.bind (h i a) fun _ => ih _ _

end closure

/-! ## Primitive readers -/

theorem dropWhile_append_ne {p : UInt8 → Bool} {a b : Bytes} (h : a.dropWhile p ≠ []) :
    (a ++ b).dropWhile p = a.dropWhile p ++ b ∧ (a ++ b).takeWhile p = a.takeWhile p := by
  induction a with
  | nil => exact absurd rfl h
  | cons c a ih =>
    by_cases hc : p c = true
    · rw [List.dropWhile_cons_of_pos hc] at h
      obtain ⟨h1, h2⟩ := ih h
      simp only [List.cons_append, List.dropWhile_cons_of_pos hc, List.takeWhile_cons_of_pos hc, h1, h2]
      exact ⟨trivial, trivial⟩
    · simp only [List.cons_append, List.dropWhile_cons_of_neg hc, List.takeWhile_cons_of_neg hc]
      exact ⟨trivial, trivial⟩

theorem sentry_trunc (a b : Bytes) (f : Bool) :
    (sentry ⟨a, false, f⟩).2.eof = true ∧ (sentry ⟨a, false, f⟩).1 = false ∨
    ∃ r a' f', sentry ⟨a, false, f⟩ = (r, ⟨a', false, f'⟩) ∧
      sentry ⟨a ++ b, false, f⟩ = (r, ⟨a' ++ b, false, f'⟩) ∧ (r = true → a' ≠ [] ∧ f' = false) := by
  cases f with
  | true =>
    right
    exact ⟨false, a, true, rfl, rfl, by simp⟩
  | false =>
    cases h : a.dropWhile isSpace with
    | nil => left; simp [sentry, Stream.good, h]
    | cons c r =>
      right
      have hd := dropWhile_append_ne (b := b) (by rw [h]; simp : a.dropWhile isSpace ≠ [])
      refine ⟨true, c :: r, false, by simp [sentry, Stream.good, h], ?_, by simp⟩
      simp [sentry, Stream.good, hd.1, h]

/-- Readers that run the sentry and then scan. -/
theorem sim_of_sentry {α : Type} (p : Rd α) (fallback : α) (k : Stream → Outcome (α × Stream))
    (hp : ∀ s, p s = match sentry s with
      | (false, s') => .ok (fallback, s')
      | (true, s') => k s')
    (hk : ∀ a b, a ≠ [] → AtEof (k (gs a)) ∨
      ∃ v a' f', k (gs a) = .ok (v, ⟨a', false, f'⟩) ∧ k (gs (a ++ b)) = .ok (v, ⟨a' ++ b, false, f'⟩)) :
    Sim p := by
  refine ⟨fun a b f => ?_⟩
  rw [hp, hp]
  rcases sentry_trunc a b f with ⟨h1, h2⟩ | ⟨r, a', f', e1, e2, h3⟩
  · left
    rcases hs : sentry ⟨a, false, f⟩ with ⟨r, s'⟩
    rw [hs] at h1 h2
    simp only at h1 h2
    subst h2
    exact h1
  · rw [e1, e2]
    cases r with
    | false => exact Or.inr ⟨fallback, a', f', rfl, rfl⟩
    | true =>
      obtain ⟨h4, rfl⟩ := h3 rfl
      exact hk a' b h4

theorem scanSign_append {a : Bytes} (b : Bytes) (h : (scanSign a).2 ≠ []) :
    scanSign (a ++ b) = ((scanSign a).1, (scanSign a).2 ++ b) := by
  cases a with
  | nil => exact absurd rfl h
  | cons c r =>
    by_cases h1 : c = 45
    · subst h1; rfl
    · by_cases h2 : c = 43
      · subst h2; rfl
      · have e : ∀ r, scanSign (c :: r) = (false, c :: r) := by
          intro r; unfold scanSign; split <;> simp_all
        rw [List.cons_append, e, e]; rfl

theorem scanInt_append {a : Bytes} (b : Bytes) (h : (scanInt a).2.2 ≠ []) :
    scanInt (a ++ b) = ((scanInt a).1, (scanInt a).2.1, (scanInt a).2.2 ++ b) := by
  unfold scanInt at *
  simp only at h ⊢
  have h' : (scanSign a).2 ≠ [] := by
    intro e; rw [e] at h; exact h rfl
  rw [scanSign_append b h']
  obtain ⟨h1, h2⟩ := dropWhile_append_ne (b := b) h
  simp only [h1, h2]

theorem scanFrac_append {a : Bytes} (b : Bytes) (h : (scanFrac a).2 ≠ []) :
    scanFrac (a ++ b) = ((scanFrac a).1, (scanFrac a).2 ++ b) := by
  cases a with
  | nil => exact absurd rfl h
  | cons c r =>
    by_cases h1 : c = 46
    · subst h1
      have e : ∀ r, scanFrac (46 :: r) = (r.takeWhile isDigit, r.dropWhile isDigit) := fun _ => rfl
      rw [e] at h
      obtain ⟨h1, h2⟩ := dropWhile_append_ne (b := b) h
      rw [List.cons_append, e, e, h1, h2]
    · have e : ∀ r, scanFrac (c :: r) = ([], c :: r) := by
        intro r; unfold scanFrac; split <;> simp_all
      rw [List.cons_append, e, e]; rfl

theorem scanFloat_append {a : Bytes} (b : Bytes) (h : (scanFloat a).rest ≠ []) :
    scanFloat (a ++ b) = { scanFloat a with rest := (scanFloat a).rest ++ b } := by
  unfold scanFloat at *
  rcases hs : scanSign a with ⟨neg, r⟩
  rw [hs] at h
  simp only at h ⊢
  rcases hf : scanFrac (r.dropWhile isDigit) with ⟨fp, r2⟩
  rw [hf] at h
  simp only at h ⊢
  have hr2 : r2 ≠ [] := by rintro rfl; exact h rfl
  have hd : r.dropWhile isDigit ≠ [] := by
    intro e
    rw [e] at hf
    cases hf
    exact hr2 rfl
  have hr : (scanSign a).2 ≠ [] := by
    rw [hs]; rintro rfl; exact hd rfl
  rw [scanSign_append b hr, hs]
  simp only
  obtain ⟨d1, d2⟩ := dropWhile_append_ne (b := b) hd
  rw [d1, d2]
  have hfr := scanFrac_append b (a := r.dropWhile isDigit) (by rw [hf]; exact hr2)
  rw [hf] at hfr
  rw [hfr]
  simp only
  cases r2 with
  | nil => exact absurd rfl hr2
  | cons c r' =>
    simp only [List.cons_append]
    simp only at h
    split
    · rename_i hc
      rw [if_pos hc] at h
      rcases hs' : scanSign r' with ⟨eneg, r3⟩
      rw [hs'] at h
      simp only at h ⊢
      have hr3 : (scanSign r').2 ≠ [] := by rw [hs']; rintro rfl; exact h rfl
      rw [scanSign_append b hr3, hs']
      obtain ⟨d1, d2⟩ := dropWhile_append_ne (b := b) h
      simp only [d1, d2]
    · rfl

theorem isEmpty_append_ne {a b : Bytes} (h : a ≠ []) : (a ++ b).isEmpty = false := by
  cases a with
  | nil => exact absurd rfl h
  | cons c r => rfl

theorem isEmpty_ne {a : Bytes} (h : a ≠ []) : a.isEmpty = false := by
  cases a with
  | nil => exact absurd rfl h
  | cons c r => rfl

theorem tsim_extractSize : TSim extractSize := by
  refine ⟨tame_extractSize, sim_of_sentry _ none _ (fun s => rfl) ?_⟩
  intro a b _
  by_cases h : (scanInt a).2.2 = []
  · left; simp [AtEof, h]
  · right
    rw [scanInt_append b h]
    simp only [isEmpty_append_ne h, isEmpty_ne h]
    exact ⟨_, _, _, rfl, rfl⟩

theorem tsim_extractInt : TSim extractInt := by
  refine ⟨tame_extractInt, sim_of_sentry _ none _ (fun s => rfl) ?_⟩
  intro a b _
  by_cases h : (scanInt a).2.2 = []
  · left; simp [AtEof, h]
  · right
    rw [scanInt_append b h]
    simp only [isEmpty_append_ne h, isEmpty_ne h]
    exact ⟨_, _, _, rfl, rfl⟩

theorem convertFloat_rest (f : FloatScan) (r : Bytes) :
    convertFloat { f with rest := r } = convertFloat f := rfl

theorem tsim_extractDouble : TSim extractDouble := by
  refine ⟨tame_extractDouble, sim_of_sentry _ none _ (fun s => rfl) ?_⟩
  intro a b _
  by_cases h : (scanFloat a).rest = []
  · left; simp [AtEof, h]
  · right
    rw [scanFloat_append b h]
    simp only [isEmpty_append_ne h, isEmpty_ne h, convertFloat_rest]
    exact ⟨_, _, _, rfl, rfl⟩

theorem tsim_inSize (o : UInt64) : TSim (inSize o) := TSim.bind tsim_extractSize fun _ => TSim.pure _
theorem tsim_inInt (o : Int32) : TSim (inInt o) := TSim.bind tsim_extractInt fun _ => TSim.pure _
theorem tsim_inDouble (o : Double) : TSim (inDouble o) :=
  TSim.bind tsim_extractDouble fun _ => TSim.pure _
theorem tsim_inIntVar (o : Option Int32) : TSim (inIntVar o) :=
  TSim.bind tsim_extractInt fun a => by cases a <;> exact TSim.pure _

theorem sim_word {a : Bytes} (b : Bytes) (_ : a ≠ []) :
    AtEof ((fun s : Stream => let tok := s.rem.takeWhile (fun c => !isSpace c)
      let rest := s.rem.dropWhile (fun c => !isSpace c)
      (.ok (tok, ⟨rest, rest.isEmpty, false⟩) : Outcome (Bytes × Stream))) (gs a)) ∨
    ∃ v a' f', (fun s : Stream => let tok := s.rem.takeWhile (fun c => !isSpace c)
      let rest := s.rem.dropWhile (fun c => !isSpace c)
      (.ok (tok, ⟨rest, rest.isEmpty, false⟩) : Outcome (Bytes × Stream))) (gs a) = .ok (v, ⟨a', false, f'⟩) ∧
      (fun s : Stream => let tok := s.rem.takeWhile (fun c => !isSpace c)
      let rest := s.rem.dropWhile (fun c => !isSpace c)
      (.ok (tok, ⟨rest, rest.isEmpty, false⟩) : Outcome (Bytes × Stream))) (gs (a ++ b)) =
        .ok (v, ⟨a' ++ b, false, f'⟩) := by
  simp only
  by_cases h : a.dropWhile (fun c => !isSpace c) = []
  · left; simp [AtEof, h]
  · right
    obtain ⟨d1, d2⟩ := dropWhile_append_ne (b := b) h
    simp only [d1, d2, isEmpty_append_ne h, isEmpty_ne h]
    exact ⟨_, _, _, rfl, rfl⟩

theorem tsim_inString (o : Bytes) : TSim (inString o) :=
  ⟨tame_inString o, sim_of_sentry _ o _ (fun _ => rfl) (fun _ b h => sim_word b h)⟩

theorem quotedBody_append (a b : Bytes) : (quotedBody a).2.eof = true ∨
    (quotedBody a).2.eof = false ∧
    quotedBody (a ++ b) = ((quotedBody a).1, { (quotedBody a).2 with rem := (quotedBody a).2.rem ++ b }) := by
  induction a using quotedBody.induct with
  | case1 => left; rfl
  | case2 r => right; exact ⟨rfl, rfl⟩
  | case3 => left; rfl
  | case4 c r t s h ih =>
    rw [List.cons_append, List.cons_append, quotedBody_esc, quotedBody_esc]
    rcases ih with ih | ⟨i1, ih⟩
    · left; exact ih
    · right; rw [ih]; exact ⟨i1, rfl⟩
  | case5 c r h1 h2 h3 t s h ih =>
    have hc2 : c ≠ 92 := by
      rintro rfl
      cases r with
      | nil => exact h2 rfl rfl
      | cons d r => exact h3 d r rfl rfl
    rw [List.cons_append, quotedBody_other h1 hc2, quotedBody_other h1 hc2]
    rcases ih with ih | ⟨i1, ih⟩
    · left; exact ih
    · right; rw [ih]; exact ⟨i1, rfl⟩

/-- What `inQuoted` does once white space is skipped. -/
def afterSkip (o : Bytes) (s : Stream) : Outcome (Bytes × Stream) :=
  match s.rem with
  | 34 :: r => let (t, s') := quotedBody r; .ok (t, s')
  | _ => inString o s

theorem afterSkip_quote (o r : Bytes) (e f : Bool) :
    afterSkip o ⟨34 :: r, e, f⟩ = .ok (quotedBody r) := rfl

theorem afterSkip_other (o r : Bytes) (e f : Bool) {c : UInt8} (hc : c ≠ 34) :
    afterSkip o ⟨c :: r, e, f⟩ = inString o ⟨c :: r, e, f⟩ := by
  unfold afterSkip; split <;> simp_all

theorem tsim_inQuoted (o : Bytes) : TSim (inQuoted o) := by
  refine ⟨tame_inQuoted o, sim_of_sentry _ o (afterSkip o) (fun s => rfl) ?_⟩
  intro a b ha
  cases a with
  | nil => exact absurd rfl ha
  | cons c r =>
    by_cases hc : c = 34
    · subst hc
      rw [List.cons_append, afterSkip_quote, afterSkip_quote]
      rcases quotedBody_append r b with h | ⟨h1, h2⟩
      · left; exact h
      · right
        rw [h2]
        rcases hq : quotedBody r with ⟨t, ⟨rm, e, f⟩⟩
        rw [hq] at h1
        simp only at h1
        subst h1
        exact ⟨_, _, _, rfl, rfl⟩
    · rw [List.cons_append, afterSkip_other _ _ _ _ hc, afterSkip_other _ _ _ _ hc]
      exact (tsim_inString o).sim.all (c :: r) b false

theorem tsim_readRaw (o : Bytes) : TSim (readRaw o) := by
  refine ⟨tame_readRaw o, ⟨fun a b f => ?_⟩⟩
  cases f with
  | true => right; exact ⟨o, a, true, by simp [readRaw, Stream.good], by simp [readRaw, Stream.good]⟩
  | false =>
    by_cases h : o.length ≤ a.length
    · right
      refine ⟨a.take o.length, a.drop o.length, false, by simp [readRaw, Stream.good, h], ?_⟩
      have h' : o.length ≤ (a ++ b).length := by simp; omega
      simp only [readRaw, Stream.good, Bool.not_false, Bool.and_self, if_true, h']
      rw [List.take_append_of_le_length h, List.drop_append_of_le_length h]
    · left; simp [readRaw, Stream.good, h, AtEof]

theorem tsim_readSize (o : UInt64) : TSim (readSize o) := TSim.bind (tsim_readRaw _) fun _ => TSim.pure _
theorem tsim_readInt (o : Int32) : TSim (readInt o) := TSim.bind (tsim_readRaw _) fun _ => TSim.pure _
theorem tsim_readDouble (o : Double) : TSim (readDouble o) :=
  TSim.bind (tsim_readRaw _) fun _ => TSim.pure _
theorem tsim_readSizes (o : List UInt64) : TSim (readSizes o) :=
  TSim.bind (tsim_readRaw _) fun _ => TSim.pure _
theorem tsim_readInts (o : List Int32) : TSim (readInts o) :=
  TSim.bind (tsim_readRaw _) fun _ => TSim.pure _
theorem tsim_readDoubles (o : List Double) : TSim (readDoubles o) :=
  TSim.bind (tsim_readRaw _) fun _ => TSim.pure _

theorem tsim_readSizeVar : TSim readSizeVar := by
  refine ⟨tame_readSizeVar, ⟨fun a b f => ?_⟩⟩
  cases f with
  | true => right; exact ⟨none, a, true, by simp [readSizeVar, Stream.good], by simp [readSizeVar, Stream.good]⟩
  | false =>
    by_cases h : 8 ≤ a.length
    · right
      refine ⟨some (decodeU64 (a.take 8)), a.drop 8, false, by simp [readSizeVar, Stream.good, h], ?_⟩
      have h' : 8 ≤ (a ++ b).length := by simp; omega
      simp only [readSizeVar, Stream.good, Bool.not_false, Bool.and_self, if_true, h']
      rw [List.take_append_of_le_length h, List.drop_append_of_le_length h]
    · left; simp [readSizeVar, Stream.good, h, AtEof]

theorem readIntVar_some (v : Int32) : readIntVar (some v) = (readInt v >>= fun x => Pure.pure (some x)) := by
  funext s
  rw [Rd.bind_def]
  show (match readInt v s with
    | .ok (v', s') => .ok (some v', s')
    | .throw e => .throw e
    | .abort => .abort
    | .ub => .ub
    | .hang => .hang : Outcome (Option Int32 × Stream)) = _
  cases readInt v s <;> rfl

theorem tsim_readIntVar (o : Option Int32) : TSim (readIntVar o) := by
  cases o with
  | some v => rw [readIntVar_some]; exact TSim.bind (tsim_readInt v) fun _ => TSim.pure _
  | none =>
    refine ⟨tame_readIntVar none, ⟨fun a b f => ?_⟩⟩
    cases f with
    | true => right; exact ⟨none, a, true, by simp [readIntVar, Stream.good], by simp [readIntVar, Stream.good]⟩
    | false =>
      by_cases h : 4 ≤ a.length
      · right
        refine ⟨some (decodeI32 (a.take 4)), a.drop 4, false, by simp [readIntVar, Stream.good, h], ?_⟩
        have h' : 4 ≤ (a ++ b).length := by simp; omega
        simp only [readIntVar, Stream.good, Bool.not_false, Bool.and_self, if_true, h']
        rw [List.take_append_of_le_length h, List.drop_append_of_le_length h]
      · left; simp [readIntVar, Stream.good, h, AtEof]

theorem eatLoop_append (n : Nat) (a b : Bytes) : (eatLoop n a).eof = true ∨
    (eatLoop n a).eof = false ∧
    eatLoop n (a ++ b) = { eatLoop n a with rem := (eatLoop n a).rem ++ b } := by
  induction a generalizing n with
  | nil => left; cases n <;> rfl
  | cons c r ih =>
    cases n with
    | zero => right; exact ⟨rfl, rfl⟩
    | succ n =>
      rw [List.cons_append, eatLoop, eatLoop]
      split
      · exact ih n
      · right; exact ⟨rfl, rfl⟩

theorem tsim_eatWhiteSpace (n : Nat) : TSim (eatWhiteSpace n) := by
  refine ⟨tame_eatWhiteSpace n, ⟨fun a b f => ?_⟩⟩
  cases f with
  | true => right; exact ⟨(), a, true, by simp [eatWhiteSpace, Stream.good], by simp [eatWhiteSpace, Stream.good]⟩
  | false =>
    rcases eatLoop_append n a b with h | ⟨h1, h2⟩
    · left; simp [eatWhiteSpace, Stream.good, AtEof, h]
    · right
      refine ⟨(), (eatLoop n a).rem, (eatLoop n a).fail, ?_, ?_⟩
      · simp only [eatWhiteSpace, Stream.good, Bool.not_false, Bool.and_self, if_true]
        rw [← h1]
      · simp only [eatWhiteSpace, Stream.good, Bool.not_false, Bool.and_self, if_true, h2, h1]

theorem tsim_assertGood (cfg : Cfg) : TSim (assertGood cfg) := by
  refine ⟨tame_assertGood cfg, ⟨fun a b f => ?_⟩⟩
  unfold assertGood
  have e : (⟨a ++ b, false, f⟩ : Stream).good = (⟨a, false, f⟩ : Stream).good := rfl
  rw [e]
  split
  · left; trivial
  · right; exact ⟨_, _, _, rfl, rfl⟩

theorem tsim_assertC (cfg : Cfg) (c : Bool) : TSim (assertC cfg c) := by
  refine ⟨tame_assertC cfg c, ⟨fun a b f => ?_⟩⟩
  unfold assertC
  split
  · left; trivial
  · right; exact ⟨_, _, _, rfl, rfl⟩

theorem tsim_useVar {α : Type} (x : Option α) : TSim (useVar x) := by
  cases x
  · exact TSim.ub
  · exact TSim.pure _

theorem tsim_resize {α : Type} (cfg : Cfg) (v : List α) (n : UInt64) (d : α) : TSim (resize cfg v n d) :=
  TSim.lift (NoHang.vecResize ..)
theorem tsim_pushBack {α : Type} (cfg : Cfg) (v : List α) (d : α) : TSim (pushBack cfg v d) :=
  TSim.lift (NoHang.vecPush ..)
theorem tsim_inDoubleAt (i : UInt64) (v : List Double) : TSim (inDoubleAt i v) := by
  unfold inDoubleAt; split
  · exact TSim.ub
  · exact TSim.bind (tsim_inDouble _) fun _ => TSim.pure _
theorem tsim_inSizeAt (i : UInt64) (v : List UInt64) : TSim (inSizeAt i v) := by
  unfold inSizeAt; split
  · exact TSim.ub
  · exact TSim.bind (tsim_inSize _) fun _ => TSim.pure _

/-- Proves `TSim` of a reader built from the readers above. -/
macro "tsim" : tactic => `(tactic| repeat' (first
  | assumption
  | with_reducible exact TSim.pure _
  | with_reducible exact TSim.throw _
  | with_reducible exact TSim.ub
  | with_reducible exact tsim_extractSize
  | with_reducible exact tsim_extractInt
  | with_reducible exact tsim_extractDouble
  | with_reducible exact tsim_inSize _
  | with_reducible exact tsim_inInt _
  | with_reducible exact tsim_inDouble _
  | with_reducible exact tsim_inIntVar _
  | with_reducible exact tsim_inString _
  | with_reducible exact tsim_inQuoted _
  | with_reducible exact tsim_readSize _
  | with_reducible exact tsim_readInt _
  | with_reducible exact tsim_readDouble _
  | with_reducible exact tsim_readSizes _
  | with_reducible exact tsim_readInts _
  | with_reducible exact tsim_readDoubles _
  | with_reducible exact tsim_readSizeVar
  | with_reducible exact tsim_readIntVar _
  | with_reducible exact tsim_eatWhiteSpace _
  | with_reducible exact tsim_assertGood _
  | with_reducible exact tsim_assertC _ _
  | with_reducible exact tsim_useVar _
  | with_reducible exact tsim_resize _ _ _ _
  | with_reducible exact tsim_pushBack _ _ _
  | with_reducible exact tsim_inDoubleAt _ _
  | with_reducible exact tsim_inSizeAt _ _
  | with_reducible exact TSim.lift (NoHang.nodesPerElement _)
  | with_reducible exact TSim.lift (NoHang.getElementDim _)
  | with_reducible exact TSim.lift (NoHang.entriesPerNode _ _)
  | with_reducible exact TSim.lift (NoHang.vecGet _ _)
  | with_reducible exact TSim.lift (NoHang.vecSet _ _ _)
  | with_reducible exact TSim.lift (NoHang.vecReserve _ _)
  | with_reducible exact TSim.lift (NoHang.makeElement22 _ _ _ _ _ _ _)
  | with_reducible exact TSim.lift (NoHang.createAllEntities _ _ _)
  | with_reducible apply TSim.bind
  | with_reducible apply TSim.ite
  | with_reducible apply TSim.forEach
  | with_reducible apply TSim.loopN
  | intro _
  | split))

/-! ## Section readers -/

theorem tsim_loadMeshFormat (f : MeshFormat) : TSim (loadMeshFormat f) := by
  unfold loadMeshFormat; tsim
theorem tsim_loadPhysicalGroups (cfg : Cfg) (g : List PhysicalGroup) : TSim (loadPhysicalGroups cfg g) := by
  unfold loadPhysicalGroups loadPhysicalGroup; tsim
theorem tsim_loadEntities (cfg : Cfg) (f : MeshFormat) (e : Entities) : TSim (loadEntities cfg f e) := by
  unfold loadEntities loadEntitiesAscii41 loadEntitiesBinary41 loadPointAscii loadBoxAscii
    loadPointBinary loadBoxBinary loadIntListAscii loadIntListBinary; tsim
theorem tsim_loadNodes (cfg : Cfg) (f : MeshFormat) (n : Nodes) : TSim (loadNodes cfg f n) := by
  unfold loadNodes loadNodesAscii41 loadNodesBinary41 loadNodesAscii22 loadNodesBinary22
    loadNodeBlockAscii41 loadNodeBlockBinary41 loadNodeBinary22; simp only; tsim

theorem tsim_loadElementGroupBinary22 (cfg : Cfg) (n : UInt64) (st : Binary22) :
    TSim (loadElementGroupBinary22 cfg n st) := by
  unfold loadElementGroupBinary22 loadElementBinary22; tsim

theorem sim_loadElementGroups22 (cfg : Cfg) (n : UInt64) (k : Nat) : ∀ (m : Nat) (st : Binary22)
    (a b : Bytes) (f : Bool), a.length < k → (a ++ b).length < m →
    AtEof (loadElementGroups22 cfg n k st ⟨a, false, f⟩) ∨
    ∃ v a' f', loadElementGroups22 cfg n k st ⟨a, false, f⟩ = .ok (v, ⟨a', false, f'⟩) ∧
      loadElementGroups22 cfg n m st ⟨a ++ b, false, f⟩ = .ok (v, ⟨a' ++ b, false, f'⟩) := by
  induction k with
  | zero => intro m st a b f h; omega
  | succ k ih =>
    intro m st a b f hk hm
    cases m with
    | zero => omega
    | succ m =>
      rw [loadElementGroups22, loadElementGroups22]
      split
      · exact (TSim.pure st).sim.all a b f
      · rcases (tsim_loadElementGroupBinary22 cfg n st).sim.all a b f with h | ⟨v, a', f', e1, e2⟩
        · left
          rw [Rd.bind_def]
          cases hp : loadElementGroupBinary22 cfg n st ⟨a, false, f⟩ with
          | ok r =>
            obtain ⟨v, s'⟩ := r
            rw [hp] at h
            have hl := loadElementGroupBinary22_consumes hp
            simp only at hl ⊢
            obtain ⟨q1, q2⟩ := loadElementGroups22_ok (cfg := cfg) (n := n) k v s' (by omega)
            cases hq : loadElementGroups22 cfg n k v s' with
            | ok r => exact (q2 r.1 r.2 hq).eof h
            | hang => exact absurd hq q1
            | throw e => trivial
            | abort => trivial
            | ub => trivial
          | throw e => trivial
          | abort => trivial
          | ub => trivial
          | hang => rw [hp] at h; exact h
        · rw [Rd.bind_ok e1, Rd.bind_ok e2]
          have l1 := loadElementGroupBinary22_consumes e1
          have l2 := loadElementGroupBinary22_consumes e2
          simp only at l1 l2
          exact ih m v a' b f' (by omega) (by omega)

theorem tsim_loadElementsBinary22 (cfg : Cfg) (e : Elements) (ents : Entities) :
    TSim (loadElementsBinary22 cfg e ents) := by
  unfold loadElementsBinary22
  apply TSim.bind (tsim_inSize _); intro n
  apply TSim.bind (TSim.lift (NoHang.vecReserve ..)); intro _
  apply TSim.bind (tsim_eatWhiteSpace 1); intro _
  apply TSim.bind
  · refine ⟨Tame.of fun s => loadElementGroups22_ok _ _ s (by omega), ⟨fun a b f => ?_⟩⟩
    exact sim_loadElementGroups22 cfg n _ _ _ a b f (by simp) (by simp)
  · intro st
    apply TSim.bind (TSim.lift (NoHang.createAllEntities ..)); intro _
    exact TSim.pure _

theorem tsim_loadElements (cfg : Cfg) (f : MeshFormat) (e : Elements) (ents : Entities) :
    TSim (loadElements cfg f e ents) := by
  have h := tsim_loadElementsBinary22 cfg
  unfold loadElements loadElementsAscii41 loadElementsBinary41 loadElementBlockAscii41
    loadElementBlockBinary41 loadElementsAscii22 loadElementAscii22
  simp only
  tsim
  all_goals exact h _ _

theorem tsim_loadData (cfg : Cfg) (f : MeshFormat) (b : Bool) : TSim (loadData cfg f b) := by
  unfold loadData loadDataHeader loadDataEntryBinary41 loadDataEntryBinary22 loadDataEntryAscii; tsim
theorem tsim_loadDataSection (cfg : Cfg) (f : MeshFormat) (b : Bool) (ds : List Data) :
    TSim (loadDataSection cfg f b ds) := by
  have h1 := tsim_loadData cfg f b
  unfold loadDataSection; tsim
theorem tsim_loadCurves (cfg : Cfg) (f : MeshFormat) (cs : List Curve) : TSim (loadCurves cfg f cs) := by
  unfold loadCurves loadCurveAscii loadCurveBinary loadCurveHeader; tsim
theorem tsim_loadPatches (cfg : Cfg) (f : MeshFormat) (cs : List Patch) : TSim (loadPatches cfg f cs) := by
  unfold loadPatches loadPatchAscii loadPatchBinary loadPatchHeader; tsim

theorem tsim_loadSection (cfg : Cfg) (buf : Bytes) (spec : MshSpec) : TSim (loadSection cfg buf spec) := by
  unfold loadSection loadNanosplineFormat; tsim
  · exact tsim_loadMeshFormat ..
  · exact tsim_loadEntities ..
  · exact tsim_loadPhysicalGroups ..
  · exact tsim_loadNodes ..
  · exact tsim_loadElements ..
  · exact tsim_loadDataSection ..
  · exact tsim_loadDataSection ..
  · exact tsim_loadDataSection ..
  · exact tsim_loadCurves ..
  · exact tsim_loadPatches ..

/-! ## `forward_to` and the main loop -/

theorem fwd_trunc (flag : Bytes) (k : Nat) : ∀ (buf a b : Bytes), a.length ≤ k →
    AtEof (fwd flag buf (gs a)) ∨
    ∃ v a' f', fwd flag buf (gs a) = .ok (v, ⟨a', false, f'⟩) ∧
      fwd flag buf (gs (a ++ b)) = .ok (v, ⟨a' ++ b, false, f'⟩) := by
  induction k using Nat.strongRecOn with
  | ind k ih =>
    intro buf a b hk
    rw [fwd_step, fwd_step flag buf (gs (a ++ b))]
    by_cases hx : ((gs a).eof || buf == flag) = true
    · have hx' : ((gs (a ++ b)).eof || buf == flag) = true := hx
      rw [if_pos hx, if_pos hx']
      right; exact ⟨_, _, _, rfl, rfl⟩
    · have hx' : ¬((gs (a ++ b)).eof || buf == flag) = true := hx
      rw [if_neg hx, if_neg hx']
      obtain ⟨t, s', hi⟩ : ∃ t s', inString buf (gs a) = .ok (t, s') := by
        unfold inString; split <;> exact ⟨_, _, rfl⟩
      rw [Rd.bind_ok hi]
      rcases inString_good rfl hi with h | ⟨hg, h⟩
      · left; rw [fwd_step, if_pos (by simp [h])]; exact h
      · rcases (tsim_inString buf).sim.all a b false with h' | ⟨v, a', f', e1, e2⟩
        · change AtEof (inString buf (gs a)) at h'
          rw [hi] at h'
          rw [Stream.good_iff] at hg
          simp [AtEof, hg.1] at h'
        · change inString buf (gs a) = _ at e1
          rw [hi] at e1
          cases e1
          have hf' : f' = false := by simpa [Stream.good] using hg
          subst hf'
          rw [Rd.bind_ok e2]
          simp only at h
          exact ih a'.length (by omega) _ a' b le_rfl

theorem loadRound_trunc (cfg : Cfg) (spec : MshSpec) (a b : Bytes) (f : Bool) :
    AtEof (loadRound cfg spec ⟨a, false, f⟩) ∨
    (loadRound cfg spec ⟨a, false, f⟩ = .hang ∧ loadRound cfg spec ⟨a ++ b, false, f⟩ = .hang) ∨
    ∃ v a' f', loadRound cfg spec ⟨a, false, f⟩ = .ok (v, ⟨a', false, f'⟩) ∧
      loadRound cfg spec ⟨a ++ b, false, f⟩ = .ok (v, ⟨a' ++ b, false, f'⟩) := by
  unfold loadRound
  rcases (tsim_inString []).sim.all a b f with h | ⟨buf, a1, f1, e1, e2⟩
  · left
    obtain ⟨t, s', hi⟩ : ∃ t s', inString [] ⟨a, false, f⟩ = .ok (t, s') := by
      unfold inString; split <;> exact ⟨_, _, rfl⟩
    rw [hi] at h
    rw [Rd.bind_ok hi]
    split
    · rw [Rd.bind_def]
      have hl := atEof_of_tame (tame_loadSection cfg (36 :: ‹_›) spec) h
      cases hs : loadSection cfg (36 :: ‹_›) spec s' with
      | ok r =>
        rw [hs] at hl
        simp only
        have : forwardTo (endMarker (36 :: ‹_›)) r.2 = .ok ((), r.2) := by
          rw [forwardTo_eq, fwd_step, if_pos (by rw [show r.2.eof = true from hl]; rfl)]
        rw [Rd.bind_ok this]
        exact hl
      | hang => rw [hs] at hl; exact hl
      | throw e => trivial
      | abort => trivial
      | ub => trivial
    · exact h
  · rw [Rd.bind_ok e1, Rd.bind_ok e2]
    split
    · rename_i r
      rcases (tsim_loadSection cfg (36 :: r) spec).sim.all a1 b f1 with h | ⟨sp, a2, f2, e3, e4⟩
      · left
        rw [Rd.bind_def]
        cases hs : loadSection cfg (36 :: r) spec ⟨a1, false, f1⟩ with
        | ok q =>
          rw [hs] at h
          simp only
          have : forwardTo (endMarker (36 :: r)) q.2 = .ok ((), q.2) := by
            rw [forwardTo_eq, fwd_step, if_pos (by rw [show q.2.eof = true from h]; rfl)]
          rw [Rd.bind_ok this]
          exact h
        | hang => rw [hs] at h; exact h
        | throw e => trivial
        | abort => trivial
        | ub => trivial
      · rw [Rd.bind_ok e3, Rd.bind_ok e4, forwardTo_eq]
        cases f2 with
        | true =>
          right; left
          rw [Rd.bind_def, Rd.bind_def]
          rw [fwd_stuck rfl rfl (by simp [endMarker]), fwd_stuck rfl rfl (by simp [endMarker])]
          exact ⟨rfl, rfl⟩
        | false =>
          rcases fwd_trunc (endMarker (36 :: r)) _ [] a2 b le_rfl with h | ⟨v, a3, f3, e5, e6⟩
          · left
            rw [Rd.bind_def]
            cases hs : fwd (endMarker (36 :: r)) [] (gs a2) with
            | ok q => rw [hs] at h; exact h
            | hang => rw [hs] at h; exact h
            | throw e => trivial
            | abort => trivial
            | ub => trivial
          · right; right
            rw [Rd.bind_ok e5, Rd.bind_ok e6]
            exact ⟨_, _, _, rfl, rfl⟩
    · right; right; exact ⟨_, _, _, rfl, rfl⟩

theorem loadFull_trunc (cfg : Cfg) (k : Nat) : ∀ (spec : MshSpec) (a b : Bytes) (f : Bool),
    a.length ≤ k → loadFull cfg spec ⟨a, false, f⟩ = .hang →
    loadFull cfg spec ⟨a ++ b, false, f⟩ = .hang := by
  induction k using Nat.strongRecOn with
  | ind k ih =>
    intro spec a b f hk h
    cases f with
    | true => exact loadFull_stuck rfl rfl
    | false =>
      rw [loadFull_round rfl, Rd.bind_def] at h
      rcases loadRound_trunc cfg spec a b false with h' | ⟨_, h2⟩ | ⟨v, a', f', e1, e2⟩
      · cases hr : loadRound cfg spec (gs a) with
        | ok r =>
          change AtEof (loadRound cfg spec (gs a)) at h'
          rw [hr] at h' h
          change loadFull cfg r.1 r.2 = .hang at h
          rw [loadFull_eof h'] at h
          cases h
        | hang => change AtEof (loadRound cfg spec (gs a)) at h'; rw [hr] at h'; exact absurd h' id
        | throw e => rw [hr] at h; cases h
        | abort => rw [hr] at h; cases h
        | ub => rw [hr] at h; cases h
      · rw [loadFull_round rfl, Rd.bind_def, h2]
      · rw [e1] at h
        rw [loadFull_round_ok rfl e2]
        have hp := loadRound_progress (s := gs a) rfl e1
        simp only [Bool.false_eq_true, false_or] at hp
        exact ih a'.length (by omega) v a' b f' le_rfl h

end MshIO
