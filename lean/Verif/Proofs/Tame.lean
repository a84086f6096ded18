import Verif.Model.Load
import Verif.Proofs.Reads

/-!
# What every reader does to the stream

`Step s s'`: the state `s'` can follow `s`: bytes are only consumed, `eofbit` and `failbit` stay
set, a stream that is not good is not read from, and `eofbit` is only set at the end of the input.
`Tame p`: `p` never hangs and its normal exits are steps.
-/

namespace MshIO

/-- `s'` is a possible later state of the stream `s`. -/
structure Step (s s' : Stream) : Prop where
  suffix : s'.rem <:+ s.rem
  eof : s.eof = true → s'.eof = true
  fail : s.fail = true → s'.fail = true
  bad : s.good = false → s'.rem = s.rem ∧ s'.eof = s.eof
  atEnd : s'.eof = true → s.eof = true ∨ s'.rem = []

theorem Step.refl (s : Stream) : Step s s :=
  ⟨List.suffix_refl _, id, id, fun _ => ⟨rfl, rfl⟩, Or.inl⟩

theorem Stream.good_iff (s : Stream) : s.good = true ↔ s.eof = false ∧ s.fail = false := by
  simp [Stream.good]

theorem Stream.good_false_iff (s : Stream) : s.good = false ↔ s.eof = true ∨ s.fail = true := by
  cases h : s.eof <;> cases h' : s.fail <;> simp [Stream.good, h, h']

theorem Step.trans {a b c : Stream} (h1 : Step a b) (h2 : Step b c) : Step a c := by
  refine ⟨h2.suffix.trans h1.suffix, fun h => h2.eof (h1.eof h), fun h => h2.fail (h1.fail h), ?_, ?_⟩
  · intro h
    have hb : b.good = false := by
      rw [Stream.good_false_iff] at *
      exact h.imp h1.eof h1.fail
    obtain ⟨e1, e2⟩ := h1.bad h
    obtain ⟨f1, f2⟩ := h2.bad hb
    exact ⟨f1.trans e1, f2.trans e2⟩
  · intro h
    rcases h2.atEnd h with h' | h'
    · rcases h1.atEnd h' with h'' | h''
      · exact Or.inl h''
      · right
        have hb : b.good = false := by rw [Stream.good_false_iff]; exact Or.inl h'
        rw [(h2.bad hb).1, h'']
    · exact Or.inr h'

theorem Step.length_le {s s' : Stream} (h : Step s s') : s'.rem.length ≤ s.rem.length :=
  h.suffix.length_le

/-- Setting `failbit` on a stream that is not good. -/
theorem Step.setFail {s : Stream} (_ : s.good = false) : Step s { s with fail := true } :=
  ⟨List.suffix_refl _, id, fun _ => rfl, fun _ => ⟨rfl, rfl⟩, Or.inl⟩

/-- From a good stream to any suffix, `eofbit` only at the end. -/
theorem Step.ofGood {s : Stream} {r : Bytes} {e f : Bool} (hg : s.good = true) (hr : r <:+ s.rem)
    (he : e = true → r = []) : Step s ⟨r, e, f⟩ := by
  rw [Stream.good_iff] at hg
  refine ⟨hr, ?_, ?_, ?_, fun h => Or.inr (he h)⟩
  · intro h; rw [hg.1] at h; cases h
  · intro h; rw [hg.2] at h; cases h
  · intro h; rw [Stream.good_false_iff, hg.1, hg.2] at h; simp at h

/-- Never hangs, and normal exits are steps. -/
structure Tame {α : Type} (p : Rd α) : Prop where
  of ::
  all : ∀ s, p s ≠ .hang ∧ ∀ a s', p s = .ok (a, s') → Step s s'

/-- Outcomes other than `hang`. -/
structure NoHang {α : Type} (x : Outcome α) : Prop where
  of ::
  ne : x ≠ .hang

section closure
variable {α β : Type}

theorem Tame.pure (a : α) : Tame (Pure.pure a : Rd α) := by
  apply Tame.of; intro s
  refine ⟨by simp [Rd.pure_def], ?_⟩
  intro a' s' h
  simp only [Rd.pure_def, Outcome.ok.injEq, Prod.mk.injEq] at h
  rw [← h.2]; exact Step.refl s

theorem Tame.bind {p : Rd α} {f : α → Rd β} (h1 : Tame p) (h2 : ∀ a, Tame (f a)) :
    Tame (p >>= f) := by
  apply Tame.of; intro s
  rw [Rd.bind_def]
  cases h : p s with
  | ok r =>
    obtain ⟨a, s'⟩ := r
    refine ⟨((h2 a).all s').1, fun b s'' hb => ((h1.all s).2 a s' h).trans (((h2 a).all s').2 b s'' hb)⟩
  | throw e => simp
  | abort => simp
  | ub => simp
  | hang => exact absurd h (h1.all s).1

theorem Tame.throw (e : Exc) : Tame (Rd.throw e : Rd α) := by
  apply Tame.of; intro s; simp [Rd.throw]

theorem Tame.ub : Tame (Rd.ub : Rd α) := by
  apply Tame.of; intro s; simp [Rd.ub]

theorem Tame.lift {x : Outcome α} (h : NoHang x) : Tame (Rd.lift x) := by
  apply Tame.of; intro s
  unfold Rd.lift
  cases x with
  | ok a =>
    refine ⟨by simp, ?_⟩
    intro a' s' h'
    simp only [Outcome.ok.injEq, Prod.mk.injEq] at h'
    rw [← h'.2]; exact Step.refl s
  | throw e => simp
  | abort => simp
  | ub => simp
  | hang => exact absurd rfl h.ne

theorem Tame.ite {c : Prop} [Decidable c] {p q : Rd α} (h1 : Tame p) (h2 : Tame q) :
    Tame (if c then p else q) := by split <;> assumption

theorem Tame.forEach {f : α → Rd α} (h : ∀ a, Tame (f a)) (l : List α) :
    Tame (MshIO.forEach f l) := by
  induction l with
  | nil => exact Tame.pure _
  | cons a l ih => exact Tame.bind (h a) fun _ => Tame.bind ih fun _ => Tame.pure _

theorem Tame.loopN {f : Nat → α → Rd α} (h : ∀ i a, Tame (f i a)) (n i : Nat) (a : α) :
    Tame (MshIO.loopN f n i a) := by
  induction n generalizing i a with
  | zero => exact Tame.pure _
  | succ n ih => exact Tame.bind (h i a) fun _ => ih _ _

end closure

/-! ## No hangs in stream-free code -/

section nohang
variable {α β σ : Type}

theorem NoHang.ok (a : α) : NoHang (Outcome.ok a) := ⟨by simp⟩
theorem NoHang.pure (a : α) : NoHang (Pure.pure a : Outcome α) := NoHang.ok a
theorem NoHang.throw (e : Exc) : NoHang (Outcome.throw e : Outcome α) := ⟨by simp⟩
theorem NoHang.ub : NoHang (Outcome.ub : Outcome α) := ⟨by simp⟩
theorem NoHang.abort : NoHang (Outcome.abort : Outcome α) := ⟨by simp⟩
theorem NoHang.bind {x : Outcome α} {f : α → Outcome β} (h : NoHang x) (hf : ∀ a, NoHang (f a)) :
    NoHang (x >>= f) := by
  show NoHang (Outcome.bind x f)
  unfold Outcome.bind
  cases x with
  | ok a => exact hf a
  | hang => exact absurd rfl h.ne
  | throw e => exact NoHang.throw e
  | ub => exact NoHang.ub
  | abort => exact NoHang.abort
theorem NoHang.ite {c : Prop} [Decidable c] {x y : Outcome α} (h1 : NoHang x) (h2 : NoHang y) :
    NoHang (if c then x else y) := by split <;> assumption
theorem NoHang.vecResize (cfg : Cfg) (v : List α) (n : UInt64) (d : α) : NoHang (vecResize cfg v n d) :=
  NoHang.ite (NoHang.ok _) (NoHang.throw _)
theorem NoHang.vecPush (cfg : Cfg) (v : List α) (d : α) : NoHang (vecPush cfg v d) :=
  NoHang.ite (NoHang.ok _) (NoHang.throw _)
theorem NoHang.vecReserve (cfg : Cfg) (n : UInt64) : NoHang (vecReserve cfg n) :=
  NoHang.ite (NoHang.ok _) (NoHang.throw _)
theorem NoHang.vecGet (v : List α) (i : UInt64) : NoHang (vecGet v i) := by
  unfold MshIO.vecGet; split
  · exact NoHang.ok _
  · exact NoHang.ub
theorem NoHang.vecSet (v : List α) (i : UInt64) (x : α) : NoHang (vecSet v i x) :=
  NoHang.ite (NoHang.ok _) NoHang.ub
theorem NoHang.vecModifyBack (v : List α) {f : α → Outcome α} (h : ∀ a, NoHang (f a)) :
    NoHang (vecModifyBack v f) := by
  unfold MshIO.vecModifyBack; split
  · exact NoHang.ub
  · exact NoHang.bind (h _) fun _ => NoHang.pure _
theorem NoHang.loopO {f : Nat → σ → Outcome σ} (h : ∀ i s, NoHang (f i s)) (n i : Nat) (s : σ) :
    NoHang (loopO f n i s) := by
  induction n generalizing i s with
  | zero => exact NoHang.ok _
  | succ n ih => exact NoHang.bind (h i s) fun _ => ih _ _
theorem NoHang.foldO {f : α → σ → Outcome σ} (h : ∀ a s, NoHang (f a s)) (l : List α) (s : σ) :
    NoHang (foldO f l s) := by
  induction l generalizing s with
  | nil => exact NoHang.ok _
  | cons a l ih => exact NoHang.bind (h a s) fun _ => ih _
theorem NoHang.assertElementIsSupported (t : Int32) : NoHang (assertElementIsSupported t) :=
  NoHang.ite (NoHang.throw _) (NoHang.ok _)
theorem NoHang.nodesPerElement (t : Int32) : NoHang (nodesPerElement t) :=
  NoHang.bind (NoHang.assertElementIsSupported t) fun _ => NoHang.vecGet _ _
theorem NoHang.getElementDim (t : Int32) : NoHang (getElementDim t) :=
  NoHang.bind (NoHang.assertElementIsSupported t) fun _ => NoHang.vecGet _ _
theorem NoHang.entriesPerNode (a b : Int32) : NoHang (entriesPerNode a b) :=
  NoHang.ite (NoHang.ite NoHang.ub (NoHang.ok _)) (NoHang.ok _)

end nohang

/-! ## Primitive readers -/

theorem sentry_step (s : Stream) : Step s (sentry s).2 ∧
    ((sentry s).1 = true → s.good = true ∧ ∃ c r, (sentry s).2 = gs (c :: r) ∧ isSpace c = false ∧
      (c :: r) <:+ s.rem) ∧
    ((sentry s).1 = false → (sentry s).2.fail = true) := by
  unfold sentry
  by_cases hg : s.good = true
  · rw [if_pos hg]
    have hsuf : s.rem.dropWhile isSpace <:+ s.rem := List.dropWhile_suffix _
    cases h : s.rem.dropWhile isSpace with
    | nil =>
      refine ⟨Step.ofGood hg (List.nil_suffix) (fun _ => rfl), ?_, ?_⟩ <;> simp
    | cons c r =>
      have hc : isSpace c = false := by
        have := List.head?_dropWhile_not isSpace s.rem
        rw [h] at this
        simpa using this
      rw [h] at hsuf
      refine ⟨Step.ofGood hg hsuf (by simp), ?_, by simp⟩
      intro _
      exact ⟨hg, c, r, rfl, hc, hsuf⟩
  · rw [if_neg hg]
    have hg' : s.good = false := by simpa using hg
    exact ⟨Step.setFail hg', by simp, by simp⟩

/-- A reader that runs the sentry and then scans characters. -/
theorem tame_of_sentry {α : Type} (p : Rd α) (fallback : α) (k : Stream → Outcome (α × Stream))
    (hp : ∀ s, p s = match sentry s with
      | (false, s') => .ok (fallback, s')
      | (true, s') => k s')
    (hk : ∀ b, k (gs b) ≠ .hang ∧ ∀ a s', k (gs b) = .ok (a, s') → Step (gs b) s') : Tame p := by
  apply Tame.of; intro s
  obtain ⟨h1, h2, h3⟩ := sentry_step s
  rw [hp]
  rcases hs : sentry s with ⟨b, s'⟩
  rw [hs] at h1 h2 h3
  cases b with
  | false =>
    refine ⟨by simp, ?_⟩
    intro a s'' h
    simp only [Outcome.ok.injEq, Prod.mk.injEq] at h
    rw [← h.2]; exact h1
  | true =>
    obtain ⟨_, c, r, e, _, _⟩ := h2 rfl
    simp only at e
    subst e
    exact ⟨(hk _).1, fun a s'' h => h1.trans ((hk _).2 a s'' h)⟩

theorem scanSign_suffix (b : Bytes) : (scanSign b).2 <:+ b := by
  unfold scanSign
  split
  · exact List.suffix_cons _ _
  · exact List.suffix_cons _ _
  · exact List.suffix_refl _

theorem scanInt_suffix (b : Bytes) : (scanInt b).2.2 <:+ b := by
  unfold scanInt
  exact (List.dropWhile_suffix _).trans (scanSign_suffix b)

theorem scanFrac_suffix (b : Bytes) : (scanFrac b).2 <:+ b := by
  unfold scanFrac
  split
  · exact (List.dropWhile_suffix _).trans (List.suffix_cons _ _)
  · exact List.suffix_refl _

theorem scanFloat_suffix (b : Bytes) : (scanFloat b).rest <:+ b := by
  unfold scanFloat
  have h1 := scanSign_suffix b
  rcases hs : scanSign b with ⟨neg, r⟩
  rw [hs] at h1
  simp only at h1 ⊢
  have h2 : r.dropWhile isDigit <:+ b := (List.dropWhile_suffix _).trans h1
  have h3 := scanFrac_suffix (r.dropWhile isDigit)
  rcases hf : scanFrac (r.dropWhile isDigit) with ⟨fp, r2⟩
  rw [hf] at h3
  simp only at h3 ⊢
  cases r2 with
  | nil => exact List.nil_suffix
  | cons c r' =>
    have h4 : (c :: r') <:+ b := h3.trans h2
    simp only
    split
    · have h5 := scanSign_suffix r'
      rcases hs' : scanSign r' with ⟨eneg, r3⟩
      rw [hs'] at h5
      simp only at h5 ⊢
      exact (List.dropWhile_suffix _).trans (h5.trans ((List.suffix_cons _ _).trans h4))
    · exact h4

theorem step_scan {b r : Bytes} {f : Bool} (h : r <:+ b) : Step (gs b) ⟨r, r.isEmpty, f⟩ :=
  Step.ofGood rfl h (by simp)

theorem tame_extractSize : Tame extractSize := by
  refine tame_of_sentry _ none _ (fun s => rfl) ?_
  intro b
  refine ⟨by simp, ?_⟩
  intro a s' h
  simp only [Outcome.ok.injEq, Prod.mk.injEq] at h
  rw [← h.2]
  exact step_scan (scanInt_suffix b)

theorem tame_extractInt : Tame extractInt := by
  refine tame_of_sentry _ none _ (fun s => rfl) ?_
  intro b
  refine ⟨by simp, ?_⟩
  intro a s' h
  simp only [Outcome.ok.injEq, Prod.mk.injEq] at h
  rw [← h.2]
  exact step_scan (scanInt_suffix b)

theorem tame_extractDouble : Tame extractDouble := by
  refine tame_of_sentry _ none _ (fun s => rfl) ?_
  intro b
  refine ⟨by simp, ?_⟩
  intro a s' h
  simp only [Outcome.ok.injEq, Prod.mk.injEq] at h
  rw [← h.2]
  exact step_scan (scanFloat_suffix b)

theorem tame_inSize (o : UInt64) : Tame (inSize o) := Tame.bind tame_extractSize fun _ => Tame.pure _
theorem tame_inInt (o : Int32) : Tame (inInt o) := Tame.bind tame_extractInt fun _ => Tame.pure _
theorem tame_inDouble (o : Double) : Tame (inDouble o) :=
  Tame.bind tame_extractDouble fun _ => Tame.pure _
theorem tame_inIntVar (o : Option Int32) : Tame (inIntVar o) :=
  Tame.bind tame_extractInt fun a => by cases a <;> exact Tame.pure _

theorem tame_inString (o : Bytes) : Tame (inString o) := by
  refine tame_of_sentry _ o _ (fun s => rfl) ?_
  intro b
  refine ⟨by simp, ?_⟩
  intro a s' h
  simp only [Outcome.ok.injEq, Prod.mk.injEq] at h
  rw [← h.2]
  exact step_scan (List.dropWhile_suffix _)

theorem quotedBody_step (b : Bytes) : Step (gs b) (quotedBody b).2 := by
  induction b using quotedBody.induct with
  | case1 => exact Step.ofGood rfl (List.nil_suffix) (fun _ => rfl)
  | case2 r => exact Step.ofGood rfl (List.suffix_cons _ _) (by simp)
  | case3 => exact Step.ofGood rfl (List.nil_suffix) (fun _ => rfl)
  | case4 c r t s h ih =>
    rw [quotedBody_esc]
    have : Step (gs (92 :: c :: r)) (gs r) :=
      Step.ofGood rfl ((List.suffix_cons _ _).trans (List.suffix_cons _ _)) (by simp)
    exact this.trans ih
  | case5 c r h1 h2 h3 t s h ih =>
    have : Step (gs (c :: r)) (gs r) := Step.ofGood rfl (List.suffix_cons _ _) (by simp)
    rw [quotedBody] <;> try assumption
    exact this.trans ih

theorem tame_inQuoted (o : Bytes) : Tame (inQuoted o) := by
  refine tame_of_sentry _ o (fun s => match s.rem with
    | 34 :: r => let (t, s') := quotedBody r; .ok (t, s')
    | _ => inString o s) (fun s => rfl) ?_
  intro b
  simp only
  split
  · rename_i r
    refine ⟨by simp, ?_⟩
    intro a s' h
    simp only [Outcome.ok.injEq, Prod.mk.injEq] at h
    rw [← h.2]
    have : Step (gs (34 :: r)) (gs r) := Step.ofGood rfl (List.suffix_cons _ _) (by simp)
    exact this.trans (quotedBody_step r)
  · exact (tame_inString o).all _

theorem tame_readRaw (o : Bytes) : Tame (readRaw o) := by
  apply Tame.of; intro s
  unfold readRaw
  by_cases hg : s.good = true
  · rw [if_pos hg]
    split
    · refine ⟨by simp, ?_⟩
      intro a s' h
      simp only [Outcome.ok.injEq, Prod.mk.injEq] at h
      rw [← h.2]
      exact Step.ofGood hg (List.drop_suffix _ _) (by simp)
    · refine ⟨by simp, ?_⟩
      intro a s' h
      simp only [Outcome.ok.injEq, Prod.mk.injEq] at h
      rw [← h.2]
      exact Step.ofGood hg List.nil_suffix (fun _ => rfl)
  · rw [if_neg hg]
    refine ⟨by simp, ?_⟩
    intro a s' h
    simp only [Outcome.ok.injEq, Prod.mk.injEq] at h
    rw [← h.2]
    exact Step.setFail (by simpa using hg)

theorem tame_readSize (o : UInt64) : Tame (readSize o) := Tame.bind (tame_readRaw _) fun _ => Tame.pure _
theorem tame_readInt (o : Int32) : Tame (readInt o) := Tame.bind (tame_readRaw _) fun _ => Tame.pure _
theorem tame_readDouble (o : Double) : Tame (readDouble o) :=
  Tame.bind (tame_readRaw _) fun _ => Tame.pure _
theorem tame_readSizes (o : List UInt64) : Tame (readSizes o) :=
  Tame.bind (tame_readRaw _) fun _ => Tame.pure _
theorem tame_readInts (o : List Int32) : Tame (readInts o) :=
  Tame.bind (tame_readRaw _) fun _ => Tame.pure _
theorem tame_readDoubles (o : List Double) : Tame (readDoubles o) :=
  Tame.bind (tame_readRaw _) fun _ => Tame.pure _

theorem tame_readVar {α : Type} (n : Nat) (f : Bytes → α) : Tame (fun s : Stream =>
    (if s.good then
      if n ≤ s.rem.length then .ok (some (f (s.rem.take n)), ⟨s.rem.drop n, false, false⟩)
      else .ok (none, ⟨[], true, true⟩)
    else .ok (none, { s with fail := true }) : Outcome (Option α × Stream))) := by
  apply Tame.of; intro s
  show (if s.good then _ else _ : Outcome (Option α × Stream)) ≠ _ ∧ ∀ a s',
    (if s.good then _ else _ : Outcome (Option α × Stream)) = _ → _
  by_cases hg : s.good = true
  · rw [if_pos hg]
    split
    · refine ⟨by simp, ?_⟩
      intro a s' h
      simp only [Outcome.ok.injEq, Prod.mk.injEq] at h
      rw [← h.2]
      exact Step.ofGood hg (List.drop_suffix _ _) (by simp)
    · refine ⟨by simp, ?_⟩
      intro a s' h
      simp only [Outcome.ok.injEq, Prod.mk.injEq] at h
      rw [← h.2]
      exact Step.ofGood hg List.nil_suffix (fun _ => rfl)
  · rw [if_neg hg]
    refine ⟨by simp, ?_⟩
    intro a s' h
    simp only [Outcome.ok.injEq, Prod.mk.injEq] at h
    rw [← h.2]
    exact Step.setFail (by simpa using hg)

theorem tame_readSizeVar : Tame readSizeVar := tame_readVar 8 decodeU64

theorem tame_readIntVar (o : Option Int32) : Tame (readIntVar o) := by
  cases o with
  | none => exact tame_readVar 4 decodeI32
  | some v =>
    have h := Tame.bind (tame_readInt v) (f := fun x => Pure.pure (some x)) fun _ => Tame.pure _
    refine cast (congrArg Tame ?_) h
    funext s
    rw [Rd.bind_def]
    show _ = (match readInt v s with
      | .ok (v', s') => .ok (some v', s')
      | .throw e => .throw e
      | .abort => .abort
      | .ub => .ub
      | .hang => .hang : Outcome (Option Int32 × Stream))
    cases readInt v s <;> rfl

theorem eatLoop_step (n : Nat) (b : Bytes) : Step (gs b) (eatLoop n b) := by
  induction b generalizing n with
  | nil => cases n <;> exact Step.ofGood rfl (List.suffix_refl _) (fun _ => rfl)
  | cons c r ih =>
    cases n with
    | zero => exact Step.refl _
    | succ n =>
      rw [eatLoop]
      split
      · have : Step (gs (c :: r)) (gs r) := Step.ofGood rfl (List.suffix_cons _ _) (by simp)
        exact this.trans (ih n)
      · exact Step.refl _

theorem tame_eatWhiteSpace (n : Nat) : Tame (eatWhiteSpace n) := by
  apply Tame.of; intro s
  unfold eatWhiteSpace
  by_cases hg : s.good = true
  · rw [if_pos hg]
    refine ⟨by simp, ?_⟩
    intro a s' h
    simp only [Outcome.ok.injEq, Prod.mk.injEq] at h
    rw [← h.2]
    have := eatLoop_step n s.rem
    rw [Stream.good_iff] at hg
    have e : s = gs s.rem := by cases s; simp_all
    rw [← e] at this
    exact this
  · rw [if_neg hg]
    refine ⟨by simp, ?_⟩
    intro a s' h
    simp only [Outcome.ok.injEq, Prod.mk.injEq] at h
    rw [← h.2]
    exact Step.setFail (by simpa using hg)

theorem tame_assertGood (cfg : Cfg) : Tame (assertGood cfg) := by
  apply Tame.of; intro s
  unfold assertGood
  split
  · simp
  · refine ⟨by simp, ?_⟩
    intro a s' h
    simp only [Outcome.ok.injEq, Prod.mk.injEq] at h
    rw [← h.2]; exact Step.refl s

theorem tame_assertC (cfg : Cfg) (c : Bool) : Tame (assertC cfg c) := by
  apply Tame.of; intro s
  unfold assertC
  split
  · simp
  · refine ⟨by simp, ?_⟩
    intro a s' h
    simp only [Outcome.ok.injEq, Prod.mk.injEq] at h
    rw [← h.2]; exact Step.refl s

theorem tame_useVar {α : Type} (x : Option α) : Tame (useVar x) := by
  cases x
  · exact Tame.ub
  · exact Tame.pure _

theorem tame_resize {α : Type} (cfg : Cfg) (v : List α) (n : UInt64) (d : α) : Tame (resize cfg v n d) :=
  Tame.lift (NoHang.vecResize ..)
theorem tame_pushBack {α : Type} (cfg : Cfg) (v : List α) (d : α) : Tame (pushBack cfg v d) :=
  Tame.lift (NoHang.vecPush ..)
theorem tame_inDoubleAt (i : UInt64) (v : List Double) : Tame (inDoubleAt i v) := by
  unfold inDoubleAt; split
  · exact Tame.ub
  · exact Tame.bind (tame_inDouble _) fun _ => Tame.pure _
theorem tame_inSizeAt (i : UInt64) (v : List UInt64) : Tame (inSizeAt i v) := by
  unfold inSizeAt; split
  · exact Tame.ub
  · exact Tame.bind (tame_inSize _) fun _ => Tame.pure _

/-- Proves `Tame` of a reader built from the readers above. -/
macro "tame" : tactic => `(tactic| repeat' (first
  | assumption
  | with_reducible exact Tame.pure _
  | with_reducible exact Tame.throw _
  | with_reducible exact Tame.ub
  | with_reducible exact tame_extractSize
  | with_reducible exact tame_extractInt
  | with_reducible exact tame_extractDouble
  | with_reducible exact tame_inSize _
  | with_reducible exact tame_inInt _
  | with_reducible exact tame_inDouble _
  | with_reducible exact tame_inIntVar _
  | with_reducible exact tame_inString _
  | with_reducible exact tame_inQuoted _
  | with_reducible exact tame_readSize _
  | with_reducible exact tame_readInt _
  | with_reducible exact tame_readDouble _
  | with_reducible exact tame_readSizes _
  | with_reducible exact tame_readInts _
  | with_reducible exact tame_readDoubles _
  | with_reducible exact tame_readSizeVar
  | with_reducible exact tame_readIntVar _
  | with_reducible exact tame_eatWhiteSpace _
  | with_reducible exact tame_assertGood _
  | with_reducible exact tame_assertC _ _
  | with_reducible exact tame_useVar _
  | with_reducible exact tame_resize _ _ _ _
  | with_reducible exact tame_pushBack _ _ _
  | with_reducible exact tame_inDoubleAt _ _
  | with_reducible exact tame_inSizeAt _ _
  | with_reducible exact Tame.lift (NoHang.nodesPerElement _)
  | with_reducible exact Tame.lift (NoHang.getElementDim _)
  | with_reducible exact Tame.lift (NoHang.entriesPerNode _ _)
  | with_reducible exact Tame.lift (NoHang.vecGet _ _)
  | with_reducible exact Tame.lift (NoHang.vecSet _ _ _)
  | with_reducible exact Tame.lift (NoHang.vecReserve _ _)
  | with_reducible apply Tame.bind
  | with_reducible apply Tame.ite
  | with_reducible apply Tame.forEach
  | with_reducible apply Tame.loopN
  | intro _
  | split))

/-! ## Section readers -/

theorem tame_loadMeshFormat (f : MeshFormat) : Tame (loadMeshFormat f) := by
  unfold loadMeshFormat; tame
theorem tame_loadPhysicalGroups (cfg : Cfg) (g : List PhysicalGroup) : Tame (loadPhysicalGroups cfg g) := by
  unfold loadPhysicalGroups loadPhysicalGroup; tame
theorem tame_loadIntListAscii (cfg : Cfg) (v : List Int32) : Tame (loadIntListAscii cfg v) := by
  unfold loadIntListAscii; tame
theorem tame_loadIntListBinary (cfg : Cfg) (v : List Int32) : Tame (loadIntListBinary cfg v) := by
  unfold loadIntListBinary; tame
theorem tame_loadPointAscii (cfg : Cfg) (p : PointEntity) : Tame (loadPointAscii cfg p) := by
  have := tame_loadIntListAscii cfg p.physicalGroupTags
  unfold loadPointAscii; tame
theorem tame_loadBoxAscii (cfg : Cfg) (p : BoxEntity) : Tame (loadBoxAscii cfg p) := by
  have := tame_loadIntListAscii cfg p.physicalGroupTags
  have := tame_loadIntListAscii cfg p.boundaryTags
  unfold loadBoxAscii; tame
theorem tame_loadPointBinary (cfg : Cfg) (p : PointEntity) : Tame (loadPointBinary cfg p) := by
  have := tame_loadIntListBinary cfg p.physicalGroupTags
  unfold loadPointBinary; tame
theorem tame_loadBoxBinary (cfg : Cfg) (p : BoxEntity) : Tame (loadBoxBinary cfg p) := by
  have := tame_loadIntListBinary cfg p.physicalGroupTags
  have := tame_loadIntListBinary cfg p.boundaryTags
  unfold loadBoxBinary; tame
theorem tame_loadEntities (cfg : Cfg) (f : MeshFormat) (e : Entities) : Tame (loadEntities cfg f e) := by
  unfold loadEntities loadEntitiesAscii41 loadEntitiesBinary41; tame
  · exact tame_loadPointAscii _ _
  · exact tame_loadBoxAscii _ _
  · exact tame_loadBoxAscii _ _
  · exact tame_loadBoxAscii _ _
  · exact tame_loadPointBinary _ _
  · exact tame_loadBoxBinary _ _
  · exact tame_loadBoxBinary _ _
  · exact tame_loadBoxBinary _ _
theorem tame_loadNodes (cfg : Cfg) (f : MeshFormat) (n : Nodes) : Tame (loadNodes cfg f n) := by
  unfold loadNodes loadNodesAscii41 loadNodesBinary41 loadNodesAscii22 loadNodesBinary22
    loadNodeBlockAscii41 loadNodeBlockBinary41 loadNodeBinary22; simp only; tame

theorem NoHang.createEntities {E : Type} (cfg : Cfg) (mk : Int32 → List Int32 → E) (m : PhysMap)
    (es : List E) : NoHang (createEntities cfg mk m es) :=
  NoHang.foldO (fun _ _ => NoHang.vecPush ..) _ _

theorem NoHang.createAllEntities (cfg : Cfg) (maps : List PhysMap) (e : Entities) :
    NoHang (createAllEntities cfg maps e) := by
  unfold MshIO.createAllEntities
  repeat' first
    | with_reducible exact NoHang.pure _
    | with_reducible exact NoHang.vecGet _ _
    | with_reducible exact NoHang.createEntities _ _ _ _
    | with_reducible apply NoHang.bind
    | intro _

theorem NoHang.makeElement22 (cfg : Cfg) (a b : Int32) (t n : List Int32) (bl : List ElementBlock)
    (m : List PhysMap) : NoHang (makeElement22 cfg a b t n bl m) := by
  unfold MshIO.makeElement22
  repeat' first
    | with_reducible exact NoHang.pure _
    | with_reducible exact NoHang.vecGet _ _
    | with_reducible exact NoHang.vecSet _ _ _
    | with_reducible exact NoHang.vecPush _ _ _
    | with_reducible exact NoHang.vecResize _ _ _ _
    | with_reducible exact NoHang.getElementDim _
    | with_reducible apply NoHang.bind
    | intro _
    | split

theorem tame_loadElementAscii22 (cfg : Cfg) (st : Ascii22) : Tame (loadElementAscii22 cfg st) := by
  unfold loadElementAscii22; tame
  exact Tame.lift (NoHang.makeElement22 ..)

theorem tame_loadElementBinary22 (cfg : Cfg) (n : UInt64) (a b : Int32) (st : Option Int32 × Binary22) :
    Tame (loadElementBinary22 cfg n a b st) := by
  unfold loadElementBinary22; tame
  exact Tame.lift (NoHang.makeElement22 ..)

theorem tame_loadElementGroupBinary22 (cfg : Cfg) (n : UInt64) (st : Binary22) :
    Tame (loadElementGroupBinary22 cfg n st) := by
  have h := tame_loadElementBinary22 cfg n
  unfold loadElementGroupBinary22; tame
  exact h _ _ _

/-- Inversion of a successful `bind`. -/
theorem Rd.bind_eq_ok {α β : Type} {p : Rd α} {f : α → Rd β} {s : Stream} {r : β × Stream}
    (h : (p >>= f) s = .ok r) : ∃ a s', p s = .ok (a, s') ∧ f a s' = .ok r := by
  rw [Rd.bind_def] at h
  cases hp : p s with
  | ok q => rw [hp] at h; exact ⟨q.1, q.2, rfl, h⟩
  | throw e => rw [hp] at h; cases h
  | abort => rw [hp] at h; cases h
  | ub => rw [hp] at h; cases h
  | hang => rw [hp] at h; cases h

theorem useVar_eq_ok {α : Type} {x : Option α} {s s' : Stream} {a : α}
    (h : useVar x s = .ok (a, s')) : x = some a ∧ s' = s := by
  cases x with
  | none => cases h
  | some b =>
    simp only [useVar, Rd.pure_def, Outcome.ok.injEq, Prod.mk.injEq] at h
    exact ⟨by rw [h.1], h.2.symm⟩

theorem readIntVar_none_some {s s' : Stream} {v : Int32} (h : readIntVar none s = .ok (some v, s')) :
    s'.rem.length + 4 = s.rem.length := by
  unfold readIntVar at h
  simp only at h
  split at h
  · split at h
    · simp only [Outcome.ok.injEq, Prod.mk.injEq] at h
      rw [← h.2]
      simp only [List.length_drop]
      omega
    · simp at h
  · simp at h

/-- Every round of the v2.2 binary element loop consumes at least 12 bytes. -/
theorem loadElementGroupBinary22_consumes {cfg : Cfg} {n : UInt64} {st st' : Binary22} {s s' : Stream}
    (h : loadElementGroupBinary22 cfg n st s = .ok (st', s')) : s'.rem.length + 12 ≤ s.rem.length := by
  unfold loadElementGroupBinary22 at h
  obtain ⟨et, s1, h1, k1⟩ := Rd.bind_eq_ok h
  obtain ⟨nb, s2, h2, k2⟩ := Rd.bind_eq_ok k1
  obtain ⟨nt, s3, h3, k3⟩ := Rd.bind_eq_ok k2
  obtain ⟨ntv, s4, h4, k4⟩ := Rd.bind_eq_ok k3
  obtain ⟨e4, e4'⟩ := useVar_eq_ok h4
  obtain ⟨tags, s5, h5, k5⟩ := Rd.bind_eq_ok k4
  obtain ⟨etv, s6, h6, k6⟩ := Rd.bind_eq_ok k5
  obtain ⟨e6, e6'⟩ := useVar_eq_ok h6
  obtain ⟨n', s7, h7, k7⟩ := Rd.bind_eq_ok k6
  obtain ⟨ids, s8, h8, k8⟩ := Rd.bind_eq_ok k7
  obtain ⟨nbv, s9, h9, k9⟩ := Rd.bind_eq_ok k8
  obtain ⟨e9, e9'⟩ := useVar_eq_ok h9
  obtain ⟨r, s10, h10, k10⟩ := Rd.bind_eq_ok k9
  have t5 := (((tame_resize cfg st.tags (sizeOfInt ntv) 0).all _).2 _ _ h5).length_le
  have t7 := (((Tame.lift (NoHang.nodesPerElement etv)).all _).2 _ _ h7).length_le
  have t8 := (((tame_resize cfg st.nodeIds n' 0).all _).2 _ _ h8).length_le
  have t10 := (((Tame.loopN (fun _ st => tame_loadElementBinary22 cfg n etv ntv st) _ _ _).all _).2
    _ _ h10).length_le
  have t11 := (((Tame.pure _).all _).2 _ _ k10).length_le
  subst e4 e6 e9 e4' e6' e9'
  have e1 := readIntVar_none_some h1
  have e2 := readIntVar_none_some h2
  have e3 := readIntVar_none_some h3
  omega

theorem loadElementGroups22_ok {cfg : Cfg} {n : UInt64} (fuel : Nat) (st : Binary22) (s : Stream)
    (hf : s.rem.length < fuel) : loadElementGroups22 cfg n fuel st s ≠ .hang ∧
      ∀ a s', loadElementGroups22 cfg n fuel st s = .ok (a, s') → Step s s' := by
  induction fuel generalizing st s with
  | zero => omega
  | succ fuel ih =>
    rw [loadElementGroups22]
    split
    · exact (Tame.pure _).all s
    · rw [Rd.bind_def]
      have ht := (tame_loadElementGroupBinary22 cfg n st).all s
      cases h : loadElementGroupBinary22 cfg n st s with
      | ok r =>
        obtain ⟨st', s'⟩ := r
        have hl := loadElementGroupBinary22_consumes h
        obtain ⟨i1, i2⟩ := ih st' s' (by omega)
        exact ⟨i1, fun a s'' h' => (ht.2 _ _ h).trans (i2 a s'' h')⟩
      | hang => exact absurd h ht.1
      | throw e => simp
      | abort => simp
      | ub => simp

theorem tame_loadElementsBinary22 (cfg : Cfg) (e : Elements) (ents : Entities) :
    Tame (loadElementsBinary22 cfg e ents) := by
  unfold loadElementsBinary22
  apply Tame.bind (tame_inSize _); intro n
  apply Tame.bind (Tame.lift (NoHang.vecReserve ..)); intro _
  apply Tame.bind (tame_eatWhiteSpace 1); intro _
  apply Tame.bind
  · apply Tame.of; intro s
    exact loadElementGroups22_ok _ _ s (by omega)
  · intro st
    apply Tame.bind (Tame.lift (NoHang.createAllEntities ..)); intro _
    exact Tame.pure _

theorem tame_loadElementsAscii22 (cfg : Cfg) (e : Elements) (ents : Entities) :
    Tame (loadElementsAscii22 cfg e ents) := by
  unfold loadElementsAscii22; tame
  · exact tame_loadElementAscii22 _ _
  · exact Tame.lift (NoHang.createAllEntities ..)

theorem tame_loadElements (cfg : Cfg) (f : MeshFormat) (e : Elements) (ents : Entities) :
    Tame (loadElements cfg f e ents) := by
  unfold loadElements loadElementsAscii41 loadElementsBinary41 loadElementBlockAscii41
    loadElementBlockBinary41
  simp only
  tame
  all_goals first | exact tame_loadElementsAscii22 _ _ _ | exact tame_loadElementsBinary22 _ _ _

theorem tame_loadDataHeader (cfg : Cfg) (h : DataHeader) : Tame (loadDataHeader cfg h) := by
  unfold loadDataHeader; tame
theorem tame_loadDataEntryBinary41 (cfg : Cfg) (n : UInt64) (b : Bool) (e : DataEntry) :
    Tame (loadDataEntryBinary41 cfg n b e) := by
  unfold loadDataEntryBinary41; tame
theorem tame_loadDataEntryBinary22 (cfg : Cfg) (n : UInt64) (b : Bool) (e : DataEntry) :
    Tame (loadDataEntryBinary22 cfg n b e) := by
  unfold loadDataEntryBinary22; tame
theorem tame_loadDataEntryAscii (cfg : Cfg) (n : UInt64) (b : Bool) (e : DataEntry) :
    Tame (loadDataEntryAscii cfg n b e) := by
  unfold loadDataEntryAscii; tame
theorem tame_loadData (cfg : Cfg) (f : MeshFormat) (b : Bool) : Tame (loadData cfg f b) := by
  have h1 := tame_loadDataHeader cfg {}
  unfold loadData; tame
  · exact tame_loadDataEntryBinary41 ..
  · exact tame_loadDataEntryBinary22 ..
  · exact tame_loadDataEntryAscii ..
theorem tame_loadDataSection (cfg : Cfg) (f : MeshFormat) (b : Bool) (ds : List Data) :
    Tame (loadDataSection cfg f b ds) := by
  have h1 := tame_loadData cfg f b
  unfold loadDataSection; tame
theorem tame_loadCurves (cfg : Cfg) (f : MeshFormat) (cs : List Curve) : Tame (loadCurves cfg f cs) := by
  unfold loadCurves loadCurveAscii loadCurveBinary loadCurveHeader; tame
theorem tame_loadPatches (cfg : Cfg) (f : MeshFormat) (cs : List Patch) : Tame (loadPatches cfg f cs) := by
  unfold loadPatches loadPatchAscii loadPatchBinary loadPatchHeader; tame

theorem tame_loadSection (cfg : Cfg) (buf : Bytes) (spec : MshSpec) : Tame (loadSection cfg buf spec) := by
  unfold loadSection loadNanosplineFormat; tame
  · exact tame_loadMeshFormat ..
  · exact tame_loadEntities ..
  · exact tame_loadPhysicalGroups ..
  · exact tame_loadNodes ..
  · exact tame_loadElements ..
  · exact tame_loadDataSection ..
  · exact tame_loadDataSection ..
  · exact tame_loadDataSection ..
  · exact tame_loadCurves ..
  · exact tame_loadPatches ..

end MshIO
