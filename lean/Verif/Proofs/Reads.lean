import Verif.Model.OStream
import Verif.Model.LoadBasic
import Verif.Spec.Consistent
import Verif.Proofs.Num

/-!
# Reading back what was written

`Tok p t v`: on a good stream starting with white space and the characters `t`, followed by a white
space character, `p` returns `v` and stops right after `t`.
`ReadsT p ts v`: on a good stream that starts with the tokens `ts`, each followed by a separator,
`p` returns `v` and consumes all tokens (the last separator remains).
`ReadsB p bs v`: on a good stream starting with exactly the bytes `bs`, `p` returns `v` and consumes
exactly `bs`.
-/

namespace MshIO

/-- A good stream holding `b`. -/
abbrev gs (b : Bytes) : Stream := ⟨b, false, false⟩

/-- Only white space. -/
def Ws (w : Bytes) : Prop := ∀ c ∈ w, isSpace c = true

/-- Starts with a white space character. -/
def WsHead (b : Bytes) : Prop := ∃ c r, b = c :: r ∧ isSpace c = true

theorem Ws.nil : Ws [] := fun _ h => by cases h
theorem Ws.append {a b : Bytes} (ha : Ws a) (hb : Ws b) : Ws (a ++ b) := by
  intro c hc
  rcases List.mem_append.mp hc with h | h
  · exact ha c h
  · exact hb c h

theorem wsHead_append {a b : Bytes} (h : WsHead a) : WsHead (a ++ b) := by
  obtain ⟨c, r, rfl, hc⟩ := h
  exact ⟨c, r ++ b, rfl, hc⟩

/-- Exactly one character that `eat_white_space` skips. -/
def One (w : Bytes) : Prop := ∃ c, w = [c] ∧ isEatSpace c = true

theorem isSpace_of_isEatSpace {c : UInt8} (h : isEatSpace c = true) : isSpace c = true := by
  unfold isEatSpace at h
  simp only [Bool.or_eq_true, beq_iff_eq] at h
  rcases h with ((rfl | rfl) | rfl) | rfl <;> decide

/-- A separator: non-empty white space. -/
def Sep (w : Bytes) : Prop := Ws w ∧ w ≠ []

theorem One.sep {w : Bytes} (h : One w) : Sep w := by
  obtain ⟨c, rfl, hc⟩ := h
  refine ⟨fun d hd => ?_, by simp⟩
  rw [List.mem_singleton] at hd; subst hd
  exact isSpace_of_isEatSpace hc

theorem Sep.head {w : Bytes} (h : Sep w) : WsHead w := by
  cases w with
  | nil => exact absurd rfl h.2
  | cons c r => exact ⟨c, r, rfl, h.1 c List.mem_cons_self⟩

theorem one_sp : One [32] := ⟨32, rfl, by decide⟩
theorem one_nl : One [10] := ⟨10, rfl, by decide⟩

/-! ## The reader monad -/

section monad
variable {α β γ : Type}

theorem Rd.bind_def (p : Rd α) (f : α → Rd β) (s : Stream) :
    (p >>= f) s = match p s with
      | .ok (a, s') => f a s'
      | .throw e => .throw e
      | .abort => .abort
      | .ub => .ub
      | .hang => .hang := rfl

theorem Rd.bind_ok {p : Rd α} {f : α → Rd β} {s s' : Stream} {a : α} (h : p s = .ok (a, s')) :
    (p >>= f) s = f a s' := by rw [Rd.bind_def, h]

theorem Rd.pure_def (a : α) (s : Stream) : (pure a : Rd α) s = .ok (a, s) := rfl

theorem Rd.bind_assoc (p : Rd α) (f : α → Rd β) (g : β → Rd γ) :
    (p >>= f) >>= g = p >>= fun a => f a >>= g := by
  funext s
  simp only [Rd.bind_def]
  cases p s <;> rfl

theorem Rd.lift_ok {x : Outcome α} {a : α} (h : x = .ok a) (s : Stream) :
    Rd.lift x s = .ok (a, s) := by subst h; rfl

end monad

instance : LawfulMonad Rd := LawfulMonad.mk'
  (id_map := by intro α x; funext s; show Rd.bind x _ s = _; unfold Rd.bind; cases h : x s <;> rfl)
  (pure_bind := by intro α β a f; rfl)
  (bind_assoc := by intro α β γ p f g; exact Rd.bind_assoc p f g)
  (map_const := by intros; rfl)
  (bind_pure_comp := by intros; rfl)

/-! ## Tokens -/

/-- Exact reading of one token. -/
def Tok {α : Type} (p : Rd α) (t : Bytes) (v : α) : Prop :=
  ∀ w rest, Ws w → WsHead rest → p (gs (w ++ t ++ rest)) = .ok (v, gs rest)

/-- Text made of tokens, each followed by a separator. -/
def flat (ps : List (Bytes × Bytes)) : Bytes := ps.flatMap (fun p => p.1 ++ p.2)

theorem flat_append (a b : List (Bytes × Bytes)) : flat (a ++ b) = flat a ++ flat b := by
  simp [flat]

/-- The separator in front of the reading position after the tokens `ps`. -/
def lastSep (w : Bytes) : List (Bytes × Bytes) → Bytes
  | [] => w
  | q :: ps => lastSep q.2 ps

theorem lastSep_append (w : Bytes) (a b : List (Bytes × Bytes)) :
    lastSep w (a ++ b) = lastSep (lastSep w a) b := by
  induction a generalizing w with
  | nil => rfl
  | cons q a ih => exact ih q.2

theorem lastSep_of {P : Bytes → Prop} {w : Bytes} {ps : List (Bytes × Bytes)} (hw : P w)
    (h : ∀ q ∈ ps, P q.2) : P (lastSep w ps) := by
  induction ps generalizing w with
  | nil => exact hw
  | cons q ps ih => exact ih (h q (by simp)) (fun r hr => h r (by simp [hr]))

theorem lastSep_of_ne {P : Bytes → Prop} {w : Bytes} {ps : List (Bytes × Bytes)} (hn : ps ≠ [])
    (h : ∀ q ∈ ps, P q.2) : P (lastSep w ps) := by
  cases ps with
  | nil => exact absurd rfl hn
  | cons q ps =>
    show P (lastSep q.2 ps)
    exact lastSep_of (h q (by simp)) (fun r hr => h r (by simp [hr]))

/-- Reading a sequence of separated tokens. -/
def ReadsT {α : Type} (p : Rd α) (ts : List Bytes) (v : α) : Prop :=
  ∀ ps : List (Bytes × Bytes), ps.map Prod.fst = ts → (∀ q ∈ ps, Sep q.2) →
    ∀ w rest, Ws w → p (gs (w ++ flat ps ++ rest)) = .ok (v, gs (lastSep w ps ++ rest))

/-- Reading exactly the given bytes. -/
def ReadsB {α : Type} (p : Rd α) (bs : Bytes) (v : α) : Prop :=
  ∀ rest, p (gs (bs ++ rest)) = .ok (v, gs rest)

section comb
variable {α β : Type}

theorem ReadsT.pure (a : α) : ReadsT (Pure.pure a : Rd α) [] a := by
  intro ps hps _ w rest hw
  rw [List.map_eq_nil_iff] at hps; subst hps
  simp [flat, Rd.pure_def, lastSep]

theorem ReadsT.bind {p : Rd α} {f : α → Rd β} {t1 t2 : List Bytes} {a : α} {b : β}
    (h1 : ReadsT p t1 a) (h2 : ReadsT (f a) t2 b) : ReadsT (p >>= f) (t1 ++ t2) b := by
  intro ps hps hK w rest hw
  obtain ⟨p1, p2, rfl, e1, e2⟩ := List.map_eq_append_iff.mp hps
  have k1 : ∀ q ∈ p1, Sep q.2 := fun q hq => hK q (List.mem_append_left _ hq)
  have r1 := h1 p1 e1 k1 w (flat p2 ++ rest) hw
  have r2 := h2 p2 e2 (fun q hq => hK q (List.mem_append_right _ hq)) (lastSep w p1) rest
    (lastSep_of hw fun q hq => (k1 q hq).1)
  have e : w ++ flat (p1 ++ p2) ++ rest = w ++ flat p1 ++ (flat p2 ++ rest) := by
    simp [flat_append]
  rw [e, Rd.bind_ok r1, lastSep_append, ← r2]
  simp

/-- A step that leaves good streams alone. -/
def Silent (p : Rd α) (a : α) : Prop := ∀ b, p (gs b) = .ok (a, gs b)

theorem ReadsT.silent {p : Rd α} {f : α → Rd β} {ts : List Bytes} {a : α} {b : β}
    (h1 : Silent p a) (h2 : ReadsT (f a) ts b) : ReadsT (p >>= f) ts b := by
  intro ps hps hK w rest hw
  rw [Rd.bind_ok (h1 _), h2 ps hps hK w rest hw]

theorem ReadsB.silent {p : Rd α} {f : α → Rd β} {bs : Bytes} {a : α} {b : β}
    (h1 : Silent p a) (h2 : ReadsB (f a) bs b) : ReadsB (p >>= f) bs b := by
  intro rest
  rw [Rd.bind_ok (h1 _), h2]

theorem Tok.readsT {p : Rd α} {t : Bytes} {v : α} (h : Tok p t v) : ReadsT p [t] v := by
  intro ps hps hK w rest hw
  obtain ⟨q, rfl, hq⟩ : ∃ q, ps = [q] ∧ q.1 = t := by
    match ps, hps with
    | [q], hps => exact ⟨q, rfl, by simpa using hps⟩
  have := h w (q.2 ++ rest) hw (wsHead_append (hK q (by simp)).head)
  rw [← hq] at this
  simpa [flat, lastSep] using this

theorem ReadsB.pure (a : α) : ReadsB (Pure.pure a : Rd α) [] a := fun _ => rfl

theorem ReadsB.bind {p : Rd α} {f : α → Rd β} {b1 b2 : Bytes} {a : α} {b : β}
    (h1 : ReadsB p b1 a) (h2 : ReadsB (f a) b2 b) : ReadsB (p >>= f) (b1 ++ b2) b := by
  intro rest
  rw [List.append_assoc, Rd.bind_ok (h1 _), h2]

theorem ReadsB.map {p : Rd α} {g : α → β} {bs : Bytes} {a : α} {b : β}
    (h : ReadsB p bs a) (e : g a = b) : ReadsB (p >>= fun x => Pure.pure (g x)) bs b := by
  intro rest
  rw [Rd.bind_ok (h rest), e]; rfl

theorem ReadsT.map {p : Rd α} {g : α → β} {ts : List Bytes} {a : α} {b : β}
    (h : ReadsT p ts a) (e : g a = b) : ReadsT (p >>= fun x => Pure.pure (g x)) ts b := by
  intro ps hps hK w rest hw
  rw [Rd.bind_ok (h ps hps hK w rest hw), e]; rfl

theorem ReadsT.cons {p : Rd α} {f : α → Rd β} {t : Bytes} {ts : List Bytes} {a : α} {b : β}
    (h1 : Tok p t a) (h2 : ReadsT (f a) ts b) : ReadsT (p >>= f) (t :: ts) b :=
  ReadsT.bind (t1 := [t]) h1.readsT h2

theorem ReadsT.cast {p : Rd α} {t1 t2 : List Bytes} {a b : α} (h : ReadsT p t1 a) (ht : t1 = t2)
    (hab : a = b) : ReadsT p t2 b := by subst ht hab; exact h

theorem ReadsB.cast {p : Rd α} {t1 t2 : Bytes} {a b : α} (h : ReadsB p t1 a) (ht : t1 = t2)
    (hab : a = b) : ReadsB p t2 b := by subst ht hab; exact h

/-- Filling a vector of `cs.length` default elements. -/
theorem ReadsT.forEach {γ : Type} {f : α → Rd α} {toks : γ → List Bytes} {g : γ → α} {d : α} (cs : List γ)
    (h : ∀ c ∈ cs, ReadsT (f d) (toks c) (g c)) :
    ReadsT (MshIO.forEach f (List.replicate cs.length d)) (cs.flatMap toks) (cs.map g) := by
  induction cs with
  | nil => exact ReadsT.pure _
  | cons c cs ih =>
    simp only [List.flatMap_cons]
    exact ReadsT.bind (h c (by simp)) (ReadsT.map (ih fun x hx => h x (by simp [hx])) rfl)

/-- Filling a vector of `cs.length` default elements. -/
theorem ReadsB.forEach {γ : Type} {f : α → Rd α} {enc : γ → Bytes} {g : γ → α} {d : α} (cs : List γ)
    (h : ∀ c ∈ cs, ReadsB (f d) (enc c) (g c)) :
    ReadsB (MshIO.forEach f (List.replicate cs.length d)) (cs.flatMap enc) (cs.map g) := by
  induction cs with
  | nil => exact ReadsB.pure _
  | cons c cs ih =>
    simp only [List.flatMap_cons]
    exact ReadsB.bind (h c (by simp)) (ReadsB.map (ih fun x hx => h x (by simp [hx])) rfl)

end comb

/-! ## Silent steps -/

theorem silent_assertGood (cfg : Cfg) : Silent (assertGood cfg) () := by
  intro b; simp [assertGood, Stream.good]

theorem silent_assertC (cfg : Cfg) {c : Bool} (h : c = true) : Silent (assertC cfg c) () := by
  intro b; simp [assertC, h]

theorem silent_lift {α : Type} {x : Outcome α} {a : α} (h : x = .ok a) : Silent (Rd.lift x) a :=
  fun _ => Rd.lift_ok h _

theorem silent_useVar {α : Type} (a : α) : Silent (useVar (some a)) a := fun _ => rfl

theorem silent_resize_nil {α : Type} (cfg : Cfg) (n : UInt64) (d : α) (h : n.toNat ≤ cfg.maxCount) :
    Silent (resize cfg [] n d) (List.replicate n.toNat d) := by
  apply silent_lift; simp [vecResize, h]

theorem silent_pushBack {α : Type} (cfg : Cfg) (v : List α) (x : α) (h : v.length < cfg.maxCount) :
    Silent (pushBack cfg v x) (v ++ [x]) := by
  apply silent_lift; simp [vecPush, h]

/-! ## The sentry and number tokens -/

theorem dropWhile_ws {w b : Bytes} (hw : Ws w) : (w ++ b).dropWhile isSpace = b.dropWhile isSpace := by
  induction w with
  | nil => rfl
  | cons c w ih =>
    rw [List.cons_append, List.dropWhile_cons_of_pos (hw c List.mem_cons_self)]
    exact ih (fun d hd => hw d (List.mem_cons_of_mem _ hd))

theorem sentry_gs {w : Bytes} {c : UInt8} {r : Bytes} (hw : Ws w) (hc : isSpace c = false) :
    sentry (gs (w ++ c :: r)) = (true, gs (c :: r)) := by
  have : (w ++ c :: r).dropWhile isSpace = c :: r := by
    rw [dropWhile_ws hw, List.dropWhile_cons_of_neg (by simp [hc])]
  simp [sentry, Stream.good, this]

theorem takeWhile_digits {ds rest : Bytes} (hd : ∀ c ∈ ds, isDigit c = true)
    (hr : ∀ c r, rest = c :: r → isDigit c = false) :
    (ds ++ rest).takeWhile isDigit = ds ∧ (ds ++ rest).dropWhile isDigit = rest := by
  induction ds with
  | nil =>
    cases rest with
    | nil => simp
    | cons c r => simp [hr c r rfl]
  | cons d ds ih =>
    have hd' := hd d List.mem_cons_self
    obtain ⟨h1, h2⟩ := ih (fun c hc => hd c (List.mem_cons_of_mem _ hc))
    simp [hd', h1, h2]

theorem WsHead.not_digit {rest : Bytes} (h : WsHead rest) : ∀ c r, rest = c :: r → isDigit c = false := by
  obtain ⟨c, r, rfl, hc⟩ := h
  intro c' r' e
  cases e
  exact isDigit_of_isSpace hc

theorem WsHead.ne_nil {rest : Bytes} (h : WsHead rest) : rest.isEmpty = false := by
  obtain ⟨c, r, rfl, hc⟩ := h; rfl

theorem decNat_cons (n : Nat) : ∃ c r, decNat n = c :: r ∧ isDigit c = true := by
  cases h : decNat n with
  | nil => exact absurd h (decNat_ne_nil n)
  | cons c r => exact ⟨c, r, rfl, decNat_digits n c (by rw [h]; exact List.mem_cons_self)⟩

theorem scanSign_digit {c : UInt8} {r : Bytes} (h : isDigit c = true) :
    scanSign (c :: r) = (false, c :: r) := by
  have h1 : c ≠ 45 := by rintro rfl; exact absurd h (by decide)
  have h2 : c ≠ 43 := by rintro rfl; exact absurd h (by decide)
  unfold scanSign
  split <;> simp_all

theorem extractSize_tok (x : UInt64) : Tok extractSize (decU64 x) (some x) := by
  intro w rest hw hr
  obtain ⟨c, r, e, hc⟩ := decNat_cons x.toNat
  have hs : sentry (gs (w ++ decU64 x ++ rest)) = (true, gs (decU64 x ++ rest)) := by
    unfold decU64; rw [e, List.append_assoc]; exact sentry_gs hw (isSpace_of_isDigit hc)
  have hscan : scanInt (decU64 x ++ rest) = (false, decU64 x, rest) := by
    have hsg : scanSign (decU64 x ++ rest) = (false, decU64 x ++ rest) := by
      unfold decU64; rw [e]; exact scanSign_digit hc
    obtain ⟨t1, t2⟩ := takeWhile_digits (decNat_digits x.toNat) hr.not_digit
    unfold scanInt
    rw [hsg]
    simp only
    unfold decU64
    rw [t1, t2]
  have hconv : convertU64 false (decU64 x) = (x, false) := by
    have h1 : (decU64 x).isEmpty = false := by unfold decU64; rw [e]; rfl
    have h2 : natOfDigits (decU64 x) = x.toNat := natOfDigits_decNat _
    have h3 := x.toNat_lt
    unfold convertU64
    rw [h1, h2]
    simp; omega
  unfold extractSize
  rw [hs]
  simp only [hscan, hconv, hr.ne_nil]

theorem inSize_tok (old x : UInt64) : Tok (inSize old) (decU64 x) x := by
  intro w rest hw hr
  unfold inSize
  rw [Rd.bind_ok (extractSize_tok x w rest hw hr)]
  rfl

theorem scanSign_neg (r : Bytes) : scanSign (45 :: r) = (true, r) := rfl

theorem extractInt_tok (x : Int32) : Tok extractInt (decI32 x) (some x) := by
  intro w rest hw hr
  have hlt := x.toInt_lt
  have hle := x.le_toInt
  obtain ⟨c, r, e, hc⟩ := decNat_cons x.toInt.natAbs
  obtain ⟨t1, t2⟩ := takeWhile_digits (decNat_digits x.toInt.natAbs) hr.not_digit
  have hne : (decNat x.toInt.natAbs).isEmpty = false := by rw [e]; rfl
  have hnat : natOfDigits (decNat x.toInt.natAbs) = x.toInt.natAbs := natOfDigits_decNat _
  have hofint : Int32.ofInt x.toInt = x := by simp
  by_cases hx : x.toInt < 0
  · have ed : decI32 x = 45 :: decNat x.toInt.natAbs := by simp [decI32, hx]
    have hs : sentry (gs (w ++ decI32 x ++ rest)) = (true, gs (45 :: (decNat x.toInt.natAbs ++ rest))) := by
      rw [ed, List.append_assoc]; exact sentry_gs hw (by decide)
    have hscan : scanInt (45 :: (decNat x.toInt.natAbs ++ rest)) =
        (true, decNat x.toInt.natAbs, rest) := by
      unfold scanInt; rw [scanSign_neg]; simp only; rw [t1, t2]
    have hconv : convertI32 true (decNat x.toInt.natAbs) = (x, false) := by
      unfold convertI32
      rw [hne, hnat]
      have e1 : -(x.toInt.natAbs : Int) = x.toInt := by omega
      simp only [if_true, e1]
      rw [if_neg (by simp), if_neg (by omega), if_neg (by omega), hofint]
    unfold extractInt
    rw [hs]
    simp only [hscan, hconv, hr.ne_nil]
  · have ed : decI32 x = decNat x.toInt.natAbs := by simp [decI32, hx]
    have hs : sentry (gs (w ++ decI32 x ++ rest)) = (true, gs (decNat x.toInt.natAbs ++ rest)) := by
      rw [ed, e, List.append_assoc]; exact sentry_gs hw (isSpace_of_isDigit hc)
    have hscan : scanInt (decNat x.toInt.natAbs ++ rest) = (false, decNat x.toInt.natAbs, rest) := by
      have hsg : scanSign (decNat x.toInt.natAbs ++ rest) = (false, decNat x.toInt.natAbs ++ rest) := by
        rw [e]; exact scanSign_digit hc
      unfold scanInt
      rw [hsg]
      simp only
      rw [t1, t2]
    have hconv : convertI32 false (decNat x.toInt.natAbs) = (x, false) := by
      unfold convertI32
      rw [hne, hnat]
      have e1 : (x.toInt.natAbs : Int) = x.toInt := by omega
      simp only [Bool.false_eq_true, if_false, e1]
      rw [if_neg (by omega), if_neg (by omega), hofint]
    unfold extractInt
    rw [hs]
    simp only [hscan, hconv, hr.ne_nil]

theorem inInt_tok (old x : Int32) : Tok (inInt old) (decI32 x) x := by
  intro w rest hw hr
  unfold inInt
  rw [Rd.bind_ok (extractInt_tok x w rest hw hr)]
  rfl

theorem inIntVar_tok (old : Option Int32) (x : Int32) : Tok (inIntVar old) (decI32 x) (some x) := by
  intro w rest hw hr
  unfold inIntVar
  rw [Rd.bind_ok (extractInt_tok x w rest hw hr)]
  rfl

/-! ## Words and quoted strings -/

theorem span_word {t rest : Bytes} (ht : ∀ c ∈ t, isSpace c = false) (hr : WsHead rest) :
    (t ++ rest).takeWhile (fun c => !isSpace c) = t ∧
    (t ++ rest).dropWhile (fun c => !isSpace c) = rest := by
  induction t with
  | nil =>
    obtain ⟨c, r, rfl, hc⟩ := hr
    simp [hc]
  | cons d ds ih =>
    have hd' := ht d List.mem_cons_self
    obtain ⟨h1, h2⟩ := ih (fun c hc => ht c (List.mem_cons_of_mem _ hc))
    simp [hd', h1, h2]

theorem inString_tok (old t : Bytes) (ht : Word t) : Tok (inString old) t t := by
  intro w rest hw hr
  obtain ⟨h1, h2⟩ := span_word ht.2 hr
  cases t with
  | nil => exact absurd rfl ht.1
  | cons c r =>
    have hs : sentry (gs (w ++ c :: r ++ rest)) = (true, gs (c :: r ++ rest)) := by
      rw [List.append_assoc]; exact sentry_gs hw (ht.2 c List.mem_cons_self)
    unfold inString
    rw [hs]
    simp only [h1, h2, hr.ne_nil]

/-- The escaped characters between the quotes. -/
def escChars (s : Bytes) : Bytes := s.flatMap (fun c => if c == 34 || c == 92 then [92, c] else [c])

theorem escChars_cons (c : UInt8) (s : Bytes) :
    escChars (c :: s) = (if c == 34 || c == 92 then [92, c] else [c]) ++ escChars s := rfl

theorem quotedBody_other {c : UInt8} (h1 : c ≠ 34) (h2 : c ≠ 92) (r : Bytes) :
    quotedBody (c :: r) = (c :: (quotedBody r).1, (quotedBody r).2) := by
  rw [quotedBody]
  · exact h1
  · intro h; exact absurd h h2
  · intro _ _ h; exact absurd h h2

theorem quotedBody_esc (c : UInt8) (r : Bytes) :
    quotedBody (92 :: c :: r) = (c :: (quotedBody r).1, (quotedBody r).2) := rfl

theorem quotedBody_quoteText (s rest : Bytes) :
    quotedBody (escChars s ++ 34 :: rest) = (s, gs rest) := by
  induction s with
  | nil => rfl
  | cons c s ih =>
    rw [escChars_cons, List.append_assoc]
    by_cases h : (c == 34 || c == 92) = true
    · rw [if_pos h]
      simp only [List.cons_append, List.nil_append]
      rw [quotedBody_esc, ih]
    · rw [if_neg h]
      simp only [Bool.or_eq_true, beq_iff_eq, not_or] at h
      simp only [List.cons_append, List.nil_append]
      rw [quotedBody_other h.1 h.2, ih]

theorem inQuoted_tok (old s : Bytes) : Tok (inQuoted old) (quoteText s) s := by
  intro w rest hw hr
  have hs : sentry (gs (w ++ quoteText s ++ rest)) = (true, gs (34 :: (escChars s ++ 34 :: rest))) := by
    have e : w ++ quoteText s ++ rest = w ++ 34 :: (escChars s ++ 34 :: rest) := by
      simp [quoteText, escChars]
    rw [e]
    exact sentry_gs hw (by decide)
  unfold inQuoted
  rw [hs]
  simp only [quotedBody_quoteText]

/-! ## Binary primitives -/

theorem readRaw_reads (old b : Bytes) (h : old.length = b.length) : ReadsB (readRaw old) b b := by
  intro rest
  unfold readRaw
  simp [Stream.good, h]

theorem readSize_reads (old x : UInt64) : ReadsB (readSize old) (encU64 x) x :=
  ReadsB.map (readRaw_reads (encU64 old) (encU64 x) (by simp)) (decodeU64_encU64 x)

theorem readInt_reads (old x : Int32) : ReadsB (readInt old) (encI32 x) x :=
  ReadsB.map (readRaw_reads (encI32 old) (encI32 x) (by simp)) (decodeI32_encI32 x)

theorem readDouble_reads (old x : Double) : ReadsB (readDouble old) (encDouble x) x :=
  ReadsB.map (readRaw_reads (encU64 old.bits) (encU64 x.bits) (by simp)) (by simp)

theorem readIntVar_reads (x : Int32) : ReadsB (readIntVar none) (encI32 x) (some x) := by
  intro rest
  have h1 : (encI32 x ++ rest).take 4 = encI32 x := by
    rw [List.take_append_of_le_length (by simp)]; rw [← encI32_length x, List.take_length]
  have h2 : (encI32 x ++ rest).drop 4 = rest := by
    rw [← encI32_length x, List.drop_left]
  simp [readIntVar, Stream.good, h1, h2]

theorem readIntVar_reads' (old : Option Int32) (x : Int32) :
    ReadsB (readIntVar old) (encI32 x) (some x) := by
  cases old with
  | none => exact readIntVar_reads x
  | some v =>
    intro rest
    unfold readIntVar
    simp only [readInt_reads v x rest]

theorem decodeMany_flatMap {α : Type} (k : Nat) (enc : α → Bytes) (dec : Bytes → α)
    (hk : ∀ a, (enc a).length = k) (hd : ∀ a, dec (enc a) = a) (v : List α) :
    decodeMany k dec v.length (v.flatMap enc) = v := by
  induction v with
  | nil => rfl
  | cons a v ih =>
    simp only [List.length_cons, decodeMany, List.flatMap_cons]
    rw [List.take_left' (hk a), List.drop_left' (hk a), hd, ih]

theorem flatMap_length_const {α : Type} (k : Nat) (enc : α → Bytes) (hk : ∀ a, (enc a).length = k)
    (v : List α) : (v.flatMap enc).length = k * v.length := by
  induction v with
  | nil => rfl
  | cons a v ih => simp [hk, ih, Nat.mul_add, Nat.add_comm]

theorem readMany_reads {α : Type} (k : Nat) (enc : α → Bytes) (dec : Bytes → α)
    (hk : ∀ a, (enc a).length = k) (hd : ∀ a, dec (enc a) = a) (old v : List α)
    (hl : old.length = v.length) :
    ReadsB (do return decodeMany k dec old.length (← readRaw (old.flatMap enc))) (v.flatMap enc) v :=
  ReadsB.map (readRaw_reads (old.flatMap enc) (v.flatMap enc)
    (by rw [flatMap_length_const k enc hk, flatMap_length_const k enc hk, hl]))
    (by rw [hl]; exact decodeMany_flatMap k enc dec hk hd v)

theorem readSizes_reads (old v : List UInt64) (h : old.length = v.length) :
    ReadsB (readSizes old) (v.flatMap encU64) v :=
  readMany_reads 8 encU64 decodeU64 (by simp) (by simp) old v h

theorem readInts_reads (old v : List Int32) (h : old.length = v.length) :
    ReadsB (readInts old) (v.flatMap encI32) v :=
  readMany_reads 4 encI32 decodeI32 (by simp) (by simp) old v h

theorem readDoubles_reads (old v : List Double) (h : old.length = v.length) :
    ReadsB (readDoubles old) (v.flatMap encDouble) v := by
  have e : encDouble = fun d => encU64 d.bits := rfl
  rw [e]
  unfold readDoubles
  exact readMany_reads 8 (fun d : Double => encU64 d.bits) (fun b => ⟨decodeU64 b⟩) (by simp) (by simp) old v h

theorem readSizeVar_reads (x : UInt64) : ReadsB readSizeVar (encU64 x) (some x) := by
  intro rest
  have h1 : (encU64 x ++ rest).take 8 = encU64 x := by
    rw [List.take_append_of_le_length (by simp)]; rw [← encU64_length x, List.take_length]
  have h2 : (encU64 x ++ rest).drop 8 = rest := by
    rw [← encU64_length x, List.drop_left]
  simp [readSizeVar, Stream.good, h1, h2]

/-- `eat_white_space(in, 1)` on one separator in front of a non-empty payload. -/
theorem eat_one {w rest : Bytes} (hw : One w) (hr : rest ≠ []) :
    eatWhiteSpace 1 (gs (w ++ rest)) = .ok ((), gs rest) := by
  obtain ⟨c, rfl, hc⟩ := hw
  cases rest with
  | nil => exact absurd rfl hr
  | cons d r => simp [eatWhiteSpace, Stream.good, eatLoop, hc]

end MshIO
