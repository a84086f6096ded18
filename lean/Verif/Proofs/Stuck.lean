import Verif.Proofs.Fails
import Verif.Proofs.DblRound

/-!
# Readers that meet a number that cannot be read
-/

namespace MshIO

/-- Failed, but not at the end of the file. -/
def Stuck (s : Stream) : Prop := s.fail = true ∧ s.eof = false

theorem Stuck.bad {s : Stream} (h : Stuck s) : s.good = false := by simp [Stream.good, h.1]

theorem Stuck.same {s : Stream} (h : Stuck s) : { s with fail := true } = s := by
  cases s; simp [Stuck] at h; simp [h]

theorem Stuck.sentry {s : Stream} (h : Stuck s) : sentry s = (false, s) := by
  unfold MshIO.sentry; rw [h.bad]; simp [h.same]

theorem Stuck.extractSize {s : Stream} (h : Stuck s) : extractSize s = .ok (none, s) := by
  unfold MshIO.extractSize; rw [h.sentry]

theorem Stuck.extractInt {s : Stream} (h : Stuck s) : extractInt s = .ok (none, s) := by
  unfold MshIO.extractInt; rw [h.sentry]

theorem Stuck.extractDouble {s : Stream} (h : Stuck s) : extractDouble s = .ok (none, s) := by
  unfold MshIO.extractDouble; rw [h.sentry]

theorem Stuck.inSize {s : Stream} (h : Stuck s) (old : UInt64) : inSize old s = .ok (old, s) := by
  unfold MshIO.inSize; rw [Rd.bind_ok h.extractSize]; rfl

theorem Stuck.inInt {s : Stream} (h : Stuck s) (old : Int32) : inInt old s = .ok (old, s) := by
  unfold MshIO.inInt; rw [Rd.bind_ok h.extractInt]; rfl

theorem Stuck.inDouble {s : Stream} (h : Stuck s) (old : Double) : inDouble old s = .ok (old, s) := by
  unfold MshIO.inDouble; rw [Rd.bind_ok h.extractDouble]; rfl

theorem Stuck.inDoubleAt {s : Stream} (h : Stuck s) (i : UInt64) (v : List Double) (hi : i.toNat < v.length) :
    inDoubleAt i v s = .ok (v, s) := by
  unfold MshIO.inDoubleAt
  rw [List.getElem?_eq_getElem hi]
  simp only
  rw [Rd.bind_ok (h.inDouble _), List.set_getElem_self]; rfl

theorem Stuck.inSizeAt {s : Stream} (h : Stuck s) (i : UInt64) (v : List UInt64) (hi : i.toNat < v.length) :
    inSizeAt i v s = .ok (v, s) := by
  unfold MshIO.inSizeAt
  rw [List.getElem?_eq_getElem hi]
  simp only
  rw [Rd.bind_ok (h.inSize _), List.set_getElem_self]; rfl

theorem Stuck.forEach {α : Type} {f : α → Rd α} {s : Stream} (l : List α) (h : ∀ a ∈ l, f a s = .ok (a, s)) :
    forEach f l s = .ok (l, s) := by
  induction l with
  | nil => rfl
  | cons a l ih =>
    show (f a >>= fun a => MshIO.forEach f l >>= fun as => pure (a :: as)) s = _
    rw [Rd.bind_ok (h a (by simp)), Rd.bind_ok (ih fun x hx => h x (by simp [hx]))]
    rfl

theorem Stuck.loopN {σ : Type} {f : Nat → σ → Rd σ} {s : Stream} {st : σ} (n i : Nat)
    (h : ∀ j, i ≤ j → j < i + n → f j st s = .ok (st, s)) : loopN f n i st s = .ok (st, s) := by
  induction n generalizing i with
  | zero => rfl
  | succ n ih =>
    show (f i st >>= fun st => MshIO.loopN f n (i + 1) st) s = _
    rw [Rd.bind_ok (h i (Nat.le_refl _) (by omega)), ih (i + 1) (fun j h1 h2 => h j (by omega) (by omega))]

/-! ## A double whose text cannot be read back -/

theorem scanFloat_junk (b : Bool) (c : UInt8) (r : Bytes) (h : c = 105 ∨ c = 110) :
    (scanFloat ((if b then [45] else []) ++ c :: r)).rest = c :: r ∧
    (convertFloat (scanFloat ((if b then [45] else []) ++ c :: r))).2 = true := by
  rcases h with rfl | rfl <;> cases b <;>
    simp [scanFloat, scanSign, scanFrac, convertFloat, isDigit]

theorem fmtDouble_junk {P : Fmt} {d : Double} (h : d.isFinite = false) :
    ∃ c r, fmtDouble P d = (if d.neg then [45] else []) ++ c :: r ∧ (c = 105 ∨ c = 110) := by
  unfold fmtDouble
  rw [h]
  by_cases hm : d.mag = Double.infMag
  · simp only [hm, if_true]
    exact ⟨105, [110, 102], rfl, Or.inl rfl⟩
  · simp only [hm, if_false]
    exact ⟨110, [97, 110], rfl, Or.inr rfl⟩

theorem not_printable_of_not_finite {P : Fmt} {d : Double} (h : d.isFinite = false) : ¬ Printable P d :=
  fun hp => by rw [hp.finite] at h; cases h

theorem inDouble_bad {P : Fmt} {d : Double} (h : ¬ Printable P d) (old : Double) {w rest : Bytes} (hw : Ws w) (hr : WsHead rest) :
    ∃ v s, inDouble old (gs (w ++ fmtDouble P d ++ rest)) = .ok (v, s) ∧ Stuck s := by
  have key : ∃ c t, fmtDouble P d ++ rest = c :: t ∧ isSpace c = false ∧
      (scanFloat (fmtDouble P d ++ rest)).rest ≠ [] ∧ (convertFloat (scanFloat (fmtDouble P d ++ rest))).2 = true := by
    cases hf : d.isFinite with
    | true =>
      obtain ⟨hrest, hconv⟩ := finite_text P hf rest (Or.inr hr)
      obtain ⟨c, t, e, hc⟩ := fmtDouble_cons P d hf
      refine ⟨c, t ++ rest, by rw [e]; rfl, hc, ?_, ?_⟩
      · rw [hrest]
        intro h0; subst h0; exact absurd hr.ne_nil (by simp)
      · rw [hconv]
        unfold Printable at h
        simpa using h
    | false =>
      obtain ⟨c, r, e, hc⟩ := fmtDouble_junk (P := P) hf
      obtain ⟨j1, j2⟩ := scanFloat_junk d.neg c (r ++ rest) hc
      have e2 : fmtDouble P d ++ rest = (if d.neg then [45] else []) ++ c :: (r ++ rest) := by rw [e]; simp
      rw [e2, j1, j2]
      cases d.neg with
      | true => exact ⟨45, _, rfl, by decide, by simp, rfl⟩
      | false =>
        refine ⟨c, r ++ rest, rfl, ?_, by simp, rfl⟩
        rcases hc with rfl | rfl <;> decide
  obtain ⟨c, t, e, hc, h1, h2⟩ := key
  have hs : sentry (gs (w ++ fmtDouble P d ++ rest)) = (true, gs (fmtDouble P d ++ rest)) := by
    rw [List.append_assoc, e]; exact sentry_gs hw hc
  have hx : extractDouble (gs (w ++ fmtDouble P d ++ rest)) =
      .ok (some (convertFloat (scanFloat (fmtDouble P d ++ rest))).1, ⟨(scanFloat (fmtDouble P d ++ rest)).rest, false, true⟩) := by
    unfold extractDouble
    rw [hs]
    simp only [h2]
    have : (scanFloat (fmtDouble P d ++ rest)).rest.isEmpty = false := by
      cases hh : (scanFloat (fmtDouble P d ++ rest)).rest with
      | nil => exact absurd hh h1
      | cons => rfl
    rw [this]
  refine ⟨(convertFloat (scanFloat (fmtDouble P d ++ rest))).1, ⟨(scanFloat (fmtDouble P d ++ rest)).rest, false, true⟩, ?_, rfl, rfl⟩
  unfold inDouble
  rw [Rd.bind_ok hx]
  rfl

/-! ## Outcomes of readers after given words -/

/-- Whatever follows these words, the outcome of the reader satisfies `Q`. -/
def EndsT {α : Type} (p : Rd α) (ts : List Bytes) (Q : Outcome (α × Stream) → Prop) : Prop :=
  ∀ ps : List (Bytes × Bytes), ps.map Prod.fst = ts → (∀ q ∈ ps, Sep q.2) →
    ∀ w rest, Ws w → Q (p (gs (w ++ flat ps ++ rest)))

/-- The reader comes back with a stuck stream. -/
def Jam {α : Type} (o : Outcome (α × Stream)) : Prop := ∃ a s, o = .ok (a, s) ∧ Stuck s

/-- With assertions the program is aborted, without them the reader comes back with a stuck stream. -/
def Dead (cfg : Cfg) {α : Type} (o : Outcome (α × Stream)) : Prop :=
  (cfg.asserts = true → o = .abort) ∧ (cfg.asserts = false → Jam o)

section
variable {α β : Type} {cfg : Cfg}

theorem EndsT.mono {p : Rd α} {ts : List Bytes} {Q R : Outcome (α × Stream) → Prop} (h : EndsT p ts Q) (hq : ∀ o, Q o → R o) :
    EndsT p ts R := fun ps h1 h2 w rest hw => hq _ (h ps h1 h2 w rest hw)

theorem EndsT.more {p : Rd α} {ts : List Bytes} {Q : Outcome (α × Stream) → Prop} (h : EndsT p ts Q) (ts' : List Bytes) :
    EndsT p (ts ++ ts') Q := by
  intro ps hps hK w rest hw
  obtain ⟨p1, p2, rfl, e1, e2⟩ := List.map_eq_append_iff.mp hps
  have r1 := h p1 e1 (fun q hq => hK q (List.mem_append_left _ hq)) w (flat p2 ++ rest) hw
  have e : w ++ flat (p1 ++ p2) ++ rest = w ++ flat p1 ++ (flat p2 ++ rest) := by simp [flat_append]
  rw [e]; exact r1

theorem EndsT.bind {p : Rd α} {f : α → Rd β} {t1 t2 : List Bytes} {a : α} {Q : Outcome (β × Stream) → Prop}
    (h1 : ReadsT p t1 a) (h2 : EndsT (f a) t2 Q) : EndsT (p >>= f) (t1 ++ t2) Q := by
  intro ps hps hK w rest hw
  obtain ⟨p1, p2, rfl, e1, e2⟩ := List.map_eq_append_iff.mp hps
  have k1 : ∀ q ∈ p1, Sep q.2 := fun q hq => hK q (List.mem_append_left _ hq)
  have r1 := h1 p1 e1 k1 w (flat p2 ++ rest) hw
  have r2 := h2 p2 e2 (fun q hq => hK q (List.mem_append_right _ hq)) (lastSep w p1) rest
    (lastSep_of hw fun q hq => (k1 q hq).1)
  have e : w ++ flat (p1 ++ p2) ++ rest = w ++ flat p1 ++ (flat p2 ++ rest) := by simp [flat_append]
  rw [e, Rd.bind_ok r1]
  simpa using r2

theorem EndsT.cons {p : Rd α} {f : α → Rd β} {t : Bytes} {ts : List Bytes} {a : α} {Q : Outcome (β × Stream) → Prop}
    (h1 : Tok p t a) (h2 : EndsT (f a) ts Q) : EndsT (p >>= f) (t :: ts) Q :=
  EndsT.bind (t1 := [t]) h1.readsT h2

theorem EndsT.silent {p : Rd α} {f : α → Rd β} {ts : List Bytes} {a : α} {Q : Outcome (β × Stream) → Prop}
    (h1 : Silent p a) (h2 : EndsT (f a) ts Q) : EndsT (p >>= f) ts Q := by
  intro ps hps hK w rest hw
  rw [Rd.bind_ok (h1 _)]
  exact h2 ps hps hK w rest hw

theorem EndsT.cast {p : Rd α} {t1 t2 : List Bytes} {Q : Outcome (α × Stream) → Prop} (h : EndsT p t1 Q) (ht : t1 = t2) :
    EndsT p t2 Q := by subst ht; exact h

/-- What happens first decides. -/
theorem EndsT.first {p : Rd α} {f : α → Rd β} {ts : List Bytes} {Q : Outcome (α × Stream) → Prop} {R : Outcome (β × Stream) → Prop}
    (h : EndsT p ts Q) (hq : ∀ s, Q (p s) → R ((p >>= f) s)) : EndsT (p >>= f) ts R :=
  fun ps h1 h2 w rest hw => hq _ (h ps h1 h2 w rest hw)

theorem Rd.bind_ub {p : Rd α} {f : α → Rd β} {s : Stream} (h : p s = .ub) : (p >>= f) s = .ub := by
  rw [Rd.bind_def, h]

theorem Rd.bind_abort {p : Rd α} {f : α → Rd β} {s : Stream} (h : p s = .abort) : (p >>= f) s = .abort := by
  rw [Rd.bind_def, h]

theorem Jam.bind {p : Rd α} {f : α → Rd β} {s : Stream} (h : Jam (p s)) {R : Outcome (β × Stream) → Prop}
    (hf : ∀ a s, Stuck s → R (f a s)) : R ((p >>= f) s) := by
  obtain ⟨a, s', e, hs⟩ := h
  rw [Rd.bind_ok e]
  exact hf a s' hs

theorem Dead.bind {p : Rd α} {f : α → Rd β} {s : Stream} (h : Dead cfg (p s))
    (hf : cfg.asserts = false → ∀ a s, Stuck s → Jam (f a s)) : Dead cfg ((p >>= f) s) :=
  ⟨fun ha => Rd.bind_abort (h.1 ha), fun ha => (h.2 ha).bind (hf ha)⟩

/-- `assert(in.good())` on a stuck stream. -/
theorem Stuck.assertGood {s : Stream} (h : Stuck s) : Dead cfg (assertGood cfg s) := by
  unfold MshIO.assertGood
  rw [h.bad]
  refine ⟨fun ha => by simp [ha], fun ha => ⟨(), s, by simp [ha], h⟩⟩

theorem Stuck.useVar_none {s : Stream} : useVar (none : Option α) s = .ub := rfl

theorem EndsT.forEach {γ : Type} {f : α → Rd α} {toks : γ → List Bytes} {g : γ → α} {d : α} {ts : List Bytes}
    {Q : Outcome (α × Stream) → Prop} {R : Outcome (List α × Stream) → Prop} (cs : List γ) (k : Nat)
    (h : ∀ c ∈ cs, ReadsT (f d) (toks c) (g c)) (hf : EndsT (f d) ts Q)
    (hq : ∀ s, Q (f d s) → R (MshIO.forEach f (List.replicate (k + 1) d) s))
    (hr : ∀ (p : Rd (List α)) a s, R (p s) → R ((p >>= fun as => Pure.pure (a :: as)) s)) :
    EndsT (MshIO.forEach f (List.replicate (cs.length + 1 + k) d)) (cs.flatMap toks ++ ts) R := by
  induction cs with
  | nil =>
    intro ps h1 h2 w rest hw
    rw [List.length_nil, show 0 + 1 + k = k + 1 by omega]
    exact hq _ (hf ps h1 h2 w rest hw)
  | cons c cs ih =>
    rw [List.length_cons, show cs.length + 1 + 1 + k = (cs.length + 1 + k) + 1 by omega, List.replicate_succ,
      List.flatMap_cons, List.append_assoc]
    exact EndsT.bind (h c (by simp)) (EndsT.first (ih fun x hx => h x (by simp [hx])) fun s hs => hr _ _ _ hs)

theorem EndsT.forEach_dead {γ : Type} {f : α → Rd α} {toks : γ → List Bytes} {g : γ → α} {d : α} {ts : List Bytes}
    (cs : List γ) (k : Nat) (h : ∀ c ∈ cs, ReadsT (f d) (toks c) (g c)) (hf : EndsT (f d) ts (Dead cfg))
    (hs : cfg.asserts = false → ∀ s, Stuck s → f d s = .ok (d, s)) :
    EndsT (MshIO.forEach f (List.replicate (cs.length + 1 + k) d)) (cs.flatMap toks ++ ts) (Dead cfg) := by
  refine EndsT.forEach cs k h hf ?_ ?_
  · intro s hd
    rw [List.replicate_succ]
    refine Dead.bind hd fun ha a s' hs' => ?_
    rw [Rd.bind_ok (Stuck.forEach _ fun x hx => by rw [List.eq_of_mem_replicate hx]; exact hs ha s' hs')]
    exact ⟨_, _, rfl, hs'⟩
  · intro p a s hd
    exact Dead.bind hd fun _ as s' hs' => ⟨_, _, rfl, hs'⟩

theorem EndsT.forEach_ub {γ : Type} {f : α → Rd α} {toks : γ → List Bytes} {g : γ → α} {d : α} {ts : List Bytes}
    (cs : List γ) (k : Nat) (h : ∀ c ∈ cs, ReadsT (f d) (toks c) (g c)) (hf : EndsT (f d) ts (· = .ub)) :
    EndsT (MshIO.forEach f (List.replicate (cs.length + 1 + k) d)) (cs.flatMap toks ++ ts) (· = .ub) := by
  refine EndsT.forEach cs k h hf ?_ ?_
  · intro s hd
    rw [List.replicate_succ]
    exact Rd.bind_ub hd
  · intro p a s hd
    exact Rd.bind_ub hd

theorem EndsT.double {P : Fmt} {d : Double} (h : ¬ Printable P d) (old : Double) : EndsT (inDouble old) [fmtDouble P d] Jam := by
  intro ps hps hK w rest hw
  obtain ⟨q, rfl, hq⟩ := List.map_eq_singleton_iff.mp hps
  obtain ⟨v, s, e, hs⟩ := inDouble_bad h old (rest := q.2 ++ rest) hw (wsHead_append (hK q (by simp)).head)
  refine ⟨v, s, ?_, hs⟩
  rw [← e, ← hq]
  simp [flat]

theorem EndsT.doubleAt {P : Fmt} {d : Double} (h : ¬ Printable P d) (i : UInt64) (v : List Double) (hi : i.toNat < v.length) :
    EndsT (inDoubleAt i v) [fmtDouble P d] (fun o => ∃ v' s, o = .ok (v', s) ∧ Stuck s ∧ v'.length = v.length) := by
  unfold inDoubleAt
  rw [List.getElem?_eq_getElem hi]
  refine EndsT.first (EndsT.double h _) ?_
  rintro s ⟨a, s', e, hs'⟩
  exact ⟨v.set i.toNat a, s', Rd.bind_ok e, hs', by simp⟩

/-- Filling a vector of doubles, one of which cannot be read. -/
theorem EndsT.fill {P : Fmt} (cs : List Double) (old : List Double) (hbad : ∃ d ∈ cs, ¬ Printable P d)
    (h : old.length = cs.length) (hlt : cs.length < 2 ^ 64) :
    EndsT (loopN (fun i v => inDoubleAt (UInt64.ofNat i) v) cs.length 0 old) (cs.map (fmtDouble P)) Jam := by
  have key : ∀ (cs' : List Double) (pre old : List Double), (∃ d ∈ cs', ¬ Printable P d) → old.length = cs'.length →
      pre.length + cs'.length < 2 ^ 64 →
      EndsT (loopN (fun i v => inDoubleAt (UInt64.ofNat i) v) cs'.length pre.length (pre ++ old)) (cs'.map (fmtDouble P)) Jam := by
    intro cs'
    induction cs' with
    | nil => intro pre old hb; obtain ⟨d, hd, _⟩ := hb; cases hd
    | cons c cs' ih =>
      intro pre old hb h hl
      cases old with
      | nil => simp at h
      | cons o old =>
        simp only [List.length_cons] at h hl
        have hn : (UInt64.ofNat pre.length).toNat = pre.length := ofNat_toNat_lt (by omega)
        have hin : (UInt64.ofNat pre.length).toNat < (pre ++ o :: old).length := by rw [hn]; simp
        by_cases hp : Printable P c
        · have h1 := inDoubleAt_reads hp.dtok (UInt64.ofNat pre.length) (pre ++ o :: old) hin
          rw [hn] at h1
          have e1 : (pre ++ o :: old).set pre.length (reread P c) = (pre ++ [reread P c]) ++ old := by simp
          rw [e1] at h1
          have hb' : ∃ d ∈ cs', ¬ Printable P d := by
            obtain ⟨d, hd, hnp⟩ := hb
            rcases List.mem_cons.mp hd with rfl | hd
            · exact absurd hp hnp
            · exact ⟨d, hd, hnp⟩
          have h2 := ih (pre ++ [reread P c]) old hb' (by omega) (by simp; omega)
          rw [List.length_append, List.length_singleton] at h2
          exact EndsT.bind (t1 := [fmtDouble P c]) h1 h2
        · have h1 := EndsT.doubleAt hp (UInt64.ofNat pre.length) (pre ++ o :: old) hin
          refine EndsT.more (ts := [fmtDouble P c]) (EndsT.first h1 ?_) (cs'.map (fmtDouble P))
          rintro s ⟨v', s', e, hs, hv⟩
          rw [Rd.bind_ok e]
          refine ⟨v', s', Stuck.loopN _ _ fun j h1 h2 => hs.inDoubleAt _ _ ?_, hs⟩
          rw [hv, ofNat_toNat_lt (by omega)]
          simp
          omega
  simpa using key cs [] old hbad h (by simpa using hlt)

end

end MshIO
