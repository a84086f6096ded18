import Verif.Proofs.Loops
import Verif.Proofs.Loop
import Verif.Model.Load
import Verif.Spec.Sections

/-!
# Reading back whole sections

`Rds p b v`: on a good stream starting with `b`, `p` returns `v` and leaves at most white space of
`b` unread.  `Parses cfg spec b spec'`: the main loop of `load_msh`, positioned in front of `b` with
`spec` loaded so far, gets past `b` having loaded `spec'`.
-/

namespace MshIO

/-- `p` reads the text `b` up to trailing white space. -/
def Rds {α : Type} (p : Rd α) (b : Bytes) (v : α) : Prop :=
  ∀ rest, rest ≠ [] → ∃ w, Ws w ∧ p (gs (b ++ rest)) = .ok (v, gs (w ++ rest))

theorem Rds.cast {α : Type} {p : Rd α} {b b' : Bytes} {v v' : α} (h : Rds p b v) (hb : b = b')
    (hv : v = v') : Rds p b' v' := by subst hb hv; exact h

theorem Rds.map {α β : Type} {p : Rd α} {g : α → β} {bs : Bytes} {a : α} {b : β}
    (h : Rds p bs a) (e : g a = b) : Rds (p >>= fun x => Pure.pure (g x)) bs b := by
  intro rest hr
  obtain ⟨w, hw, h⟩ := h rest hr
  exact ⟨w, hw, by rw [Rd.bind_ok h, e]; rfl⟩

theorem ReadsT.last {α β : Type} {p : Rd α} {f : α → Rd β} {ts : List Bytes} {a : α} {b : β}
    (h1 : ReadsT p ts a) (h2 : ReadsT (f a) [] b) : ReadsT (p >>= f) ts b := by
  have := ReadsT.bind h1 h2
  rwa [List.append_nil] at this

theorem ReadsB.last {α β : Type} {p : Rd α} {f : α → Rd β} {bs : Bytes} {a : α} {b : β}
    (h1 : ReadsB p bs a) (h2 : ReadsB (f a) [] b) : ReadsB (p >>= f) bs b := by
  have := ReadsB.bind h1 h2
  rwa [List.append_nil] at this

/-- Separated tokens after some white space. -/
theorem ReadsT.rds {α : Type} {p : Rd α} {ts : List Bytes} {v : α} (h : ReadsT p ts v)
    (ps : List (Bytes × Bytes)) (hps : ps.map Prod.fst = ts) (hs : ∀ q ∈ ps, Sep q.2)
    {w : Bytes} (hw : Ws w) : Rds p (w ++ flat ps) v := by
  intro rest _
  exact ⟨_, lastSep_of (P := Ws) hw fun q hq => (hs q hq).1, h ps hps hs w rest hw⟩

/-- One white-space character, then exact bytes. -/
theorem ReadsB.rds_eat {α : Type} {p : Rd α} {bs : Bytes} {v : α} (h : ReadsB p bs v) (hb : bs ≠ [])
    {w : Bytes} (hw : One w) : Rds (eatWhiteSpace 1 >>= fun _ => p) (w ++ bs) v := by
  intro rest _
  refine ⟨[], Ws.nil, ?_⟩
  rw [List.append_assoc, Rd.bind_ok (eat_one hw (by simp [hb])), h]
  rfl

/-- Mixed sections: separated tokens, one white-space character, then exact bytes. -/
def ReadsM {α : Type} (p : Rd α) (bs : Bytes) (v : α) : Prop :=
  ∀ w rest, Ws w → rest ≠ [] → p (gs (w ++ bs ++ rest)) = .ok (v, gs rest)

theorem ReadsM.rds {α : Type} {p : Rd α} {bs : Bytes} {v : α} (h : ReadsM p bs v) {w : Bytes}
    (hw : Ws w) : Rds p (w ++ bs) v := fun rest hr => ⟨[], Ws.nil, h w rest hw hr⟩

/-- Tokens first. -/
theorem ReadsM.tokens {α β : Type} {p : Rd α} {f : α → Rd β} {ts : List Bytes} {a : α} {b : β}
    {ps : List (Bytes × Bytes)} {bs : Bytes} (h1 : ReadsT p ts a) (hps : ps.map Prod.fst = ts)
    (ho : ∀ q ∈ ps, One q.2) (hne : ps ≠ [])
    (h2 : ∀ w rest, One w → rest ≠ [] → f a (gs (w ++ bs ++ rest)) = .ok (b, gs rest)) :
    ReadsM (p >>= f) (flat ps ++ bs) b := by
  intro w rest hw hr
  have e : w ++ (flat ps ++ bs) ++ rest = w ++ flat ps ++ (bs ++ rest) := by simp
  rw [e, Rd.bind_ok (h1 ps hps (fun q hq => (ho q hq).sep) w (bs ++ rest) hw), ← List.append_assoc]
  exact h2 _ rest (lastSep_of_ne hne ho) hr

/-! ## One round of the main loop -/

/-- `$End` followed by the section name. -/
def endTag (name : Bytes) : Bytes := b! "$End" ++ name

theorem endMarker_tag (name : Bytes) : endMarker (36 :: name) = endTag name := rfl

theorem endTag_word {name : Bytes} (h : ∀ c ∈ name, isSpace c = false) : Word (endTag name) := by
  refine ⟨by simp [endTag], ?_⟩
  intro c hc
  rcases List.mem_append.mp hc with h' | h'
  · clear hc; revert h'; revert c; decide
  · exact h c h'

theorem tag_word {name : Bytes} (h : ∀ c ∈ name, isSpace c = false) : Word (36 :: name) := by
  refine ⟨by simp, ?_⟩
  intro c hc
  rcases List.mem_cons.mp hc with h' | h'
  · subst h'; decide
  · exact h c h'

theorem forwardTo_marker {w flag rest : Bytes} (hw : Ws w) (hf : Word flag) (hr : WsHead rest) :
    forwardTo flag (gs (w ++ flag ++ rest)) = .ok ((), gs rest) := by
  rw [forwardTo_eq, fwd_step, if_neg]
  · rw [Rd.bind_ok (inString_tok [] flag hf w rest hw hr), fwd_step, if_pos (by simp)]
  · simp only [Bool.false_or, beq_iff_eq]
    exact fun h => hf.1 h.symm

theorem loadRound_section {cfg : Cfg} {spec spec' : MshSpec} {name body w rest : Bytes}
    (hn : ∀ c ∈ name, isSpace c = false) (hb : WsHead (body ++ endTag name ++ rest)) (hr : WsHead rest)
    (hw : Ws w) (h : Rds (loadSection cfg (36 :: name) spec) body spec') :
    loadRound cfg spec (gs (w ++ (36 :: name) ++ (body ++ endTag name ++ rest))) =
      .ok (spec', gs rest) := by
  unfold loadRound
  rw [Rd.bind_ok (inString_tok [] _ (tag_word hn) w _ hw hb)]
  simp only
  obtain ⟨w', hw', e⟩ := h (endTag name ++ rest) (by simp [endTag])
  rw [List.append_assoc, Rd.bind_ok e, endMarker_tag, ← List.append_assoc,
    Rd.bind_ok (forwardTo_marker hw' (endTag_word hn) hr)]
  rfl

/-- The main loop gets past `b`. -/
def Parses (cfg : Cfg) (spec : MshSpec) (b : Bytes) (spec' : MshSpec) : Prop :=
  ∀ w rest, Ws w → ∃ w', Ws w' ∧
    loadFull cfg spec (gs (w ++ b ++ rest)) = loadFull cfg spec' (gs (w' ++ rest))

theorem Parses.nil (cfg : Cfg) (spec : MshSpec) : Parses cfg spec [] spec :=
  fun w rest hw => ⟨w, hw, by simp⟩

theorem Parses.append {cfg : Cfg} {s1 s2 s3 : MshSpec} {a b : Bytes} (h1 : Parses cfg s1 a s2)
    (h2 : Parses cfg s2 b s3) : Parses cfg s1 (a ++ b) s3 := by
  intro w rest hw
  obtain ⟨w1, hw1, e1⟩ := h1 w (b ++ rest) hw
  obtain ⟨w2, hw2, e2⟩ := h2 w1 rest hw1
  refine ⟨w2, hw2, ?_⟩
  rw [← e2, List.append_assoc w1, ← e1]
  simp

theorem Parses.cast {cfg : Cfg} {s1 s2 s3 : MshSpec} {a b : Bytes} (h : Parses cfg s1 a s2)
    (hb : a = b) (hs : s2 = s3) : Parses cfg s1 b s3 := by subst hb hs; exact h

/-- A section: tag, body, end tag, white space. -/
theorem Parses.section {cfg : Cfg} {spec spec' : MshSpec} {name body tail : Bytes}
    (hn : ∀ c ∈ name, isSpace c = false) (hb : WsHead (body ++ endTag name)) (ht : Sep tail)
    (h : Rds (loadSection cfg (36 :: name) spec) body spec') :
    Parses cfg spec ((36 :: name) ++ body ++ endTag name ++ tail) spec' := by
  intro w rest hw
  refine ⟨tail, ht.1, ?_⟩
  have e : w ++ (36 :: name ++ body ++ endTag name ++ tail) ++ rest =
      w ++ (36 :: name) ++ (body ++ endTag name ++ (tail ++ rest)) := by simp
  rw [e]
  exact loadFull_round_ok rfl
    (loadRound_section hn (by have := wsHead_append (b := tail ++ rest) hb; simpa using this)
      (wsHead_append ht.head) hw h)

/-- Trailing white space ends the main loop. -/
theorem loadFull_ws {cfg : Cfg} {spec : MshSpec} {w : Bytes} (hw : Ws w) :
    loadFull cfg spec (gs w) = .ok (spec, ⟨[], true, true⟩) := by
  have hd : w.dropWhile isSpace = [] := by
    have := dropWhile_ws (b := []) hw
    simpa using this
  have hs : inString [] (gs w) = .ok ([], ⟨[], true, true⟩) := by
    simp [inString, sentry, Stream.good, hd]
  have hr : loadRound cfg spec (gs w) = .ok (spec, ⟨[], true, true⟩) := by
    unfold loadRound
    rw [Rd.bind_ok hs]; rfl
  rw [loadFull_round_ok rfl hr, loadFull_eof rfl]

/-- Loading a whole file. -/
theorem Parses.load {cfg : Cfg} {spec : MshSpec} {b : Bytes} (h : Parses cfg {} b spec) :
    loadMsh cfg b = loadPostProcess cfg spec := by
  obtain ⟨w, hw, e⟩ := h [] [] Ws.nil
  simp only [List.nil_append, List.append_nil] at e
  unfold loadMsh
  rw [loadStream_eq]
  show (match loadFull cfg {} (gs b) with
      | .ok (spec, _) => loadPostProcess cfg spec
      | .throw e => .throw e
      | .abort => .abort
      | .ub => .ub
      | .hang => .hang) = _
  rw [e, loadFull_ws hw]

/-- Saving a part of the file and loading it again. -/
def SL (cfg : Cfg) (w : Wr Unit) (spec spec' : MshSpec) : Prop :=
  ∃ b, Writes w b ∧ Parses cfg spec b spec'

theorem SL.bind {cfg : Cfg} {w1 w2 : Wr Unit} {s1 s2 s3 : MshSpec} (h1 : SL cfg w1 s1 s2)
    (h2 : SL cfg w2 s2 s3) : SL cfg (w1 >>= fun _ => w2) s1 s3 := by
  obtain ⟨b1, hw1, hp1⟩ := h1
  obtain ⟨b2, hw2, hp2⟩ := h2
  exact ⟨b1 ++ b2, Writes.bind hw1 hw2, hp1.append hp2⟩

theorem SL.pure (cfg : Cfg) (s : MshSpec) : SL cfg (pure ()) s s := ⟨[], Writes.pure, Parses.nil _ _⟩

theorem SL.cast {cfg : Cfg} {w : Wr Unit} {s1 s2 s3 : MshSpec} (h : SL cfg w s1 s2) (e : s2 = s3) :
    SL cfg w s1 s3 := e ▸ h

theorem SL.when {cfg : Cfg} {c : Bool} {w : Wr Unit} {s1 s2 : MshSpec} (h1 : c = true → SL cfg w s1 s2)
    (h2 : c = false → s1 = s2) : SL cfg (whenW c w) s1 s2 := by
  unfold whenW
  cases c with
  | true => exact h1 rfl
  | false => exact h2 rfl ▸ SL.pure _ _

theorem SL.section {cfg : Cfg} {name : Bytes} {w : Wr Unit} {b : Bytes} {spec spec' : MshSpec}
    {t e : Bytes} (ht : t = (36 :: name) ++ endl) (he : e = endTag name ++ endl)
    (hn : ∀ c ∈ name, isSpace c = false) (hw : Writes w b)
    (h : Rds (loadSection cfg (36 :: name) spec) ([10] ++ b) spec') :
    SL cfg (emit t >>= fun _ => w >>= fun _ => emit e) spec spec' := by
  refine ⟨t ++ (b ++ e), Writes.bind (Writes.emit _) (Writes.bind hw (Writes.emit _)), ?_⟩
  refine Parses.cast (Parses.section (tail := [10]) hn ⟨10, b ++ endTag name, by simp, by decide⟩
    one_nl.sep h) ?_ rfl
  subst ht he
  simp [endl]

/-! ## Text files as token lists -/

/-- The main loop gets past the tokens `ts`, whatever white space separates them. -/
def ParsesT (cfg : Cfg) (spec : MshSpec) (ts : List Bytes) (spec' : MshSpec) : Prop :=
  ∀ ps : List (Bytes × Bytes), ps.map Prod.fst = ts → (∀ q ∈ ps, Sep q.2) → Parses cfg spec (flat ps) spec'

theorem ParsesT.nil (cfg : Cfg) (spec : MshSpec) : ParsesT cfg spec [] spec := by
  intro ps hps _
  rw [List.map_eq_nil_iff] at hps; subst hps
  exact Parses.nil _ _

theorem ParsesT.append {cfg : Cfg} {s1 s2 s3 : MshSpec} {a b : List Bytes} (h1 : ParsesT cfg s1 a s2)
    (h2 : ParsesT cfg s2 b s3) : ParsesT cfg s1 (a ++ b) s3 := by
  intro ps hps hs
  obtain ⟨p1, p2, rfl, e1, e2⟩ := List.map_eq_append_iff.mp hps
  rw [flat_append]
  exact (h1 p1 e1 fun q hq => hs q (by simp [hq])).append (h2 p2 e2 fun q hq => hs q (by simp [hq]))

theorem ParsesT.section {cfg : Cfg} {spec spec' : MshSpec} {name : Bytes} {ts : List Bytes}
    (hn : ∀ c ∈ name, isSpace c = false)
    (h : ReadsT (loadSection cfg (36 :: name) spec) ts spec') :
    ParsesT cfg spec ((36 :: name) :: (ts ++ [endTag name])) spec' := by
  intro ps hps hs
  cases ps with
  | nil => simp at hps
  | cons q ps =>
    simp only [List.map_cons, List.cons.injEq] at hps
    obtain ⟨hq, hps⟩ := hps
    obtain ⟨p1, p2, rfl, e1, e2⟩ := List.map_eq_append_iff.mp hps
    obtain ⟨r, rfl, hr⟩ := List.map_eq_singleton_iff.mp e2
    have hq2 := hs q (by simp)
    have := Parses.section (cfg := cfg) (body := q.2 ++ flat p1) (tail := r.2) hn
      (by rw [List.append_assoc]; exact wsHead_append hq2.head) (hs r (by simp))
      (h.rds p1 e1 (fun q hq => hs q (by simp [hq])) hq2.1)
    refine this.cast ?_ rfl
    rw [← hr, ← hq]
    simp [flat]

/-! ## Sections one by one -/

/-- `b` is a run of sections, all known to the loader, their tags among `N` in this order, each read in one round of the main loop. -/
def Linked (cfg : Cfg) (N : List Bytes) (spec : MshSpec) (b : Bytes) (spec' : MshSpec) : Prop :=
  ∃ L : List (Bytes × Bytes), Chain cfg spec L spec' ∧ (L.map Prod.snd).flatten = b ∧ (L.map fun q => 36 :: q.1).Sublist N ∧
    ∀ q ∈ L, q.1 ∈ knownSections true

theorem Chain.append {cfg : Cfg} {s t u : MshSpec} {L M : List (Bytes × Bytes)} (h1 : Chain cfg s L t)
    (h2 : Chain cfg t M u) : Chain cfg s (L ++ M) u := by
  induction h1 with
  | nil => exact h2
  | cons h _ ih => exact Chain.cons h (ih h2)

theorem Linked.nil (cfg : Cfg) (N : List Bytes) (spec : MshSpec) : Linked cfg N spec [] spec :=
  ⟨[], .nil _, rfl, by simp, by simp⟩

theorem Linked.append {cfg : Cfg} {N M : List Bytes} {s1 s2 s3 : MshSpec} {a b : Bytes} (h1 : Linked cfg N s1 a s2)
    (h2 : Linked cfg M s2 b s3) : Linked cfg (N ++ M) s1 (a ++ b) s3 := by
  obtain ⟨L1, c1, e1, n1, k1⟩ := h1
  obtain ⟨L2, c2, e2, n2, k2⟩ := h2
  exact ⟨L1 ++ L2, c1.append c2, by simp [← e1, ← e2], by rw [List.map_append]; exact n1.append n2,
    fun q hq => (List.mem_append.mp hq).elim (k1 q) (k2 q)⟩

theorem Linked.cast {cfg : Cfg} {N : List Bytes} {s1 s2 : MshSpec} {a b : Bytes} (h : Linked cfg N s1 a s2)
    (hb : a = b) : Linked cfg N s1 b s2 := hb ▸ h

theorem Linked.one {cfg : Cfg} {N : List Bytes} {spec spec' : MshSpec} {name body tail : Bytes}
    (hn : ∀ c ∈ name, isSpace c = false) (hb : WsHead (body ++ endTag name)) (ht : Sep tail)
    (h : loadRound cfg spec (gs ((36 :: name) ++ (body ++ endTag name ++ tail))) = .ok (spec', gs tail))
    (hN : (36 :: name) ∈ N) (hk : name ∈ knownSections true := by decide) :
    Linked cfg N spec ((36 :: name) ++ body ++ endTag name ++ tail) spec' := by
  refine ⟨[(name, (36 :: name) ++ body ++ endTag name ++ tail)], Chain.cons ⟨?_, hn, ?_⟩ (.nil _), by simp, by simpa using hN, by simpa using hk⟩
  · exact ⟨body ++ endTag name ++ tail, by simp, wsHead_append hb⟩
  · refine ⟨tail, ht.1, rfl, ?_⟩
    rw [List.append_assoc, List.append_assoc, ← List.append_assoc body]
    exact h

theorem Linked.section {cfg : Cfg} {N : List Bytes} {spec spec' : MshSpec} {name body tail : Bytes}
    (hn : ∀ c ∈ name, isSpace c = false) (hb : WsHead (body ++ endTag name)) (ht : Sep tail)
    (h : Rds (loadSection cfg (36 :: name) spec) body spec') (hN : (36 :: name) ∈ N) (hk : name ∈ knownSections true := by decide) :
    Linked cfg N spec ((36 :: name) ++ body ++ endTag name ++ tail) spec' :=
  .one hn hb ht (loadRound_section (w := []) hn (wsHead_append hb) ht.head Ws.nil h) hN hk

/-- The main loop reads the tokens `ts` section by section, whatever white space separates them. -/
def LinkedT (cfg : Cfg) (spec : MshSpec) (ts : List Bytes) (spec' : MshSpec) : Prop :=
  ∀ ps : List (Bytes × Bytes), ps.map Prod.fst = ts → (∀ q ∈ ps, Sep q.2) → Linked cfg ts spec (flat ps) spec'

theorem LinkedT.nil (cfg : Cfg) (spec : MshSpec) : LinkedT cfg spec [] spec := by
  intro ps hps _
  rw [List.map_eq_nil_iff] at hps; subst hps
  exact Linked.nil _ _ _

theorem LinkedT.append {cfg : Cfg} {s1 s2 s3 : MshSpec} {a b : List Bytes} (h1 : LinkedT cfg s1 a s2)
    (h2 : LinkedT cfg s2 b s3) : LinkedT cfg s1 (a ++ b) s3 := by
  intro ps hps hs
  obtain ⟨p1, p2, rfl, e1, e2⟩ := List.map_eq_append_iff.mp hps
  rw [flat_append]
  exact (h1 p1 e1 fun q hq => hs q (by simp [hq])).append (h2 p2 e2 fun q hq => hs q (by simp [hq]))

theorem LinkedT.section {cfg : Cfg} {spec spec' : MshSpec} {name : Bytes} {ts : List Bytes}
    (hn : ∀ c ∈ name, isSpace c = false)
    (h : ReadsT (loadSection cfg (36 :: name) spec) ts spec') (hk : name ∈ knownSections true := by decide) :
    LinkedT cfg spec ((36 :: name) :: (ts ++ [endTag name])) spec' := by
  intro ps hps hs
  cases ps with
  | nil => simp at hps
  | cons q ps =>
    simp only [List.map_cons, List.cons.injEq] at hps
    obtain ⟨hq, hps⟩ := hps
    obtain ⟨p1, p2, rfl, e1, e2⟩ := List.map_eq_append_iff.mp hps
    obtain ⟨r, rfl, hr⟩ := List.map_eq_singleton_iff.mp e2
    have hq2 := hs q (by simp)
    refine (Linked.section (cfg := cfg) (body := q.2 ++ flat p1) (tail := r.2) hn
      (by rw [List.append_assoc]; exact wsHead_append hq2.head) (hs r (by simp))
      (h.rds p1 e1 (fun q hq => hs q (by simp [hq])) hq2.1) (by simp) hk).cast ?_
    rw [← hr, ← hq]
    simp [flat]

/-- Saving a part of a text file as the tokens `ts` and loading it again. -/
def SLT (cfg : Cfg) (ts : List Bytes) (w : Wr Unit) (spec spec' : MshSpec) : Prop :=
  WritesT w ts ∧ ParsesT cfg spec ts spec' ∧ LinkedT cfg spec ts spec'

theorem SLT.sl {cfg : Cfg} {ts : List Bytes} {w : Wr Unit} {spec spec' : MshSpec} (h : SLT cfg ts w spec spec') :
    SL cfg w spec spec' := by
  obtain ⟨⟨ps, h1, h2, h3⟩, hp, -⟩ := h
  exact ⟨flat ps, h3, hp ps h1 fun q hq => (h2 q hq).2.sep⟩

theorem SLT.bind {cfg : Cfg} {t1 t2 : List Bytes} {w1 w2 : Wr Unit} {s1 s2 s3 : MshSpec} (h1 : SLT cfg t1 w1 s1 s2)
    (h2 : SLT cfg t2 w2 s2 s3) : SLT cfg (t1 ++ t2) (w1 >>= fun _ => w2) s1 s3 :=
  ⟨WritesT.bind h1.1 h2.1, h1.2.1.append h2.2.1, h1.2.2.append h2.2.2⟩

theorem SLT.pure (cfg : Cfg) (s : MshSpec) : SLT cfg [] (pure ()) s s := ⟨WritesT.pure, ParsesT.nil _ _, LinkedT.nil _ _⟩

theorem SLT.cast {cfg : Cfg} {ts : List Bytes} {w : Wr Unit} {s1 s2 s3 : MshSpec} (h : SLT cfg ts w s1 s2) (e : s2 = s3) :
    SLT cfg ts w s1 s3 := e ▸ h

theorem SLT.toks {cfg : Cfg} {ts ts' : List Bytes} {w : Wr Unit} {s1 s2 : MshSpec} (h : SLT cfg ts w s1 s2) (e : ts = ts') :
    SLT cfg ts' w s1 s2 := e ▸ h

theorem SLT.when {cfg : Cfg} {c : Bool} {ts : List Bytes} {w : Wr Unit} {s1 s2 : MshSpec}
    (h1 : c = true → SLT cfg ts w s1 s2)
    (h2 : c = false → s1 = s2) : SLT cfg (if c = true then ts else []) (whenW c w) s1 s2 := by
  unfold whenW
  cases c with
  | true => exact h1 rfl
  | false => exact h2 rfl ▸ SLT.pure _ _

/-- A section written as tokens. -/
theorem SLT.section {cfg : Cfg} {name : Bytes} {w : Wr Unit} {ts : List Bytes} {spec spec' : MshSpec}
    {t e : Bytes} (ht : t = (36 :: name) ++ endl) (he : e = endTag name ++ endl)
    (hn : ∀ c ∈ name, isSpace c = false) (hw : WritesT w ts)
    (h : ReadsT (loadSection cfg (36 :: name) spec) ts spec') (hk : name ∈ knownSections true := by decide) :
    SLT cfg ((36 :: name) :: (ts ++ [endTag name])) (emit t >>= fun _ => w >>= fun _ => emit e) spec spec' := by
  refine ⟨?_, ParsesT.section hn h, LinkedT.section hn h hk⟩
  have t1 : IsTok (36 :: name) := Word.isTok ⟨by simp, fun c hc => by
    rcases List.mem_cons.mp hc with rfl | hc
    · decide
    · exact hn c hc⟩
  have t2 : IsTok (endTag name) := Word.isTok ⟨by simp [endTag], fun c hc => by
    rcases List.mem_append.mp hc with hc | hc
    · clear * - hc; revert c; decide
    · exact hn c hc⟩
  exact WritesT.bind (x := [36 :: name]) (WritesT.emit [(36 :: name, [10])] (by simp [one_nl, t1])
      (by subst ht; simp [flat, endl]))
    (WritesT.bind hw (WritesT.emit [(endTag name, [10])] (by simp [one_nl, t2])
      (by subst he; simp [flat, endl])))

/-! ## Sections of a file -/

/-- Sections, given by name and body, with white space before and after every end tag. -/
def flatS (ps : List ((Bytes × Bytes) × (Bytes × Bytes))) : Bytes :=
  ps.flatMap fun q => (36 :: q.1.1) ++ [10] ++ q.1.2 ++ q.2.1 ++ endTag q.1.1 ++ q.2.2

/-- Sections as they are saved. -/
def tight (secs : List (Bytes × Bytes)) : List ((Bytes × Bytes) × (Bytes × Bytes)) := secs.map fun q => (q, ([], [10]))

theorem flatS_append (a b : List ((Bytes × Bytes) × (Bytes × Bytes))) : flatS (a ++ b) = flatS a ++ flatS b := by
  simp [flatS]

/-- The main loop gets past the sections, whatever white space comes before and after their end tags. -/
def ParsesS (cfg : Cfg) (spec : MshSpec) (secs : List (Bytes × Bytes)) (spec' : MshSpec) : Prop :=
  ∀ ps : List ((Bytes × Bytes) × (Bytes × Bytes)), ps.map Prod.fst = secs →
    (∀ q ∈ ps, Ws q.2.1 ∧ Sep q.2.2) → Parses cfg spec (flatS ps) spec'

theorem ParsesS.nil (cfg : Cfg) (spec : MshSpec) : ParsesS cfg spec [] spec := by
  intro ps hps _
  rw [List.map_eq_nil_iff] at hps; subst hps
  exact Parses.nil _ _

theorem ParsesS.append {cfg : Cfg} {s1 s2 s3 : MshSpec} {a b : List (Bytes × Bytes)} (h1 : ParsesS cfg s1 a s2)
    (h2 : ParsesS cfg s2 b s3) : ParsesS cfg s1 (a ++ b) s3 := by
  intro ps hps hs
  obtain ⟨p1, p2, rfl, e1, e2⟩ := List.map_eq_append_iff.mp hps
  rw [flatS_append]
  exact (h1 p1 e1 fun q hq => hs q (by simp [hq])).append (h2 p2 e2 fun q hq => hs q (by simp [hq]))

/-- White space after what is read. -/
theorem Rds.gap {α : Type} {p : Rd α} {b w : Bytes} {v : α} (h : Rds p b v) (hw : Ws w) : Rds p (b ++ w) v := by
  intro rest hr
  obtain ⟨w', hw', e⟩ := h (w ++ rest) (by simp [hr])
  exact ⟨w' ++ w, Ws.append hw' hw, by rw [List.append_assoc, e, List.append_assoc]⟩

theorem ParsesS.section {cfg : Cfg} {spec spec' : MshSpec} {name b : Bytes}
    (hn : ∀ c ∈ name, isSpace c = false)
    (h : Rds (loadSection cfg (36 :: name) spec) ([10] ++ b) spec') :
    ParsesS cfg spec [(name, b)] spec' := by
  intro ps hps hs
  obtain ⟨⟨q, g, t⟩, rfl, rfl⟩ := List.map_eq_singleton_iff.mp hps
  obtain ⟨hg, ht⟩ := hs _ (List.mem_singleton.mpr rfl)
  refine Parses.cast (Parses.section (tail := t) hn ⟨10, b ++ g ++ endTag name, by simp, by decide⟩ ht
    (h.gap hg)) ?_ rfl
  simp [flatS]

/-- The main loop reads the sections one by one, whatever white space comes before and after their end tags. -/
def LinkedS (cfg : Cfg) (spec : MshSpec) (secs : List (Bytes × Bytes)) (spec' : MshSpec) : Prop :=
  ∀ ps : List ((Bytes × Bytes) × (Bytes × Bytes)), ps.map Prod.fst = secs →
    (∀ q ∈ ps, Ws q.2.1 ∧ Sep q.2.2) → Linked cfg (secs.map fun q => 36 :: q.1) spec (flatS ps) spec'

theorem LinkedS.nil (cfg : Cfg) (spec : MshSpec) : LinkedS cfg spec [] spec := by
  intro ps hps _
  rw [List.map_eq_nil_iff] at hps; subst hps
  exact Linked.nil _ _ _

theorem LinkedS.append {cfg : Cfg} {s1 s2 s3 : MshSpec} {a b : List (Bytes × Bytes)} (h1 : LinkedS cfg s1 a s2)
    (h2 : LinkedS cfg s2 b s3) : LinkedS cfg s1 (a ++ b) s3 := by
  intro ps hps hs
  obtain ⟨p1, p2, rfl, e1, e2⟩ := List.map_eq_append_iff.mp hps
  rw [flatS_append, List.map_append]
  exact (h1 p1 e1 fun q hq => hs q (by simp [hq])).append (h2 p2 e2 fun q hq => hs q (by simp [hq]))

theorem LinkedS.section {cfg : Cfg} {spec spec' : MshSpec} {name b : Bytes}
    (hn : ∀ c ∈ name, isSpace c = false)
    (h : Rds (loadSection cfg (36 :: name) spec) ([10] ++ b) spec') (hk : name ∈ knownSections true := by decide) :
    LinkedS cfg spec [(name, b)] spec' := by
  intro ps hps hs
  obtain ⟨⟨q, g, t⟩, rfl, rfl⟩ := List.map_eq_singleton_iff.mp hps
  obtain ⟨hg, ht⟩ := hs _ (List.mem_singleton.mpr rfl)
  refine Linked.cast (Linked.section (tail := t) hn ⟨10, b ++ g ++ endTag name, by simp, by decide⟩ ht
    (h.gap hg) (by simp) hk) ?_
  simp [flatS]

/-- Saving a part of the file as the sections `secs` and loading it again. -/
def SLS (cfg : Cfg) (secs : List (Bytes × Bytes)) (w : Wr Unit) (spec spec' : MshSpec) : Prop :=
  Writes w (flatS (tight secs)) ∧ ParsesS cfg spec secs spec' ∧ LinkedS cfg spec secs spec'

theorem SLS.sl {cfg : Cfg} {secs : List (Bytes × Bytes)} {w : Wr Unit} {spec spec' : MshSpec} (h : SLS cfg secs w spec spec') :
    SL cfg w spec spec' :=
  ⟨_, h.1, h.2.1 (tight secs) (by simp [tight, Function.comp_def]) fun q hq => by
    obtain ⟨a, -, rfl⟩ := List.mem_map.mp hq
    exact ⟨Ws.nil, one_nl.sep⟩⟩

theorem SLS.bind {cfg : Cfg} {t1 t2 : List (Bytes × Bytes)} {w1 w2 : Wr Unit} {s1 s2 s3 : MshSpec} (h1 : SLS cfg t1 w1 s1 s2)
    (h2 : SLS cfg t2 w2 s2 s3) : SLS cfg (t1 ++ t2) (w1 >>= fun _ => w2) s1 s3 :=
  ⟨(Writes.bind h1.1 h2.1).cast (by simp [tight, flatS_append]), h1.2.1.append h2.2.1, h1.2.2.append h2.2.2⟩

theorem SLS.pure (cfg : Cfg) (s : MshSpec) : SLS cfg [] (pure ()) s s := ⟨Writes.pure, ParsesS.nil _ _, LinkedS.nil _ _⟩

theorem SLS.cast {cfg : Cfg} {secs : List (Bytes × Bytes)} {w : Wr Unit} {s1 s2 s3 : MshSpec} (h : SLS cfg secs w s1 s2)
    (e : s2 = s3) : SLS cfg secs w s1 s3 := e ▸ h

theorem SLS.secs {cfg : Cfg} {secs secs' : List (Bytes × Bytes)} {w : Wr Unit} {s1 s2 : MshSpec} (h : SLS cfg secs w s1 s2)
    (e : secs = secs') : SLS cfg secs' w s1 s2 := e ▸ h

theorem SLS.when {cfg : Cfg} {c : Bool} {secs : List (Bytes × Bytes)} {w : Wr Unit} {s1 s2 : MshSpec}
    (h1 : c = true → SLS cfg secs w s1 s2)
    (h2 : c = false → s1 = s2) : SLS cfg (if c = true then secs else []) (whenW c w) s1 s2 := by
  unfold whenW
  cases c with
  | true => exact h1 rfl
  | false => exact h2 rfl ▸ SLS.pure _ _

theorem SLS.section {cfg : Cfg} {name : Bytes} {w : Wr Unit} {b : Bytes} {spec spec' : MshSpec}
    {t e : Bytes} (ht : t = (36 :: name) ++ endl) (he : e = endTag name ++ endl)
    (hn : ∀ c ∈ name, isSpace c = false) (hw : Writes w b)
    (h : Rds (loadSection cfg (36 :: name) spec) ([10] ++ b) spec') (hk : name ∈ knownSections true := by decide) :
    SLS cfg [(name, b)] (emit t >>= fun _ => w >>= fun _ => emit e) spec spec' := by
  refine ⟨(Writes.bind (Writes.emit _) (Writes.bind hw (Writes.emit _))).cast ?_, ParsesS.section hn h, LinkedS.section hn h hk⟩
  subst ht he
  simp [endl, flatS, tight]

/-- A section of text. -/
theorem SLS.text {cfg : Cfg} {name : Bytes} {w : Wr Unit} {b : Bytes} {ts : List Bytes} {spec spec' : MshSpec}
    {t e : Bytes} (ht : t = (36 :: name) ++ endl) (he : e = endTag name ++ endl)
    (hn : ∀ c ∈ name, isSpace c = false) (hw : WritesT w ts) (hb : Writes w b)
    (h : ReadsT (loadSection cfg (36 :: name) spec) ts spec') (hk : name ∈ knownSections true := by decide) :
    SLS cfg [(name, b)] (emit t >>= fun _ => w >>= fun _ => emit e) spec spec' := by
  obtain ⟨ps, h1, h2, h3⟩ := hw
  have e : b = flat ps := by
    exact congrArg Prod.fst (hb.symm.trans h3)
  subst e
  exact SLS.section ht he hn hb (h.rds ps h1 (fun q hq => (h2 q hq).2.sep) one_nl.sep.1) hk

end MshIO
