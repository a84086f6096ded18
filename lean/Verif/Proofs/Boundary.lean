import Verif.Spec.Execution
import Verif.Proofs.Section
import Verif.Proofs.Sim

/-!
# Running the main loop up to a section boundary and beyond
-/

namespace MshIO

/-- A round that stays clear of the end of the text runs the same when more text follows. -/
theorem loadRound_ext {cfg : Cfg} {spec v : MshSpec} {a a' : Bytes}
    (h : loadRound cfg spec (gs a) = .ok (v, gs a')) (b : Bytes) :
    loadRound cfg spec (gs (a ++ b)) = .ok (v, gs (a' ++ b)) := by
  rcases loadRound_trunc cfg spec a b false with h' | ⟨h', _⟩ | ⟨v', a'', f', e1, e2⟩
  · change AtEof (loadRound cfg spec (gs a)) at h'
    rw [h] at h'; cases h'
  · change loadRound cfg spec (gs a) = _ at h'
    rw [h] at h'; cases h'
  · change loadRound cfg spec (gs a) = _ at e1
    rw [h] at e1; cases e1; exact e2

theorem arrives_ext {cfg : Cfg} {spec : MshSpec} {a : Bytes} {y : MshSpec × Stream}
    (h : Relation.ReflTransGen (MainIter cfg) (spec, gs a) y) : ∀ spec' a', y = (spec', gs a') → ∀ b,
    Relation.ReflTransGen (MainIter cfg) (spec, gs (a ++ b)) (spec', gs (a' ++ b)) := by
  induction h with
  | refl =>
    intro spec' a' e b
    cases e; exact .refl
  | @tail x y hx hxy ih =>
    intro spec' a' e b
    subst e
    obtain ⟨sp, ⟨r, e, f⟩⟩ := x
    obtain ⟨he, hr⟩ := hxy
    have he' : e = false := he
    subst he'
    cases f with
    | true =>
      rw [loadRound_stuck (by rfl)] at hr
      cases hr
    | false => exact .tail (ih sp r rfl b) ⟨rfl, loadRound_ext hr b⟩

theorem inString_ws (o : Bytes) {w : Bytes} (hw : Ws w) (b : Bytes) :
    inString o (gs (w ++ b)) = inString o (gs b) := by
  unfold inString
  have : sentry (gs (w ++ b)) = sentry (gs b) := by
    simp [sentry, Stream.good, dropWhile_ws hw]
  rw [this]

theorem loadRound_ws (cfg : Cfg) (spec : MshSpec) {w : Bytes} (hw : Ws w) (b : Bytes) :
    loadRound cfg spec (gs (w ++ b)) = loadRound cfg spec (gs b) := by
  unfold loadRound
  rw [Rd.bind_def, Rd.bind_def, inString_ws _ hw]

theorem loadFull_wsPrefix (cfg : Cfg) (spec : MshSpec) {w : Bytes} (hw : Ws w) (b : Bytes) :
    loadFull cfg spec (gs (w ++ b)) = loadFull cfg spec (gs b) := by
  rw [loadFull_round rfl, loadFull_round rfl, Rd.bind_def, Rd.bind_def, loadRound_ws _ _ hw]

/-- What `load_msh` does after the main loop. -/
def finish (cfg : Cfg) : Outcome (MshSpec × Stream) → Outcome MshSpec
  | .ok (spec, _) => loadPostProcess cfg spec
  | .throw e => .throw e
  | .abort => .abort
  | .ub => .ub
  | .hang => .hang

theorem loadFull_ext {cfg : Cfg} {a : Bytes} {spec : MshSpec} (h : Boundary cfg a spec) (b : Bytes) :
    loadFull cfg {} (gs (a ++ b)) = loadFull cfg spec (gs b) := by
  obtain ⟨w, hw, h⟩ := h
  have h2 := arrives_ext (cfg := cfg) (spec := {}) (a := a) h spec w rfl b
  have h3 : ∀ {x y : MshSpec × Stream}, Relation.ReflTransGen (MainIter cfg) x y →
      loadFull cfg x.1 x.2 = loadFull cfg y.1 y.2 := by
    intro x y h
    induction h with
    | refl => rfl
    | tail _ h ih => rw [ih, loadFull_round_ok h.1 h.2]
  exact (h3 h2).trans (loadFull_wsPrefix _ _ hw _)

theorem loadMsh_ext {cfg : Cfg} {a : Bytes} {spec : MshSpec} (h : Boundary cfg a spec) (b : Bytes) :
    loadMsh cfg (a ++ b) = finish cfg (loadFull cfg spec (gs b)) := by
  unfold loadMsh
  rw [loadStream_eq]
  show (match loadFull cfg {} (gs (a ++ b)) with
      | .ok (spec, _) => loadPostProcess cfg spec
      | .throw e => .throw e
      | .abort => .abort
      | .ub => .ub
      | .hang => .hang) = _
  rw [loadFull_ext h]
  rfl

/-- `b` is empty or starts with white space. -/
def EndHead (b : Bytes) : Prop := b = [] ∨ WsHead b

theorem span_all {t : Bytes} (ht : ∀ c ∈ t, isSpace c = false) :
    t.takeWhile (fun c => !isSpace c) = t ∧ t.dropWhile (fun c => !isSpace c) = [] := by
  induction t with
  | nil => exact ⟨rfl, rfl⟩
  | cons c t ih =>
    obtain ⟨h1, h2⟩ := ih fun d hd => ht d (by simp [hd])
    simp [ht c (by simp), h1, h2]

/-- Reading a word at the end of the text or before white space. -/
theorem inString_end (o : Bytes) {t b : Bytes} (ht : Word t) (hb : EndHead b) {w : Bytes} (hw : Ws w) :
    inString o (gs (w ++ t ++ b)) = .ok (t, ⟨b, b.isEmpty, false⟩) := by
  rcases hb with rfl | hb
  · obtain ⟨hne, ht⟩ := ht
    cases t with
    | nil => exact absurd rfl hne
    | cons c r =>
      obtain ⟨h1, h2⟩ := span_all ht
      have hs : sentry (gs (w ++ c :: r ++ [])) = (true, gs (c :: r)) := by
        rw [List.append_nil]; exact sentry_gs hw (ht c List.mem_cons_self)
      unfold inString
      rw [hs]
      simp only [h1, h2]
  · rw [inString_tok o t ht w b hw hb]
    obtain ⟨c, r, rfl, _⟩ := hb
    rfl

/-- Skipping words that are not the end marker. -/
theorem fwd_skip {flag : Bytes} (hf : Word flag) (ps : List (Bytes × Bytes)) :
    ∀ (buf w : Bytes), buf ≠ flag → Ws w → (∀ q ∈ ps, Word q.1 ∧ q.1 ≠ flag ∧ Sep q.2) →
    ∀ rest, EndHead rest →
    fwd flag buf (gs (w ++ flat ps ++ flag ++ rest)) = .ok ((), ⟨rest, rest.isEmpty, false⟩) := by
  induction ps with
  | nil =>
    intro buf w hb hw _ rest hr
    rw [fwd_step, if_neg (by simpa using hb)]
    have := inString_end buf hf hr hw
    simp only [flat, List.flatMap_nil, List.append_nil]
    rw [Rd.bind_ok this, fwd_step, if_pos (by simp)]
  | cons q ps ih =>
    intro buf w hb hw hq rest hr
    obtain ⟨h1, h2, h3⟩ := hq q (by simp)
    rw [fwd_step, if_neg (by simpa using hb)]
    have e : w ++ flat (q :: ps) ++ flag ++ rest = w ++ q.1 ++ (q.2 ++ flat ps ++ flag ++ rest) := by
      simp [flat]
    rw [e, Rd.bind_ok (inString_tok buf q.1 h1 w _ hw (by
      have := wsHead_append (b := flat ps ++ flag ++ rest) h3.head
      simpa using this))]
    exact ih q.1 q.2 h2 h3.1 (fun q hq' => hq q (by simp [hq'])) rest hr

/-- One round over a section whose reader does nothing. -/
theorem loadRound_skip {cfg : Cfg} {spec : MshSpec} {name : Bytes} (hn : ∀ c ∈ name, isSpace c = false)
    (hk : loadSection cfg (36 :: name) spec = pure spec) {w : Bytes} (hw : Sep w)
    {ps : List (Bytes × Bytes)} (hps : ∀ q ∈ ps, Word q.1 ∧ q.1 ≠ endTag name ∧ Sep q.2)
    {rest : Bytes} (hr : EndHead rest) :
    loadRound cfg spec (gs ((36 :: name) ++ (w ++ flat ps ++ endTag name ++ rest))) =
      .ok (spec, ⟨rest, rest.isEmpty, false⟩) := by
  unfold loadRound
  have := inString_tok [] _ (tag_word hn) [] (w ++ flat ps ++ endTag name ++ rest) Ws.nil (by
    have := wsHead_append (b := flat ps ++ endTag name ++ rest) hw.head
    simpa using this)
  rw [List.nil_append] at this
  rw [Rd.bind_ok this]
  simp only
  rw [hk, Rd.bind_def]
  show ((forwardTo (endMarker (36 :: name))) >>= fun _ => pure spec) _ = _
  rw [endMarker_tag, forwardTo_eq, Rd.bind_ok (fwd_skip (endTag_word hn) ps [] w (by simp [endTag]) hw.1 hps rest hr)]
  rfl

/-- The main loop after a section that was skipped. -/
theorem loadFull_rest {cfg : Cfg} {spec : MshSpec} (rest : Bytes) :
    finish cfg (loadFull cfg spec ⟨rest, rest.isEmpty, false⟩) = finish cfg (loadFull cfg spec (gs rest)) := by
  cases rest with
  | nil =>
    have := loadFull_ws (cfg := cfg) (spec := spec) Ws.nil
    rw [this, loadFull_eof rfl]
    rfl
  | cons c r => rfl

theorem loadSection_unknown (cfg : Cfg) {name : Bytes} (h : name ∉ knownSections cfg.nanospline)
    (spec : MshSpec) : loadSection cfg (36 :: name) spec = pure spec := by
  unfold knownSections at h
  simp only [List.mem_append, List.mem_cons, List.not_mem_nil, or_false, not_or] at h
  obtain ⟨⟨h1, h2, h3, h4, h5, h6, h7, h8, h9⟩, h10⟩ := h
  unfold loadSection
  rw [if_neg (by simpa using h1), if_neg (by simpa using h3), if_neg (by simpa using h2),
    if_neg (by simpa using h4), if_neg (by simpa using h5), if_neg (by simpa using h6),
    if_neg (by simpa using h7), if_neg (by simpa using h8), if_neg (by simpa using h9)]
  split
  · rename_i hc
    cases hx : cfg.nanospline with
    | true => rw [hx] at h10; simp at h10 hc; exact absurd hc h10.1
    | false => simp only [loadCurves, hx]; rfl
  · split
    · rename_i hc
      cases hx : cfg.nanospline with
      | true => rw [hx] at h10; simp at h10 hc; exact absurd hc h10.2
      | false => simp only [loadPatches, hx]; rfl
    · rfl

/-- Skipping words between sections. -/
theorem loadFull_words {cfg : Cfg} {spec : MshSpec} (ps : List (Bytes × Bytes)) : ∀ (w b : Bytes), Ws w →
    (∀ q ∈ ps, Word q.1 ∧ q.1.head? ≠ some 36 ∧ Sep q.2) →
    loadFull cfg spec (gs (w ++ flat ps ++ b)) = loadFull cfg spec (gs b) := by
  induction ps with
  | nil => intro w b hw _; simpa [flat] using loadFull_wsPrefix cfg spec hw b
  | cons q ps ih =>
    intro w b hw hq
    obtain ⟨h1, h2, h3⟩ := hq q (by simp)
    have e : w ++ flat (q :: ps) ++ b = w ++ q.1 ++ (q.2 ++ flat ps ++ b) := by simp [flat]
    have hr : loadRound cfg spec (gs (w ++ q.1 ++ (q.2 ++ flat ps ++ b))) = .ok (spec, gs (q.2 ++ flat ps ++ b)) := by
      unfold loadRound
      rw [Rd.bind_ok (inString_tok [] q.1 h1 w _ hw (by
        have := wsHead_append (b := flat ps ++ b) h3.head
        simpa using this))]
      generalize q.1 = t at h2
      split
      · exact absurd rfl h2
      · rfl
    rw [e, loadFull_round_ok rfl hr]
    exact ih q.2 b h3.1 fun q hq' => hq q (by simp [hq'])

end MshIO
