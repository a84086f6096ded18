import Verif.Spec.Pieces
import Verif.Proofs.SpellFile
import Verif.Proofs.FormatBytes
import Verif.Proofs.DataHazards
import Verif.Proofs.RejectedSections

/-!
# Reading pieces of binary files
-/

namespace MshIO

theorem Written.split {a b : List Piece} {g g'' : Bool} {r : Bytes} (h : Written g (a ++ b) g'' r) :
    ∃ g' r1 r2, r = r1 ++ r2 ∧ Written g a g' r1 ∧ Written g' b g'' r2 := by
  induction a generalizing g r with
  | nil => exact ⟨g, [], r, rfl, .nil, h⟩
  | cons p a ih =>
    rw [List.cons_append] at h
    cases h with
    | item h1 h2 h3 h4 =>
      obtain ⟨g', r1, r2, rfl, h5, h6⟩ := ih h4
      exact ⟨g', _, r2, by simp, .item h1 h2 h3 h5, h6⟩
    | data h1 h2 =>
      obtain ⟨g', r1, r2, rfl, h5, h6⟩ := ih h2
      exact ⟨g', _, r2, by simp, .data h1 h5, h6⟩
    | marker h1 h2 h3 h4 =>
      obtain ⟨g', r1, r2, rfl, h5, h6⟩ := ih h4
      exact ⟨g', _, r2, by simp, .marker h1 h2 h3 h5, h6⟩

theorem Written.head {ps : List Piece} {g' : Bool} {r rest : Bytes} (h : Written true ps g' r) (hr : g' = true → WsHead rest) : WsHead (r ++ rest) := by
  cases h with
  | nil => exact hr rfl
  | item h1 h2 h3 h4 => simp only [List.append_assoc]; exact wsHead_append (Sep.head ⟨h1, h2 rfl⟩)
  | data h1 h2 => exact ⟨_, _, rfl, h1.space⟩
  | marker h1 h2 h3 h4 => simp only [List.append_assoc]; exact wsHead_append (Sep.head ⟨fun c hc => (h2 c hc).space, h1⟩)

theorem Written.endHead {ps : List Piece} {g' : Bool} {r rest : Bytes} (h : Written true ps g' r) (hr : g' = true → EndHead rest) : EndHead (r ++ rest) := by
  cases h with
  | nil => exact hr rfl
  | item h1 h2 h3 h4 => right; simp only [List.append_assoc]; exact wsHead_append (Sep.head ⟨h1, h2 rfl⟩)
  | data h1 h2 => exact Or.inr ⟨_, _, rfl, h1.space⟩
  | marker h1 h2 h3 h4 => right; simp only [List.append_assoc]; exact wsHead_append (Sep.head ⟨fun c hc => (h2 c hc).space, h1⟩)

/-- Items only. -/
theorem Written.items {is : List Item} {i : Item} {g g' : Bool} {r : Bytes} (h : Written g ((is ++ [i]).map .item) g' r) :
    g' = true ∧ ∃ w ps t, r = w ++ flat ps ++ t ∧ Ws w ∧ (g = true → w ≠ []) ∧ (∀ q ∈ ps, Sep q.2) ∧
      List.Forall₂ Item.Spelled (is ++ [i]) (ps.map Prod.fst ++ [t]) := by
  induction is generalizing g r with
  | nil =>
    cases h with
    | item h1 h2 h3 h4 =>
      cases h4 with
      | nil => exact ⟨rfl, _, [], _, by simp [flat], h1, h2, by simp, .cons h3 .nil⟩
  | cons j is ih =>
    cases h with
    | @item _ _ _ _ w0 t0 _ h1 h2 h3 h4 =>
      obtain ⟨rfl, w, ps, t, rfl, hw, hg, hs, hi⟩ := ih h4
      refine ⟨rfl, w0, (t0, w) :: ps, t, by simp [flat], h1, h2, ?_, .cons h3 hi⟩
      intro q hq
      rcases List.mem_cons.mp hq with rfl | hq
      · exact ⟨hw, hg rfl⟩
      · exact hs q hq

/-! ## Reading pieces -/

/-- Reading a sequence of pieces. -/
def ReadsP {α : Type} (p : Rd α) (pcs : List Piece) (v : α) : Prop :=
  ∀ g g' r rest, Written g pcs g' r → (g' = true → WsHead rest) → rest ≠ [] → p (gs (r ++ rest)) = .ok (v, gs rest)

section comb
variable {α β : Type}

theorem ReadsP.pure (a : α) : ReadsP (Pure.pure a : Rd α) [] a := by
  intro g g' r rest h _ _
  cases h
  rfl

theorem ReadsP.bind {p : Rd α} {f : α → Rd β} {t1 t2 : List Piece} {a : α} {b : β} (h1 : ReadsP p t1 a) (h2 : ReadsP (f a) t2 b) :
    ReadsP (p >>= f) (t1 ++ t2) b := by
  intro g g'' r rest h hr hne
  obtain ⟨g', r1, r2, rfl, e1, e2⟩ := h.split
  rw [List.append_assoc, Rd.bind_ok (h1 g g' r1 (r2 ++ rest) e1 (fun hg => (hg ▸ e2).head hr) (by simp [hne]))]
  exact h2 g' g'' r2 rest e2 hr hne

theorem ReadsP.silent {p : Rd α} {f : α → Rd β} {ts : List Piece} {a : α} {b : β} (h1 : Silent p a) (h2 : ReadsP (f a) ts b) : ReadsP (p >>= f) ts b := by
  intro g g' r rest h hr hne
  rw [Rd.bind_ok (h1 _)]
  exact h2 g g' r rest h hr hne

theorem ReadsP.cast {p : Rd α} {t t' : List Piece} {a a' : α} (h : ReadsP p t a) (ht : t = t') (ha : a = a') : ReadsP p t' a' := by subst ht ha; exact h

theorem ReadsP.last {p : Rd α} {f : α → Rd β} {t : List Piece} {a : α} {b : β} (h1 : ReadsP p t a) (h2 : ReadsP (f a) [] b) : ReadsP (p >>= f) t b :=
  (ReadsP.bind h1 h2).cast (List.append_nil _) rfl

theorem ReadsP.map {p : Rd α} {f : α → β} {t : List Piece} {a : α} {b : β} (h : ReadsP p t a) (e : f a = b) : ReadsP (p >>= fun x => Pure.pure (f x)) t b :=
  h.last ((ReadsP.pure _).cast rfl e)

/-- Text. -/
theorem ReadsI.readsP {p : Rd α} {is : List Item} {v : α} (h : ReadsI p is v) : ReadsP p (is.map .item) v := by
  intro g g' r rest hw hr hne
  rcases List.eq_nil_or_concat is with rfl | ⟨is, i, rfl⟩
  · cases hw
    have := h [] .nil [] rfl (by simp) [] rest Ws.nil
    simpa [flat, lastSep] using this
  · rw [List.concat_eq_append] at hw h
    obtain ⟨rfl, w, ps, t, rfl, h1, -, h3, h4⟩ := hw.items
    obtain ⟨c, rest, rfl, hc⟩ := hr rfl
    have := h _ h4 (ps ++ [(t, [c])]) (by simp) (by
      intro q hq
      rcases List.mem_append.mp hq with hq | hq
      · exact h3 q hq
      · rw [List.mem_singleton] at hq
        subst hq
        exact ⟨fun d hd => by rw [List.mem_singleton] at hd; rw [hd]; exact hc, by simp⟩) w rest h1
    rw [lastSep_append] at this
    simpa [flat, lastSep] using this

/-- Data. -/
theorem ReadsB.readsP {p : Rd α} {bs : Bytes} {v : α} (h : ReadsB p bs v) : ReadsP (eatWhiteSpace 1 >>= fun _ => p) [.data bs] v := by
  intro g g' r rest hw hr hne
  cases hw with
  | data h1 h2 =>
    cases h2
    rw [List.append_nil, List.append_assoc, Rd.bind_ok (eat_one ⟨_, rfl, h1.eat⟩ (by simp [hne])), h]

theorem ReadsP.forEach {p : α → Rd α} {d : α} {pcs : α → List Piece} (v : List α) (h : ∀ a ∈ v, ReadsP (p d) (pcs a) a) :
    ReadsP (MshIO.forEach p (List.replicate v.length d)) (v.flatMap pcs) v := by
  induction v with
  | nil => exact ReadsP.pure _
  | cons a v ih =>
    simp only [List.length_cons, List.replicate_succ, List.flatMap_cons, MshIO.forEach]
    exact ReadsP.bind (h a (by simp)) (ReadsP.map (ih fun b hb => h b (by simp [hb])) rfl)

end comb

/-! ## Sections -/

/-- One round of the main loop over pieces, the last one at the end of the file or in front of white space. -/
def RoundP (cfg : Cfg) (s : MshSpec) (pcs : List Piece) (s' : MshSpec) : Prop :=
  ∀ g r rest, Written g pcs true r → EndHead rest → loadRound cfg s (gs (r ++ rest)) = .ok (s', ⟨rest, rest.isEmpty, false⟩)

theorem RoundI.roundP {cfg : Cfg} {s s' : MshSpec} {is : List Item} (hne : is ≠ []) (h : RoundI cfg s is s') : RoundP cfg s (is.map .item) s' := by
  intro g r rest hw hr
  rcases List.eq_nil_or_concat is with rfl | ⟨is, i, rfl⟩
  · exact absurd rfl hne
  · rw [List.concat_eq_append] at hw h
    obtain ⟨-, w, ps, t, rfl, h1, -, h3, h4⟩ := hw.items
    exact h ps t w rest h4 h3 h1 hr

theorem RoundP.section' {cfg : Cfg} {s s' : MshSpec} {name : Bytes} {body : List Piece} (hn : ∀ c ∈ name, isSpace c = false)
    (h : ∀ g' r rest, Written true body g' r → (g' = true → WsHead rest) → rest ≠ [] →
      ∃ w, Ws w ∧ loadSection cfg (36 :: name) s (gs (r ++ rest)) = .ok (s', gs (w ++ rest))) :
    RoundP cfg s (.item (.word (36 :: name)) :: (body ++ [.item (.word (endTag name))])) s' := by
  intro g r rest hw hr
  cases hw with
  | @item _ _ _ _ w0 t0 _ h1 h2 h3 h4 =>
    obtain rfl := spelled_word h3
    obtain ⟨g', r1, r2, rfl, e1, e2⟩ := h4.split
    have hh : WsHead (r1 ++ (r2 ++ rest)) := by
      refine e1.head fun hg => ?_
      subst hg
      cases e2 with
      | item h1 h2 _ _ => simp only [List.append_assoc]; exact wsHead_append (Sep.head ⟨h1, h2 rfl⟩)
    have hh2 : g' = true → WsHead (r2 ++ rest) := by
      intro hg
      subst hg
      cases e2 with
      | item h1 h2 _ _ => simp only [List.append_assoc]; exact wsHead_append (Sep.head ⟨h1, h2 rfl⟩)
    cases e2 with
    | @item _ _ _ _ w1 t1 _ k1 k2 k3 k4 =>
      obtain rfl := spelled_word k3
      cases k4
      rw [List.append_nil] at hh hh2 ⊢
      have e : w0 ++ (36 :: name) ++ (r1 ++ (w1 ++ endTag name)) ++ rest = w0 ++ (36 :: name) ++ (r1 ++ (w1 ++ endTag name ++ rest)) := by simp
      rw [e]
      unfold loadRound
      rw [Rd.bind_ok (inString_tok [] _ (tag_word hn) w0 _ h1 hh)]
      simp only
      obtain ⟨w, hw, hl⟩ := h g' r1 (w1 ++ endTag name ++ rest) e1 hh2 (by simp [endTag])
      rw [Rd.bind_ok hl, endMarker_tag, forwardTo_eq]
      have := fwd_skip (endTag_word hn) [] [] (w ++ w1) (by simp [endTag]) (Ws.append hw k1) (by simp) rest hr
      rw [flat, List.flatMap_nil, List.append_nil, List.append_assoc, List.append_assoc] at this
      rw [← List.append_assoc] at this
      rw [← List.append_assoc, ← List.append_assoc]
      rw [← List.append_assoc] at this
      rw [Rd.bind_ok this]
      rfl

theorem RoundP.section {cfg : Cfg} {s s' : MshSpec} {name : Bytes} {body : List Piece} (hn : ∀ c ∈ name, isSpace c = false)
    (h : ReadsP (loadSection cfg (36 :: name) s) body s') :
    RoundP cfg s (.item (.word (36 :: name)) :: (body ++ [.item (.word (endTag name))])) s' :=
  RoundP.section' hn fun g' r rest h1 h2 h3 => ⟨[], Ws.nil, h true g' r rest h1 h2 h3⟩

/-- A section that is one piece of data. -/
theorem RoundP.data {cfg : Cfg} {s s' : MshSpec} {name d : Bytes} (hn : ∀ c ∈ name, isSpace c = false)
    (h : ∀ w, One w → Rds (loadSection cfg (36 :: name) s) (w ++ d) s') :
    RoundP cfg s (.item (.word (36 :: name)) :: ([.data d] ++ [.item (.word (endTag name))])) s' :=
  RoundP.section' hn fun g' r rest h1 _ h3 => by
    cases h1 with
    | @data _ _ c _ _ _ h1 h2 =>
      cases h2
      obtain ⟨w, hw, e⟩ := h [c] ⟨c, rfl, h1.eat⟩ rest h3
      exact ⟨w, hw, by simpa using e⟩

end MshIO
