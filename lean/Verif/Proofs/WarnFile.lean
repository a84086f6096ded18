import Verif.Proofs.Warn
import Verif.Proofs.Frame
import Verif.Proofs.Pieces22
import Verif.Proofs.Spell22
import Verif.Proofs.Safe22

/-!
# Lemmas about the warnings a whole file causes
-/

namespace MshIO

theorem lineAt_word {w t b : Bytes} (ht : Word t) (hb : EndHead b) (hw : Ws w) : lineAt (gs (w ++ t ++ b)) = lines (unknownName t) := by
  unfold lineAt
  rw [inString_end [] ht hb hw]

theorem lineAt_ws {w : Bytes} (hw : Ws w) (b : Bytes) : lineAt (gs (w ++ b)) = lineAt (gs b) := by
  unfold lineAt
  rw [inString_ws [] hw]

theorem said_ws {cfg : Cfg} {spec : MshSpec} {w : Bytes} (hw : Ws w) (b : Bytes) : said cfg spec (gs (w ++ b)) = said cfg spec (gs b) := by
  have h1 := loadRound_ws cfg spec hw b
  cases h : loadRound cfg spec (gs b) with
  | ok q =>
    obtain ⟨sp, s'⟩ := q
    rw [said_round rfl h, said_round rfl (h1.trans h), lineAt_ws hw]
  | _ =>
    have n : ∀ y, loadRound cfg spec (gs b) ≠ .ok y := fun y h' => by
      have := h.symm.trans h'
      cases this
    rw [said_last rfl fun y h' => n y (h1.symm.trans h'), said_last rfl n, lineAt_ws hw]

theorem said_blank {cfg : Cfg} {spec : MshSpec} {w : Bytes} (hw : Ws w) : said cfg spec (gs w) = [] := by
  have h := said_ws (cfg := cfg) (spec := spec) hw []
  rw [List.append_nil] at h
  rw [h]
  have hs : inString [] (gs []) = .ok ([], ⟨[], true, true⟩) := by
    simp [inString, sentry, Stream.good]
  have hr : loadRound cfg spec (gs []) = .ok (spec, ⟨[], true, true⟩) := by
    unfold loadRound
    rw [Rd.bind_ok hs]; rfl
  rw [said_round rfl hr, said_eof rfl]
  unfold lineAt
  rw [hs]
  rfl

theorem said_rest {cfg : Cfg} {spec : MshSpec} (rest : Bytes) : said cfg spec ⟨rest, rest.isEmpty, false⟩ = said cfg spec (gs rest) := by
  cases rest with
  | nil => rw [said_blank Ws.nil, said_eof rfl]
  | cons c r => rfl

theorem lineAt_ext {cfg : Cfg} {spec v : MshSpec} {a a' : Bytes} (h : loadRound cfg spec (gs a) = .ok (v, gs a')) (b : Bytes) :
    lineAt (gs (a ++ b)) = lineAt (gs a) := by
  rcases (tsim_inString []).sim.all a b false with h' | ⟨t, r, f, e1, e2⟩
  · exfalso
    unfold loadRound at h
    obtain ⟨buf, s1, h1, h⟩ := Rd.bind_eq_ok h
    change AtEof (inString [] (gs a)) at h'
    rw [h1] at h'
    change s1.eof = true at h'
    have key : Step s1 (gs a') := by
      split at h
      · obtain ⟨sp, s2, h2, h⟩ := Rd.bind_eq_ok h
        have t2 := ((tame_loadSection cfg _ spec).all s1).2 _ _ h2
        obtain ⟨_, s3, h3, h⟩ := Rd.bind_eq_ok h
        simp only [Rd.pure_def, Outcome.ok.injEq, Prod.mk.injEq] at h
        rw [← h.2]
        rcases fwd_cases (endMarker _) [] s2 with h' | ⟨s4, h', hs⟩
        · rw [forwardTo_eq, h'] at h3; cases h3
        · rw [forwardTo_eq, h'] at h3
          simp only [Outcome.ok.injEq, Prod.mk.injEq] at h3
          rw [← h3.2]
          exact t2.trans hs
      · simp only [Rd.pure_def, Outcome.ok.injEq, Prod.mk.injEq] at h
        rw [← h.2]; exact Step.refl _
    have := key.eof h'
    cases this
  · unfold lineAt
    rw [show inString [] (gs a) = _ from e1, show inString [] (gs (a ++ b)) = _ from e2]

theorem arrives_said {cfg : Cfg} {spec : MshSpec} {a : Bytes} {y : MshSpec × Stream} (h : Relation.ReflTransGen (MainIter cfg) (spec, gs a) y) :
    ∀ spec' a', y = (spec', gs a') → ∃ x, ∀ b, said cfg spec (gs (a ++ b)) = x ++ said cfg spec' (gs (a' ++ b)) := by
  induction h with
  | refl =>
    intro spec' a' e
    cases e; exact ⟨[], fun _ => rfl⟩
  | @tail x y hx hxy ih =>
    intro spec' a' e
    subst e
    obtain ⟨sp, ⟨r, e, f⟩⟩ := x
    obtain ⟨he, hr⟩ := hxy
    have he' : e = false := he
    subst he'
    cases f with
    | true =>
      rw [loadRound_stuck (by rfl)] at hr
      cases hr
    | false =>
      obtain ⟨x, hx⟩ := ih sp r rfl
      refine ⟨x ++ lineAt (gs r), fun b => ?_⟩
      rw [hx b, said_round rfl (loadRound_ext hr b), lineAt_ext hr b, List.append_assoc]

/-- The warnings after a boundary follow those before it. -/
theorem warnings_ext {cfg : Cfg} {a : Bytes} {spec : MshSpec} (h : Boundary cfg a spec) (b : Bytes) :
    warnings cfg (a ++ b) = warnings cfg a ++ said cfg spec (gs b) := by
  obtain ⟨w, hw, h⟩ := h
  obtain ⟨x, hx⟩ := arrives_said (cfg := cfg) (spec := {}) (a := a) h spec w rfl
  have h0 := hx []
  rw [List.append_nil, List.append_nil, said_blank hw, List.append_nil] at h0
  rw [warnings_said, warnings_said, hx b, h0, said_ws hw]

/-! ## Sections that are known -/

theorem said_chain {cfg : Cfg} {s t : MshSpec} {L : List (Bytes × Bytes)} (h : Chain cfg s L t) (hk : ∀ q ∈ L, q.1 ∈ knownSections true) (b : Bytes) :
    said cfg s (gs ((L.map Prod.snd).flatten ++ b)) = said cfg t (gs b) := by
  induction h with
  | nil s => rfl
  | @cons s t u name A L hA h ih =>
    rw [List.map_cons, List.flatten_cons, List.append_assoc]
    obtain ⟨w, hw, -, hm⟩ := hA.round
    obtain ⟨r, rfl, c, r', rfl, hc⟩ := hA.start
    have hl : lineAt (gs ((36 :: name ++ c :: r') ++ ((L.map Prod.snd).flatten ++ b))) = [] := by
      have := lineAt_word (w := []) (t := 36 :: name) (b := c :: (r' ++ ((L.map Prod.snd).flatten ++ b))) (tag_word hA.word) (Or.inr ⟨_, _, rfl, hc⟩) Ws.nil
      rw [List.nil_append] at this
      rw [List.append_assoc]
      refine this.trans ?_
      unfold unknownName
      have : name ∈ knownSections true := hk (name, 36 :: name ++ c :: r') (by simp)
      simp only [if_pos this]
      rfl
    rw [said_round rfl (loadRound_ext hm _), hl, List.nil_append, said_ws hw]
    exact ih fun q hq => hk q (by simp [hq])

/-- Files of known sections cause no warnings. -/
theorem Linked.quiet {cfg : Cfg} {N : List Bytes} {b : Bytes} {u : MshSpec} (h : Linked cfg N {} b u) : warnings cfg b = [] := by
  obtain ⟨L, hc, rfl, -, hk⟩ := h
  have := said_chain hc hk []
  rw [List.append_nil, said_blank Ws.nil] at this
  rw [warnings_said, this]

theorem SLT.quiet {cfg : Cfg} {ts : List Bytes} {w : Wr Unit} {u : MshSpec} (h : SLT cfg ts w {} u) {file : Bytes} {o : Outcome Unit} (hw : w = (file, o)) :
    warnings cfg file = [] := by
  obtain ⟨⟨ps, h1, h2, h3⟩, -, hl⟩ := h
  have e : file = flat ps := congrArg Prod.fst (hw.symm.trans h3)
  subst e
  exact (hl ps h1 fun q hq => (h2 q hq).2.sep).quiet

theorem SLS.quiet {cfg : Cfg} {secs : List (Bytes × Bytes)} {w : Wr Unit} {u : MshSpec} (h : SLS cfg secs w {} u) {file : Bytes} {o : Outcome Unit}
    (hw : w = (file, o)) : warnings cfg file = [] := by
  obtain ⟨h1, -, h3⟩ := h
  have e : file = flatS (tight secs) := congrArg Prod.fst (hw.symm.trans h1)
  subst e
  refine (h3 (tight secs) (by simp [tight, Function.comp_def]) fun q hq => ?_).quiet
  obtain ⟨a, -, rfl⟩ := List.mem_map.mp hq
  exact ⟨Ws.nil, one_nl.sep⟩

/-! ## Files by any program -/

/-- The word a part starts with. -/
def Item.First (h : Bytes) (is : List Item) : Prop := ∃ r, is = .word h :: r

theorem RoundsI.said {cfg : Cfg} {s s' : MshSpec} {iss : List (List Item)} (h : RoundsI cfg s iss s') : ∀ {w : Bytes} {ps : List (Bytes × Bytes)} {heads : List Bytes},
    List.Forall₂ Item.First heads iss → (∀ t ∈ heads, Word t) →
    Ws w → (∀ q ∈ ps, Ws q.2) → (∀ q ∈ ps.dropLast, q.2 ≠ []) → List.Forall₂ Item.Spelled iss.flatten (ps.map Prod.fst) →
    said cfg s (gs (w ++ flat ps)) = lines (heads.flatMap unknownName) := by
  induction h with
  | nil =>
    intro w ps heads hh _ hw _ _ hi
    cases hh
    have : ps = [] := by
      cases ps with
      | nil => rfl
      | cons q ps => cases hi
    subst this
    rw [flat, List.flatMap_nil, List.append_nil, said_blank hw]
    rfl
  | @cons s s1 s2 is i iss h1 _ ih =>
    intro w ps heads hh hword hw hws hsep hi
    cases hh with
    | @cons hd _ hds _ hfirst hh =>
    obtain ⟨rs, hfirst⟩ := hfirst
    rw [List.flatten_cons] at hi
    have hlen := hi.length_eq
    rw [List.length_append, List.length_map] at hlen
    set n := (is ++ [i]).length with hn
    have hn1 : n = is.length + 1 := by rw [hn]; simp
    have e1 := List.forall₂_take n hi
    have e2 := List.forall₂_drop n hi
    rw [hn, List.take_left, ← List.map_take, ← hn] at e1
    rw [hn, List.drop_left, ← List.map_drop, ← hn] at e2
    obtain ⟨as, q, has⟩ : ∃ as q, ps.take n = as ++ [q] := by
      have : ps.take n ≠ [] := by
        intro h
        have := congrArg List.length h
        rw [List.length_take] at this
        simp only [List.length_nil] at this
        omega
      exact ⟨_, _, (List.dropLast_append_getLast this).symm⟩
    set bs := ps.drop n with hbs
    have hps : ps = as ++ q :: bs := by
      rw [← List.take_append_drop n ps, has, ← hbs]; simp
    clear_value bs
    subst hps
    rw [has, List.map_append] at e1
    have hasep : ∀ x ∈ as, Sep x.2 := by
      intro x hx
      refine ⟨hws x (by simp [hx]), hsep x ?_⟩
      rw [List.dropLast_append_of_ne_nil (by simp)]
      exact List.mem_append_left _ hx
    have hend : EndHead (q.2 ++ flat bs) := by
      by_cases hq : q.2 = []
      · cases bs with
        | nil => left; simp [hq, flat]
        | cons b bs =>
          exfalso
          refine hsep q ?_ hq
          rw [List.dropLast_append_of_ne_nil (by simp)]
          exact List.mem_append_right _ (by simp)
      · right
        exact wsHead_append (Sep.head ⟨hws q (by simp), hq⟩)
    have hr := h1 as q.1 w (q.2 ++ flat bs) (by simpa using e1) hasep hw hend
    have e : w ++ flat (as ++ q :: bs) = w ++ flat as ++ q.1 ++ (q.2 ++ flat bs) := by simp [flat]
    have hl : lineAt (gs (w ++ flat as ++ q.1 ++ (q.2 ++ flat bs))) = lines (unknownName hd) := by
      rw [hfirst] at e1
      cases as with
      | nil =>
        simp only [List.map_nil, List.nil_append, List.map_cons] at e1
        cases e1 with
        | cons h _ =>
          cases h
          have := lineAt_word (w := w) (hword q.1 (by simp)) hend hw
          simpa [flat] using this
      | cons a as =>
        simp only [List.map_cons, List.cons_append] at e1
        cases e1 with
        | cons h _ =>
          cases h
          have := lineAt_word (w := w) (b := a.2 ++ (flat as ++ q.1 ++ (q.2 ++ flat bs))) (hword a.1 (by simp)) (Or.inr (wsHead_append (hasep a (by simp)).head)) hw
          simpa [flat] using this
    rw [e, said_round rfl hr, said_rest, hl, List.flatMap_cons, lines_append]
    congr 1
    refine ih hh (fun t ht => hword t (by simp [ht])) (hws q (by simp)) (fun x hx => hws x (by simp [hx])) (fun x hx => hsep x ?_) e2
    rw [List.dropLast_append_of_ne_nil (by simp)]
    refine List.mem_append_right _ ?_
    cases bs with
    | nil => cases hx
    | cons b bs => rw [List.dropLast_cons_of_ne_nil (by simp)]; exact List.mem_cons_of_mem _ hx

/-- The word a part starts with. -/
def Piece.First (h : Bytes) (ps : List Piece) : Prop := ∃ r, ps = .item (.word h) :: r

theorem RoundsP.said {cfg : Cfg} {s s' : MshSpec} {pss : List (List Piece)} (h : RoundsP cfg s pss s') : ∀ {g g' : Bool} {r w : Bytes} {heads : List Bytes},
    List.Forall₂ Piece.First heads pss → (∀ t ∈ heads, Word t) →
    Written g pss.flatten g' r → Ws w → said cfg s (gs (r ++ w)) = lines (heads.flatMap unknownName) := by
  induction h with
  | nil =>
    intro g g' r w heads hh _ hr hw
    cases hh
    cases hr
    rw [List.nil_append, said_blank hw]
    rfl
  | @cons s s1 s2 ps i pss h1 _ ih =>
    intro g g' r w heads hh hword hr hw
    cases hh with
    | @cons hd _ hds _ hfirst hh =>
    obtain ⟨rs, hfirst⟩ := hfirst
    rw [List.flatten_cons] at hr
    obtain ⟨g1, r1, r2, rfl, e1, e2⟩ := hr.split
    obtain rfl := e1.last
    have hend : EndHead (r2 ++ w) := e2.endHead fun _ => by
      cases w with
      | nil => exact Or.inl rfl
      | cons c w => exact Or.inr ⟨c, w, rfl, hw c (by simp)⟩
    have hrd := h1 g r1 (r2 ++ w) e1 hend
    have hl : lineAt (gs (r1 ++ (r2 ++ w))) = lines (unknownName hd) := by
      rw [hfirst] at e1
      cases e1 with
      | @item _ _ _ _ u text rest hb _ hs hrest =>
        cases hs
        have := lineAt_word (w := u) (b := rest ++ (r2 ++ w)) (hword hd (by simp)) (hrest.endHead fun _ => hend) hb
        rw [List.append_assoc]
        exact this
    rw [List.append_assoc, said_round rfl hrd, said_rest, hl, List.flatMap_cons, lines_append]
    congr 1
    exact ih hh (fun t ht => hword t (by simp [ht])) e2 hw

/-! ## The first words of parts -/

/-- The word a part starts with. -/
def Part.head : Part → Bytes
  | .stray w => w
  | p => b! "$" ++ p.name

theorem Part.head_word {cfg : Cfg} {p : Part} (h : p.Fits cfg) : Word p.head := by
  cases p with
  | stray w => exact (h.stray w rfl).1
  | other n ws =>
    have := (h.other n ws rfl).2.1
    exact tag_word this
  | _ => dsimp only [Part.head, Part.name]; unfold Word; decide

theorem Part.head_unknown {cfg : Cfg} {p : Part} (h : p.Fits cfg) : unknownName p.head = p.unknown := by
  cases p with
  | stray w =>
    have := (h.stray w rfl).2
    show unknownName w = []
    unfold unknownName
    split
    · exact absurd ⟨_, rfl⟩ this
    · rfl
  | other n ws => rfl
  | _ => dsimp only [Part.head, Part.name, Part.unknown]; decide

theorem Part.first_items (p : Part) : Item.First p.head p.items := by
  cases p <;> exact ⟨_, rfl⟩

theorem Part.first_pieces (p : Part) : Piece.First p.head p.pieces := by
  cases p <;> exact ⟨_, rfl⟩

theorem forall₂_map {α β γ : Type} {R : β → γ → Prop} {f : α → β} {g : α → γ} (l : List α) (h : ∀ x, R (f x) (g x)) :
    List.Forall₂ R (l.map f) (l.map g) := by
  induction l with
  | nil => exact .nil
  | cons x l ih => exact .cons (h x) ih

/-- The word a part starts with. -/
def Part22.head : Part22 → Bytes
  | .common p => p.head
  | p => b! "$" ++ p.name

theorem Part22.head_word {cfg : Cfg} {p : Part22} (h : p.Fits cfg) : Word p.head := by
  cases p with
  | common p => exact Part.head_word h.2
  | _ => dsimp only [Part22.head, Part22.name]; unfold Word; decide

theorem Part22.head_unknown {cfg : Cfg} {p : Part22} (h : p.Fits cfg) : unknownName p.head = p.unknown := by
  cases p with
  | common p => exact Part.head_unknown h.2
  | _ => dsimp only [Part22.head, Part22.name, Part22.unknown]; decide

theorem Part22.first_items (p : Part22) : Item.First p.head p.items := by
  cases p with
  | common p => exact p.first_items
  | _ => exact ⟨_, rfl⟩

theorem BinaryPart22.first_pieces (p : BinaryPart22) : Piece.First p.asText.head p.pieces := by
  cases p with
  | common p => exact p.first_pieces
  | _ => exact ⟨_, rfl⟩

theorem flatMap_heads {α : Type} {l : List α} {head : α → Bytes} {unknown : α → List Bytes} (h : ∀ p ∈ l, unknownName (head p) = unknown p) :
    (l.map head).flatMap unknownName = l.flatMap unknown := by
  induction l with
  | nil => rfl
  | cons p l ih =>
    rw [List.map_cons, List.flatMap_cons, List.flatMap_cons, h p (by simp), ih fun q hq => h q (by simp [hq])]

/-! ## Whole executions -/

theorem unknownNext_line {s : Stream} (he : s.eof = false) : lineAt s = lines (unknownNext s) := by
  unfold lineAt unknownNext
  rw [if_neg (by simp [he])]
  cases inString [] s <;> rfl

theorem said_final {cfg : Cfg} {x : MshSpec × Stream} (h : Final cfg x) : said cfg x.1 x.2 = lines (unknownNext x.2) := by
  cases he : x.2.eof with
  | true =>
    rw [said_eof he]
    unfold unknownNext
    rw [if_pos he]; rfl
  | false =>
    rcases h with h | h | h
    · rw [he] at h; cases h
    · rw [said_last he fun y hy => h y ⟨he, hy⟩, unknownNext_line he]
    · have hf : x.2.fail = true := by
        by_contra hf
        have hp := loadRound_progress (by simp [Stream.good, he, hf]) h.2
        rcases hp with hp | hp
        · rw [he] at hp; cases hp
        · omega
      rw [said_stuck hf, ← unknownNext_line he, lineAt_stuck hf]

theorem said_rounds {cfg : Cfg} {x y : MshSpec × Stream} {ms : List Meets} (h : Rounds cfg x ms y) :
    said cfg x.1 x.2 = lines (unknownNames ms) ++ said cfg y.1 y.2 := by
  induction h with
  | nil => rfl
  | @cons x y z word s ws hi hm _ ih =>
    rw [said_round hm.1 hm.2, ih]
    unfold unknownNames
    rw [List.flatMap_cons, lines_append, List.append_assoc]
    congr 1
    unfold lineAt
    rw [hi]

theorem rounds_final (cfg : Cfg) (k : Nat) : ∀ (x : MshSpec × Stream), x.2.rem.length ≤ k → ∃ ms y, Rounds cfg x ms y ∧ Final cfg y := by
  induction k using Nat.strongRecOn with
  | ind k ih =>
    intro x hk
    cases he : x.2.eof with
    | true => exact ⟨[], x, .nil x, Or.inl he⟩
    | false =>
      cases hf : x.2.fail with
      | true => exact ⟨[], x, .nil x, Or.inr (Or.inr ⟨he, loadRound_stuck hf⟩)⟩
      | false =>
        by_cases hy : ∃ y, MainIter cfg x y
        · obtain ⟨y, hy⟩ := hy
          have hr := hy.2
          unfold loadRound at hr
          obtain ⟨buf, s1, h1, _⟩ := Rd.bind_eq_ok hr
          rcases loadRound_progress (by simp [Stream.good, he, hf]) hy.2 with hp | hp
          · exact ⟨_, y, .cons h1 hy (.nil y), Or.inl hp⟩
          · obtain ⟨ms, z, h2, h3⟩ := ih y.2.rem.length (by omega) y le_rfl
            exact ⟨_, z, .cons h1 hy h2, h3⟩
        · exact ⟨[], x, .nil x, Or.inr (Or.inl fun y h => hy ⟨y, h⟩)⟩

theorem inString_clean {s s' : Stream} {buf : Bytes} (h : inString [] s = .ok (buf, s')) : ∀ c ∈ buf, isSpace c = false := by
  unfold inString at h
  split at h
  · cases h; intro c hc; cases hc
  · cases h
    intro c hc
    simpa using List.mem_takeWhile_imp hc

/-- A name the file has and no build knows. -/
structure Strange (file name : Bytes) : Prop where
  unknown : name ∉ knownSections true
  clean : ∀ c ∈ name, isSpace c = false
  infile : b! "$" ++ name <:+: file

theorem unknownName_strange {s s' : Stream} {file word name : Bytes} (hs : s.rem <:+ file) (hi : inString [] s = .ok (word, s')) (h : name ∈ unknownName word) :
    Strange file name := by
  unfold unknownName at h
  split at h
  · rename_i n
    split at h
    · cases h
    · rename_i hk
      cases List.mem_singleton.mp h
      refine ⟨hk, fun c hc => inString_clean hi c (by simp [hc]), ?_⟩
      rcases (inString_word hi).2 with e | ⟨e, -⟩
      · cases e
      · exact (List.prefix_append _ _).isInfix.trans (e.trans hs).isInfix
  · cases h

theorem rounds_strange {cfg : Cfg} {file : Bytes} {x y : MshSpec × Stream} {ms : List Meets} (h : Rounds cfg x ms y) (hs : x.2.rem <:+ file) :
    (∀ n ∈ unknownNames ms, Strange file n) ∧ y.2.rem <:+ file := by
  induction h with
  | nil => exact ⟨fun n hn => (by cases hn), hs⟩
  | @cons x y z word s ws hi hm _ ih =>
    obtain ⟨h1, h2⟩ := ih ((loadRound_step hm.2).suffix.trans hs)
    refine ⟨fun n hn => ?_, h2⟩
    unfold unknownNames at hn
    rw [List.flatMap_cons] at hn
    rcases List.mem_append.mp hn with hn | hn
    · exact unknownName_strange hs hi hn
    · exact h1 n hn

theorem unknownNext_strange {file : Bytes} {s : Stream} (hs : s.rem <:+ file) : ∀ n ∈ unknownNext s, Strange file n := by
  intro n hn
  unfold unknownNext at hn
  split at hn
  · cases hn
  · split at hn
    · rename_i hi
      exact unknownName_strange hs hi hn
    · cases hn

theorem line_cut {a b r r' : Bytes} (ha : 10 ∉ a) (hb : 10 ∉ b) (h : a ++ 10 :: r = b ++ 10 :: r') : a = b ∧ r = r' := by
  induction a generalizing b with
  | nil =>
    cases b with
    | nil => simpa using h
    | cons c b =>
      simp only [List.nil_append, List.cons_append, List.cons.injEq] at h
      exact absurd (by simp [h.1]) hb
  | cons x a ih =>
    cases b with
    | nil =>
      simp only [List.nil_append, List.cons_append, List.cons.injEq] at h
      exact absurd (by simp [h.1]) ha
    | cons c b =>
      simp only [List.cons_append, List.cons.injEq] at h
      obtain ⟨h1, h2⟩ := ih (fun h => ha (by simp [h])) (fun h => hb (by simp [h])) h.2
      exact ⟨by rw [h.1, h1], h2⟩

theorem lines_inj {ns : List Bytes} : ∀ {ms : List Bytes}, (∀ n ∈ ns, ∀ c ∈ n, isSpace c = false) → (∀ n ∈ ms, ∀ c ∈ n, isSpace c = false) →
    lines ns = lines ms → ns = ms := by
  have hne : ∀ n r, warningLine n ++ r ≠ [] := by
    intro n r h
    have := congrArg List.length h
    simp [warningLine] at this
  have h10 : ∀ n : Bytes, (∀ c ∈ n, isSpace c = false) → (10 : UInt8) ∉ n ++ b! "\"" := by
    intro n hn h
    rcases List.mem_append.mp h with h | h
    · have := hn 10 h
      exact absurd this (by decide)
    · exact absurd h (by decide)
  induction ns with
  | nil =>
    intro ms _ _ h
    cases ms with
    | nil => rfl
    | cons m ms => exact absurd h.symm (by unfold lines; rw [List.flatMap_cons]; exact hne m _)
  | cons n ns ih =>
    intro ms h1 h2 h
    cases ms with
    | nil => exact absurd h (by unfold lines; rw [List.flatMap_cons]; exact hne n _)
    | cons m ms =>
      unfold lines at h
      rw [List.flatMap_cons, List.flatMap_cons] at h
      unfold warningLine at h
      simp only [List.append_assoc] at h
      have h := List.append_cancel_left h
      have h' : (n ++ b! "\"") ++ 10 :: lines ns = (m ++ b! "\"") ++ 10 :: lines ms := by
        simp only [List.append_assoc]
        exact h
      obtain ⟨e1, e2⟩ := line_cut (h10 n (h1 n (by simp))) (h10 m (h2 m (by simp))) h'
      rw [List.append_cancel_right e1, ih (fun n hn => h1 n (by simp [hn])) (fun n hn => h2 n (by simp [hn])) e2]

theorem said_words {cfg : Cfg} {spec : MshSpec} (ps : List (Bytes × Bytes)) : ∀ (w b : Bytes), Ws w →
    (∀ q ∈ ps, Word q.1 ∧ q.1.head? ≠ some 36 ∧ Sep q.2) →
    said cfg spec (gs (w ++ flat ps ++ b)) = said cfg spec (gs b) := by
  induction ps with
  | nil => intro w b hw _; simpa [flat] using said_ws hw b
  | cons q ps ih =>
    intro w b hw hq
    obtain ⟨h1, h2, h3⟩ := hq q (by simp)
    have e : w ++ flat (q :: ps) ++ b = w ++ q.1 ++ (q.2 ++ flat ps ++ b) := by simp [flat]
    have hh : WsHead (q.2 ++ flat ps ++ b) := by
      rw [List.append_assoc]; exact wsHead_append h3.head
    have hr : loadRound cfg spec (gs (w ++ q.1 ++ (q.2 ++ flat ps ++ b))) = .ok (spec, gs (q.2 ++ flat ps ++ b)) := by
      unfold loadRound
      rw [Rd.bind_ok (inString_tok [] _ h1 _ _ hw hh)]
      generalize q.1 = t at h2
      split
      · exact absurd rfl h2
      · rfl
    rw [e, said_round rfl hr, ih q.2 b h3.1 fun q hq' => hq q (by simp [hq']), lineAt_word h1 (Or.inr hh) hw]
    have : unknownName q.1 = [] := by
      unfold unknownName
      split
      · rename_i heq
        rw [heq] at h2
        exact absurd rfl h2
      · rfl
    rw [this]
    rfl

end MshIO
