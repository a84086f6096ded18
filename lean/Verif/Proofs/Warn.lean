import Verif.Spec.Warn
import Verif.Proofs.PostNoHang
import Verif.Proofs.Boundary

/-!
# Lemmas about warnings
-/

namespace MshIO

theorem RdE.bind_def {α β : Type} (p : RdE α) (f : α → RdE β) (s : Stream) : (p >>= f) s =
    match p s with
    | (b, .ok (a, s')) => (b ++ (f a s').1, (f a s').2)
    | (b, .throw e) => (b, .throw e)
    | (b, .abort) => (b, .abort)
    | (b, .ub) => (b, .ub)
    | (b, .hang) => (b, .hang) := rfl

theorem RdE.pure_def {α : Type} (a : α) (s : Stream) : (pure a : RdE α) s = ([], .ok (a, s)) := rfl

/-- A computation that writes nothing, then one that writes `b`. -/
theorem RdE.lift_bind {α β : Type} (p : Rd α) (f : α → RdE β) (g : α → Rd β) (h : ∀ a s, (f a s).2 = g a s) (s : Stream) :
    (RdE.lift p >>= f) s = ((match p s with | .ok (a, s') => (f a s').1 | _ => []), (p >>= g) s) := by
  rw [RdE.bind_def, Rd.bind_def]
  unfold RdE.lift
  cases p s with
  | ok q => obtain ⟨a, s'⟩ := q; simp only [List.nil_append]; rw [← h]
  | _ => rfl

/-- What the unknown sections cause to be written. -/
def lines (names : List Bytes) : Bytes := names.flatMap warningLine

theorem lines_append (a b : List Bytes) : lines (a ++ b) = lines a ++ lines b := by simp [lines]

theorem lines_nil : lines [] = [] := rfl

theorem mem_cascade (name : Bytes) : (36 :: name) ∈ cascade ↔ name ∈ knownSections true := by
  simp only [cascade, knownSections, if_true, List.mem_cons, List.mem_append, List.not_mem_nil, or_false, List.cons.injEq, true_and]
  tauto

theorem known_of {ext : Bool} {name : Bytes} (h : name ∈ knownSections ext) : name ∈ knownSections true := by
  cases ext
  · unfold knownSections at h ⊢
    exact List.mem_append_left _ (by simpa using h)
  · exact h

theorem loadSectionE_eq (cfg : Cfg) (name : Bytes) (spec : MshSpec) (s : Stream) :
    loadSectionE cfg (36 :: name) spec s = (lines (unknownName (36 :: name)), loadSection cfg (36 :: name) spec s) := by
  unfold loadSectionE unknownName
  by_cases h : name ∈ knownSections true
  · simp only [if_pos h, if_pos ((mem_cascade name).2 h)]
    rfl
  · simp only [if_neg h, if_neg (fun h' => h ((mem_cascade name).1 h'))]
    rw [loadSection_unknown cfg (fun h' => h (known_of h'))]
    simp [RdE.bind_def, RdE.cerr, RdE.pure_def, lines, warningLine, Rd.pure_def]

/-- What a round writes. -/
def lineAt (s : Stream) : Bytes :=
  match inString [] s with
  | .ok (word, _) => lines (unknownName word)
  | _ => []

theorem loadRoundE_eq (cfg : Cfg) (spec : MshSpec) (s : Stream) : loadRoundE cfg spec s = (lineAt s, loadRound cfg spec s) := by
  have key : ∀ (buf : Bytes) (s : Stream), (match buf with
      | 36 :: _ => (do
        let spec ← loadSectionE cfg buf spec
        RdE.lift (forwardTo (endMarker buf))
        return spec : RdE MshSpec)
      | _ => return spec) s = (lines (unknownName buf), (match buf with
      | 36 :: _ => (do
        let spec ← loadSection cfg buf spec
        forwardTo (endMarker buf)
        return spec : Rd MshSpec)
      | _ => return spec) s) := by
    intro buf s
    split
    · rename_i r
      rw [RdE.bind_def, loadSectionE_eq, Rd.bind_def]
      cases loadSection cfg (36 :: r) spec s with
      | ok q =>
        obtain ⟨sp, s'⟩ := q
        simp only
        rw [RdE.lift_bind (g := fun _ => pure sp) (h := fun _ _ => rfl)]
        refine Prod.ext ?_ rfl
        simp only
        cases forwardTo (endMarker (36 :: r)) s' with
        | ok q => obtain ⟨a, b⟩ := q; exact List.append_nil _
        | _ => exact List.append_nil _
      | _ => rfl
    · rename_i h
      have : unknownName buf = [] := by
        unfold unknownName
        split
        · exact absurd rfl (h _)
        · rfl
      rw [this]
      rfl
  unfold loadRoundE loadRound
  refine (RdE.lift_bind _ _ _ (fun a s => congrArg Prod.snd (key a s)) s).trans (Prod.ext ?_ rfl)
  simp only
  unfold lineAt
  cases inString [] s with
  | ok q => obtain ⟨a, b⟩ := q; exact congrArg Prod.fst (key a b)
  | _ => rfl

theorem lineAt_stuck {s : Stream} (h : s.fail = true) : lineAt s = [] := by
  unfold lineAt
  rw [inString_stuck h]
  rfl

theorem loadLoopE_succ (cfg : Cfg) (n : Nat) (spec : MshSpec) (s : Stream) : loadLoopE cfg (n + 1) spec s =
    if s.eof then ([], .ok (spec, s)) else
      match loadRound cfg spec s with
      | .ok (sp, s') => (lineAt s ++ (loadLoopE cfg n sp s').1, (loadLoopE cfg n sp s').2)
      | .throw e => (lineAt s, .throw e)
      | .abort => (lineAt s, .abort)
      | .ub => (lineAt s, .ub)
      | .hang => (lineAt s, .hang) := by
  conv_lhs => unfold loadLoopE
  split
  · rfl
  · rw [RdE.bind_def, loadRoundE_eq]
    cases loadRound cfg spec s with
    | ok q => rfl
    | _ => rfl

theorem loadLoopE_snd (cfg : Cfg) (n : Nat) : ∀ (spec : MshSpec) (s : Stream), (loadLoopE cfg n spec s).2 = loadLoop cfg n spec s := by
  induction n with
  | zero => intro spec s; rfl
  | succ n ih =>
    intro spec s
    rw [loadLoopE_succ, loadLoop_succ]
    split
    · rfl
    · rw [Rd.bind_def]
      cases loadRound cfg spec s with
      | ok q => obtain ⟨sp, s'⟩ := q; exact ih _ _
      | _ => rfl

theorem loadLoopE_stuck {cfg : Cfg} {spec : MshSpec} {s : Stream} (hf : s.fail = true) (he : s.eof = false) (n : Nat) :
    loadLoopE cfg n spec s = ([], .hang) := by
  induction n with
  | zero => rfl
  | succ n ih =>
    rw [loadLoopE_succ, if_neg (by simp [he]), loadRound_stuck hf]
    simp only
    rw [ih, lineAt_stuck hf]
    rfl

theorem loadLoopE_stable {cfg : Cfg} (n : Nat) : ∀ (m : Nat) (spec : MshSpec) (s : Stream), s.rem.length + 2 ≤ n → s.rem.length + 2 ≤ m →
    loadLoopE cfg n spec s = loadLoopE cfg m spec s := by
  induction n with
  | zero => intro m spec s h; omega
  | succ n ih =>
    intro m spec s hn hm
    cases m with
    | zero => omega
    | succ m =>
      by_cases he : s.eof = true
      · rw [loadLoopE_succ, loadLoopE_succ, if_pos he, if_pos he]
      · by_cases hf : s.fail = true
        · rw [loadLoopE_stuck hf (by simpa using he), loadLoopE_stuck hf (by simpa using he)]
        · have hg : s.good = true := by rw [Stream.good_iff]; exact ⟨by simpa using he, by simpa using hf⟩
          rw [loadLoopE_succ, loadLoopE_succ, if_neg he, if_neg he]
          cases hi : loadRound cfg spec s with
          | ok r =>
            obtain ⟨sp, s'⟩ := r
            simp only
            have : loadLoopE cfg n sp s' = loadLoopE cfg m sp s' := by
              rcases loadRound_progress hg hi with h | h
              · obtain ⟨n', rfl⟩ : ∃ n', n = n' + 1 := ⟨n - 1, by omega⟩
                obtain ⟨m', rfl⟩ : ∃ m', m = m' + 1 := ⟨m - 1, by omega⟩
                rw [loadLoopE_succ, loadLoopE_succ, if_pos h, if_pos h]
              · exact ih m sp s' (by omega) (by omega)
            rw [this]
          | _ => rfl

/-- What the main loop writes from here on. -/
def said (cfg : Cfg) (spec : MshSpec) (s : Stream) : Bytes := (loadLoopE cfg (s.rem.length + 2) spec s).1

theorem said_eof {cfg : Cfg} {spec : MshSpec} {s : Stream} (h : s.eof = true) : said cfg spec s = [] := by
  unfold said
  rw [loadLoopE_succ, if_pos h]

theorem said_stuck {cfg : Cfg} {spec : MshSpec} {s : Stream} (h : s.fail = true) : said cfg spec s = [] := by
  by_cases he : s.eof = true
  · exact said_eof he
  · unfold said
    rw [loadLoopE_stuck h (by simpa using he)]

theorem said_round {cfg : Cfg} {spec sp : MshSpec} {s s' : Stream} (he : s.eof = false) (h : loadRound cfg spec s = .ok (sp, s')) :
    said cfg spec s = lineAt s ++ said cfg sp s' := by
  by_cases hf : s.fail = true
  · rw [loadRound_stuck hf] at h
    simp only [Outcome.ok.injEq, Prod.mk.injEq] at h
    obtain ⟨rfl, rfl⟩ := h
    rw [said_stuck hf, lineAt_stuck hf]; rfl
  · have hg : s.good = true := by rw [Stream.good_iff]; exact ⟨he, by simpa using hf⟩
    have hl := (loadRound_step h).length_le
    unfold said
    rw [loadLoopE_succ, if_neg (by simp [he]), h]
    simp only
    rcases loadRound_progress hg h with h' | h'
    · rw [loadLoopE_succ, loadLoopE_succ, if_pos h', if_pos h']
    · rw [loadLoopE_stable (s.rem.length + 1) (s'.rem.length + 2) _ _ (by omega) (by omega)]

theorem said_last {cfg : Cfg} {spec : MshSpec} {s : Stream} (he : s.eof = false) (h : ∀ y, loadRound cfg spec s ≠ .ok y) :
    said cfg spec s = lineAt s := by
  unfold said
  rw [loadLoopE_succ, if_neg (by simp [he])]
  cases hr : loadRound cfg spec s with
  | ok y => exact absurd hr (h y)
  | _ => rfl

theorem warnings_said (cfg : Cfg) (file : Bytes) : warnings cfg file = said cfg {} (gs file) := by
  unfold warnings loadMshE loadStreamE said
  show (match loadLoopE cfg ((gs file).rem.length + 2) {} (gs file) with
    | (b, .ok (spec, _)) => (b, loadPostProcess cfg spec)
    | (b, .throw e) => (b, .throw e)
    | (b, .abort) => (b, .abort)
    | (b, .ub) => (b, .ub)
    | (b, .hang) => (b, .hang)).1 = _
  cases loadLoopE cfg ((gs file).rem.length + 2) {} (gs file) with
  | mk b o => cases o <;> rfl

theorem loadMshE_snd (cfg : Cfg) (file : Bytes) : (loadMshE cfg file).2 = loadMsh cfg file := by
  unfold loadMshE loadStreamE loadMsh loadStream
  have := loadLoopE_snd cfg ((Stream.ofBytes file).rem.length + 2) {} (Stream.ofBytes file)
  revert this
  cases loadLoopE cfg ((Stream.ofBytes file).rem.length + 2) {} (Stream.ofBytes file) with
  | mk b o =>
    intro h
    rw [← h]
    cases o with
    | ok q => rfl
    | _ => rfl

end MshIO
