import Verif.Proofs.Cut
import Verif.Proofs.Frame
import Verif.Proofs.Skip

/-! # Cutting a saved file short in a build with assertions -/

namespace MshIO

/-- No beginning of the name is one of the names whose readers do not check the stream. -/
def Checked (name : Bytes) : Prop := ∀ n, n <+: name → n ≠ b! "MeshFormat" ∧ n ≠ b! "NanoSplineFormat"

theorem takeWhile_prefix {q : UInt8 → Bool} {a b : Bytes} (h : a <+: b) : a.takeWhile q <+: b.takeWhile q := by
  obtain ⟨c, rfl⟩ := h
  induction a with
  | nil => simp
  | cons x a ih =>
    simp only [List.cons_append, List.takeWhile_cons]
    split
    · exact List.cons_prefix_cons.mpr ⟨rfl, ih⟩
    · simp

theorem prefix_append_cases {p a b : Bytes} (h : p <+: a ++ b) : p <+: a ∨ ∃ p', p = a ++ p' ∧ p' <+: b := by
  rcases List.prefix_or_prefix_of_prefix h (List.prefix_append a b) with h1 | ⟨c, rfl⟩
  · exact Or.inl h1
  · exact Or.inr ⟨c, rfl, (List.prefix_append_right_inj a).mp h⟩

/-- The word a cut section starts with. -/
theorem inString_cut {name r p n : Bytes} {st : Stream} (hn : ∀ c ∈ name, isSpace c = false) (hr : WsHead r)
    (hp : p <+: (36 :: name) ++ r) (h : inString [] (gs p) = .ok (36 :: n, st)) : n <+: name := by
  cases p with
  | nil => simp [inString, sentry, Stream.good] at h
  | cons c p =>
    have hc : c = 36 := (List.cons_prefix_cons.mp hp).1
    subst hc
    have hs : isSpace 36 = false := by decide
    obtain ⟨d, r', rfl, hd⟩ := hr
    have e : List.takeWhile (fun c => !isSpace c) ((36 :: name) ++ d :: r') = 36 :: name := by
      rw [List.takeWhile_append_of_pos]
      · simp [hd]
      · intro c hc
        rcases List.mem_cons.mp hc with rfl | hc
        · rfl
        · simp [hn c hc]
    have h2 := takeWhile_prefix (q := fun c => !isSpace c) hp
    rw [e] at h2
    simp only [inString, sentry, Stream.good, gs, Bool.not_false, Bool.and_self, if_true, List.dropWhile_cons, hs, if_false, Bool.false_eq_true,
      Outcome.ok.injEq, Prod.mk.injEq] at h
    rw [h.1] at h2
    exact (List.cons_prefix_cons.mp h2).2

/-- A run of sections cut short. -/
theorem chain_cut {cfg : Cfg} (hA : cfg.asserts = true) (hext : cfg.nanospline = false) {s u : MshSpec} {L : List (Bytes × Bytes)}
    (hc : Chain cfg s L u) (hv : s.meshFormat.version = b! "4.1") (hn : ∀ q ∈ L, Checked q.1) {p w : Bytes} (hw : Ws w)
    (hp : p <+: (L.map Prod.snd).flatten) {t : MshSpec} {st : Stream} (h : loadFull cfg s (gs (w ++ p)) = .ok (t, st)) :
    ∃ k, k ≤ L.length ∧ Chain cfg s (L.take k) t ∧ ((L.take (k - 1)).map Prod.snd).flatten <+: p ∧
      (k < L.length → ¬ ((L.take (k + 1)).map Prod.snd).flatten <+: p) := by
  induction hc generalizing p w with
  | nil s =>
    have : p = [] := by simpa using hp
    subst this
    rw [List.append_nil, loadFull_ws hw] at h
    cases h
    exact ⟨0, le_rfl, .nil _, by simp, by simp⟩
  | @cons s s' u name A L hS hc ih =>
    have hne : name ≠ b! "MeshFormat" := (hn (name, A) (by simp) name (List.prefix_refl _)).1
    rw [loadFull_wsPrefix cfg s hw] at h
    have hv' : s'.meshFormat.version = b! "4.1" := by rw [← hS.own hne hv, put_format hne]; exact hv
    rw [List.map_cons, List.flatten_cons] at hp
    rcases prefix_append_cases hp with hpA | ⟨p', rfl, hp'⟩
    · by_cases hpe : A <+: p
      · have : p = A := hpA.eq_of_length_le hpe.length_le
        subst this
        have e := loadFull_section hS []
        simp only [List.append_nil] at e
        rw [e, loadFull_ws Ws.nil] at h
        cases h
        refine ⟨1, by simp, .cons hS (.nil _), by simp, fun hl => ?_⟩
        intro hx
        cases L with
        | nil => simp at hl
        | cons q L =>
          cases hc with
          | cons hq _ =>
          obtain ⟨r, e, -⟩ := hq.start
          have := hx.length_le
          simp only [List.take, List.map_cons, List.flatten_cons, List.length_append, e, List.length_cons] at this
          omega
      · have hlast : ∀ k, ¬ ((((name, A) :: L).take (k + 1)).map Prod.snd).flatten <+: p := by
          intro k hx
          refine hpe ((List.prefix_append A ((L.take k).map Prod.snd).flatten).trans ?_)
          simpa [List.take] using hx
        obtain ⟨w', hw', -, hm⟩ := hS.round
        change loadRound cfg s (gs A) = .ok (s', gs w') at hm
        have one : ∀ v, v = s ∨ v = s' → t = v → ∃ k, k ≤ ((name, A) :: L).length ∧ Chain cfg s (((name, A) :: L).take k) t ∧
            ((((name, A) :: L).take (k - 1)).map Prod.snd).flatten <+: p ∧
            (k < ((name, A) :: L).length → ¬ ((((name, A) :: L).take (k + 1)).map Prod.snd).flatten <+: p) := by
          rintro v (rfl | rfl) rfl
          · exact ⟨0, by simp, .nil _, by simp, fun _ => hlast 0⟩
          · exact ⟨1, by simp, .cons hS (.nil _), by simp, fun _ => hlast 1⟩
        obtain ⟨b, rfl⟩ := hpA
        rw [loadFull_round rfl, Rd.bind_def] at h
        cases hr : loadRound cfg s (gs p) with
        | ok x =>
          rw [hr] at h
          obtain ⟨v, ⟨a, e, f⟩⟩ := x
          simp only at h
          cases e with
          | true =>
            rw [loadFull_eof rfl] at h
            cases h
            have hcut := round_cut hA (s' := ⟨a, true, f⟩) rfl hr (fun n st' hi => section_ends hA (by
              obtain ⟨r, e, hr'⟩ := hS.start
              have := hn (name, p ++ b) (by simp) n (inString_cut hS.word hr' (e ▸ List.prefix_append p b) hi)
              unfold uncheckedSections
              rw [hext, hv]
              intro hmem
              simp at hmem
              rcases hmem with h | h
              · exact this.1 h
              · exact this.2 h)) b
            refine one t ?_ rfl
            rcases hcut with h | ⟨s'', h⟩
            · exact Or.inl h
            · rw [hm] at h
              cases h
              exact Or.inr rfl
          | false =>
            cases f with
            | true => rw [loadFull_stuck rfl rfl] at h; cases h
            | false =>
              have := loadRound_ext hr b
              rw [hm] at this
              simp only [Outcome.ok.injEq, Prod.mk.injEq, Stream.mk.injEq, gs, and_true] at this
              obtain ⟨rfl, rfl⟩ := this
              have ha : Ws a := fun c hc => hw' c (by simp [hc])
              change loadFull cfg s' (gs a) = _ at h
              rw [loadFull_ws ha] at h
              cases h
              exact one _ (Or.inr rfl) rfl
        | hang => rw [hr] at h; cases h
        | throw e => rw [hr] at h; cases h
        | abort => rw [hr] at h; cases h
        | ub => rw [hr] at h; cases h
    · rw [loadFull_section hS] at h
      obtain ⟨k, h1, h2, h3, h4⟩ := ih hv' (fun q hq => hn q (by simp [hq])) (w := []) Ws.nil hp' h
      refine ⟨k + 1, by simpa using h1, .cons hS h2, ?_, fun hl hx => h4 (by simpa using hl) ?_⟩
      · cases k with
        | zero => simp
        | succ k => simpa using h3
      · simpa using hx

/-! ## The tags of saved files -/

/-- The token is not the tag of a section whose reader does not check the stream. -/
def SafeTok (t : Bytes) : Prop := ∀ name, t = 36 :: name → Checked name

/-- All tokens are safe. -/
def SafeToks (ts : List Bytes) : Prop := ∀ t ∈ ts, SafeTok t

theorem SafeTok.of_dollar {t : Bytes} (h : (36 : UInt8) ∉ t) : SafeTok t := fun name e => absurd (by rw [e]; simp) h

theorem SafeToks.nil : SafeToks [] := by simp [SafeToks]

theorem SafeToks.append {a b : List Bytes} (ha : SafeToks a) (hb : SafeToks b) : SafeToks (a ++ b) := fun t ht => by
  rcases List.mem_append.mp ht with h | h
  · exact ha t h
  · exact hb t h

theorem SafeToks.cons {t : Bytes} {b : List Bytes} (ha : SafeTok t) (hb : SafeToks b) : SafeToks (t :: b) := fun x hx => by
  rcases List.mem_cons.mp hx with h | h
  · exact h ▸ ha
  · exact hb x h

theorem SafeToks.map {α : Type} {f : α → Bytes} {v : List α} (h : ∀ x, SafeTok (f x)) : SafeToks (v.map f) := fun t ht => by
  obtain ⟨x, -, rfl⟩ := List.mem_map.mp ht
  exact h x

theorem SafeToks.flatMap {α : Type} {f : α → List Bytes} {v : List α} (h : ∀ x, SafeToks (f x)) : SafeToks (v.flatMap f) := fun t ht => by
  obtain ⟨x, -, hx⟩ := List.mem_flatMap.mp ht
  exact h x t hx

theorem SafeToks.ite {c : Prop} [Decidable c] {a : List Bytes} (h : SafeToks a) : SafeToks (if c then a else []) := by
  split
  · exact h
  · exact SafeToks.nil

theorem safe_decU64 (n : UInt64) : SafeTok (decU64 n) := .of_dollar (dollar_decU64 n)

theorem safe_decI32 (n : Int32) : SafeTok (decI32 n) := .of_dollar (by
  unfold decI32
  split
  · intro h
    rcases List.mem_cons.mp h with h | h
    · revert h; decide
    · exact dollar_decNat _ h
  · exact dollar_decNat _)

theorem safe_double (P : Fmt) (d : Double) : SafeTok (fmtDouble P d) := .of_dollar (dollar_fmtDouble P d)

theorem safe_quote (t : Bytes) : SafeTok (quoteText t) := fun name e => by
  unfold quoteText at e
  simp only [List.cons.injEq] at e
  exact absurd e.1 (by decide)

/-- The names that matter differ from the unchecked ones in their first two letters. -/
theorem checked_of {c d : UInt8} {r : Bytes} (h1 : ¬(c = 77 ∧ d = 101)) (h2 : ¬(c = 78 ∧ d = 97)) : Checked (c :: d :: r) := by
  intro n hn
  constructor <;> rintro rfl
  · simp only [List.cons_prefix_cons] at hn
    exact h1 ⟨hn.1.symm, hn.2.1.symm⟩
  · simp only [List.cons_prefix_cons] at hn
    exact h2 ⟨hn.1.symm, hn.2.1.symm⟩

theorem safe_tag {c d : UInt8} {r : Bytes} (h1 : ¬(c = 77 ∧ d = 101)) (h2 : ¬(c = 78 ∧ d = 97)) : SafeTok (36 :: c :: d :: r) := by
  intro name e
  simp only [List.cons.injEq, true_and] at e
  exact e ▸ checked_of h1 h2

theorem safe_endTag (name : Bytes) : SafeTok (endTag name) := safe_tag (by decide) (by decide)

theorem safeToks_section {c d : UInt8} {r : Bytes} {ts : List Bytes} (h1 : ¬(c = 77 ∧ d = 101)) (h2 : ¬(c = 78 ∧ d = 97)) (h : SafeToks ts) :
    SafeToks ((36 :: c :: d :: r) :: (ts ++ [endTag (c :: d :: r)])) :=
  .cons (safe_tag h1 h2) (.append h (.cons (safe_endTag _) .nil))

theorem safe_intList (v : List Int32) : SafeToks (intListToks v) := .cons (safe_decU64 _) (.map safe_decI32)

theorem safeToks_entities (P : Fmt) (e : Entities) : SafeToks (entitiesToks P e) := by
  have hb : ∀ p, SafeToks (boxToks P p) := fun p =>
    .cons (safe_decI32 _) (.cons (safe_double _ _) (.cons (safe_double _ _) (.cons (safe_double _ _) (.cons (safe_double _ _) (.cons (safe_double _ _)
      (.cons (safe_double _ _) (.append (safe_intList _) (safe_intList _))))))))
  exact .cons (safe_decU64 _) (.cons (safe_decU64 _) (.cons (safe_decU64 _) (.cons (safe_decU64 _)
    (.append (.flatMap fun p => .append (.cons (safe_decI32 _) (.cons (safe_double _ _) (.cons (safe_double _ _) (.cons (safe_double _ _) .nil)))) (safe_intList _))
      (.append (.flatMap hb) (.append (.flatMap hb) (.flatMap hb)))))))

theorem safeToks_nodes (P : Fmt) (n : Nodes) : SafeToks (nodesToks P n) :=
  .cons (safe_decU64 _) (.cons (safe_decU64 _) (.cons (safe_decU64 _) (.cons (safe_decU64 _) (.flatMap fun b =>
    .cons (safe_decI32 _) (.cons (safe_decI32 _) (.cons (safe_decI32 _) (.cons (safe_decU64 _)
      (.append (.map safe_decU64) (.map (safe_double P))))))))))

theorem safeToks_elements (n : Elements) : SafeToks (elementsToks n) :=
  .cons (safe_decU64 _) (.cons (safe_decU64 _) (.cons (safe_decU64 _) (.cons (safe_decU64 _) (.flatMap fun b =>
    .cons (safe_decI32 _) (.cons (safe_decI32 _) (.cons (safe_decI32 _) (.cons (safe_decU64 _) (.map safe_decU64))))))))

theorem safeToks_data (P : Fmt) (isEN : Bool) (d : Data) : SafeToks (dataToks P isEN d) :=
  .append (.cons (safe_decU64 _) (.append (.map safe_quote) (.cons (safe_decU64 _) (.append (.map (safe_double P))
    (.cons (safe_decU64 _) (.map safe_decI32))))))
    (.flatMap fun e => .cons (safe_decU64 _) (.append (.ite (.cons (safe_decI32 _) .nil)) (.map (safe_double P))))

theorem safeToks_names (s : MshSpec) : SafeToks (nameToks s) :=
  .ite (safeToks_section (by decide) (by decide) (.cons (safe_decU64 _) (.flatMap fun g =>
    .cons (safe_decI32 _) (.cons (safe_decI32 _) (.cons (safe_quote _) .nil)))))

theorem safe_rest (P : Fmt) (s : MshSpec) : SafeToks (restToks41 P s (tailToks false P s)) :=
  .append (safeToks_names s) (.append (.ite (safeToks_section (by decide) (by decide) (safeToks_entities P _)))
    (.append (.ite (safeToks_section (by decide) (by decide) (safeToks_nodes P _)))
    (.append (.ite (safeToks_section (by decide) (by decide) (safeToks_elements _)))
    (.append (.ite (.flatMap fun d => safeToks_section (by decide) (by decide) (safeToks_data P _ d)))
    (.append (.ite (.flatMap fun d => safeToks_section (by decide) (by decide) (safeToks_data P _ d)))
    (.append (.ite (.flatMap fun d => safeToks_section (by decide) (by decide) (safeToks_data P _ d))) .nil))))))

theorem safe_secs {cfg : Cfg} (hext : cfg.nanospline = false) (s : MshSpec) :
    ∀ q ∈ restSecs41 s (tailSecs cfg s), Checked q.1 := by
  intro q hq
  unfold restSecs41 nameSecs tailSecs at hq
  rw [hext] at hq
  simp only [List.mem_append, Bool.false_eq_true, if_false, List.not_mem_nil, or_false] at hq
  have h1 : ∀ {c : Prop} [Decidable c] {v : List (Bytes × Bytes)}, q ∈ (if c then v else []) → q ∈ v := by
    intro c _ v h
    split at h
    · exact h
    · cases h
  rcases hq with h | h | h | h | h | h | h <;> have h := h1 h
  · rw [List.mem_singleton] at h; rw [h]; exact checked_of (by decide) (by decide)
  · rw [List.mem_singleton] at h; rw [h]; exact checked_of (by decide) (by decide)
  · rw [List.mem_singleton] at h; rw [h]; exact checked_of (by decide) (by decide)
  · rw [List.mem_singleton] at h; rw [h]; exact checked_of (by decide) (by decide)
  · obtain ⟨d, -, rfl⟩ := List.mem_map.mp h; exact checked_of (by decide) (by decide)
  · obtain ⟨d, -, rfl⟩ := List.mem_map.mp h; exact checked_of (by decide) (by decide)
  · obtain ⟨d, -, rfl⟩ := List.mem_map.mp h; exact checked_of (by decide) (by decide)

theorem Linked.checked {cfg : Cfg} {N : List Bytes} {s u : MshSpec} {b : Bytes} (h : Linked cfg N s b u) (hN : SafeToks N) :
    ∃ L, Chain cfg s L u ∧ (L.map Prod.snd).flatten = b ∧ ∀ q ∈ L, Checked q.1 := by
  obtain ⟨L, h1, h2, h3, -⟩ := h
  exact ⟨L, h1, h2, fun q hq => hN _ (h3.mem (List.mem_map_of_mem hq)) _ rfl⟩

theorem loadMsh_finish (cfg : Cfg) (x : Bytes) : loadMsh cfg x = finish cfg (loadFull cfg {} (gs x)) := by
  unfold loadMsh
  rw [loadStream_eq]
  rfl

theorem firstSections_all (L : List (Bytes × Bytes)) : firstSections L.length L = (L.map Prod.snd).flatten := by
  unfold firstSections
  rw [List.take_length]

/-- A header followed by a run of sections that was cut short. -/
theorem saved_cut {cfg : Cfg} (hA : cfg.asserts = true) (hext : cfg.nanospline = false) {N : List Bytes} {hdr : Bytes} {s u : MshSpec}
    (hh : Linked cfg N {} hdr s) (hv : s.meshFormat.version = b! "4.1") {L : List (Bytes × Bytes)}
    (hc : Chain cfg s L u) (hn : ∀ q ∈ L, Checked q.1) (p : Bytes) (t : MshSpec) (hp : p <+: firstSections L.length L)
    (h : loadMsh cfg (hdr ++ p) = .ok t) :
    ∃ k ≤ L.length, loadMsh cfg (hdr ++ firstSections k L) = .ok t ∧ firstSections (k - 1) L <+: p ∧
      (k < L.length → ¬ firstSections (k + 1) L <+: p) := by
  obtain ⟨K, hK, rfl, -⟩ := hh
  rw [firstSections_all] at hp
  rw [loadMsh_finish, loadFull_chain hK] at h
  cases hl : loadFull cfg s (gs p) with
  | ok x =>
    rw [hl] at h
    obtain ⟨v, st⟩ := x
    obtain ⟨k, h1, h2, h3, h4⟩ := chain_cut hA hext hc hv hn (w := []) Ws.nil hp hl
    refine ⟨k, h1, ?_, h3, h4⟩
    have e := loadFull_chain h2 []
    rw [List.append_nil] at e
    rw [loadMsh_finish, loadFull_chain hK, firstSections, e, loadFull_ws Ws.nil]
    exact h
  | hang => rw [hl] at h; cases h
  | throw e => rw [hl] at h; cases h
  | abort => rw [hl] at h; cases h
  | ub => rw [hl] at h; cases h

/-! ## Concrete files -/

/-- Rounds that are known need not be guessed. -/
theorem endsIn_known {cfg : Cfg} {p name : Bytes} {f : MeshFormat} (h : EndsIn cfg p name f) {x y : MshSpec × Stream}
    (h1 : loadRound cfg {} (Stream.ofBytes p) = .ok x) (hx : x.2.eof = false) (h2 : loadRound cfg x.1 x.2 = .ok y) (hy : y.2.eof = true) :
    x.1.meshFormat = f ∧ ∃ st, inString [] x.2 = .ok (36 :: name, st) := by
  obtain ⟨spec, st, st', z, ha, he, hf, hi, hr, hz⟩ := h
  rcases Relation.ReflTransGen.cases_head ha with e | ⟨x', ⟨-, hx'⟩, ha⟩
  · cases e
    rw [h1] at hr
    cases hr
    rw [hx] at hz; cases hz
  · have : x' = x := by rw [h1] at hx'; cases hx'; rfl
    subst this
    rcases Relation.ReflTransGen.cases_head ha with e | ⟨y', ⟨-, hy'⟩, ha⟩
    · subst e
      exact ⟨hf, _, hi⟩
    · have : y' = y := by rw [h2] at hy'; cases hy'; rfl
      subst this
      rcases Relation.ReflTransGen.cases_head ha with e | ⟨z', ⟨hz', -⟩, -⟩
      · subst e
        rw [show st.eof = true from hy] at he; cases he
      · rw [hy] at hz'; cases hz'

end MshIO
