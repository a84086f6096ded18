import Verif.Props.White

/-!
# C57 for the sections of the extension

In binary files each curve and each patch has a head of words, one character that is skipped, and then its
numbers.  The words of the heads (`curveHeadWords`, `patchHeadWords`) are in `Spec/Format.lean`, `Skipped` and `Kept` in `Spec/White.lean`.
-/

namespace MshIO

/-- The bytes of a curve in a binary file: the words of its head separated by any white space, one line feed, carriage return, space or tab, and its numbers. -/
def CurveText (k : Curve) (b : Bytes) : Prop :=
  ∃ (lead t : Bytes) (words : List (Bytes × Bytes)) (c : UInt8), words.map Prod.fst ++ [t] = curveHeadWords k ∧ (∀ q ∈ words, Blank q.2 ∧ q.2 ≠ []) ∧ Blank lead ∧
    Skipped c ∧ b = Spaced lead words ++ (t ++ c :: k.data.flatMap leDouble)

/-- The bytes of a patch in a binary file: the words of its head separated by any white space, one line feed, carriage return, space or tab, and its numbers. -/
def PatchText (k : Patch) (b : Bytes) : Prop :=
  ∃ (lead t : Bytes) (words : List (Bytes × Bytes)) (c : UInt8), words.map Prod.fst ++ [t] = patchHeadWords k ∧ (∀ q ∈ words, Blank q.2 ∧ q.2 ≠ []) ∧ Blank lead ∧
    Skipped c ∧ b = Spaced lead words ++ (t ++ c :: k.data.flatMap leDouble)

/-! ## Helper lemmas -/

/-- The member after those of `v` is the first to see a difference. -/
theorem forEach_pairs_at {α : Type} {p : α → Rd α} (v : List (α × Bytes)) (h : ∀ q ∈ v, ∀ d, ReadsM (p d) q.2 q.1) {x y : Bytes} (hx : x ≠ []) (hy : y ≠ [])
    (hxy : ∀ d w, Ws w → p d (gs (w ++ x)) = p d (gs (w ++ y))) : ∀ (l : List α), v.length < l.length → ∀ w, Ws w →
    forEach p l (gs (w ++ v.flatMap Prod.snd ++ x)) = forEach p l (gs (w ++ v.flatMap Prod.snd ++ y)) := by
  induction v with
  | nil =>
    intro l hl w hw
    cases l with
    | nil => simp at hl
    | cons d l =>
      simp only [forEach, List.flatMap_nil, List.append_nil]
      rw [Rd.bind_def, Rd.bind_def, hxy d w hw]
  | cons a v ih =>
    intro l hl w hw
    cases l with
    | nil => simp at hl
    | cons d l =>
      have h1 := h a (by simp) d w (v.flatMap Prod.snd ++ x) hw (by simp [hx])
      have h2 := h a (by simp) d w (v.flatMap Prod.snd ++ y) hw (by simp [hy])
      have ih := ih (fun b hb => h b (by simp [hb])) l (by simpa using hl) [] Ws.nil
      rw [List.nil_append] at ih
      simp only [List.flatMap_cons, forEach]
      rw [← List.append_assoc, List.append_assoc (w ++ a.2), List.append_assoc (w ++ a.2), Rd.bind_ok h1, Rd.bind_ok h2, Rd.bind_def, Rd.bind_def, ih]

theorem forEach_pairs {α : Type} {p : α → Rd α} (v : List (α × Bytes)) (h : ∀ q ∈ v, ∀ d, ReadsM (p d) q.2 q.1) {gap : Bytes} (hg : Ws gap) :
    ∀ (l : List α), l.length = v.length → ∀ w rest, Ws w → rest ≠ [] →
      ∃ w', Ws w' ∧ forEach p l (gs (w ++ v.flatMap Prod.snd ++ gap ++ rest)) = .ok (v.map Prod.fst, gs (w' ++ rest)) := by
  induction v with
  | nil =>
    intro l hl w rest hw _
    rw [List.length_nil, List.length_eq_zero_iff] at hl
    subst hl
    exact ⟨w ++ gap, by intro x hx; rcases List.mem_append.mp hx with hx | hx; exacts [hw x hx, hg x hx], by simp [forEach, Pure.pure, Rd.pure]⟩
  | cons a v ih =>
    intro l hl w rest hw hr
    cases l with
    | nil => simp at hl
    | cons d l =>
      obtain ⟨w', hw', e⟩ := ih (fun b hb => h b (by simp [hb])) l (by simpa using hl) [] rest Ws.nil hr
      refine ⟨w', hw', ?_⟩
      have h1 := h a (by simp) d w (v.flatMap Prod.snd ++ gap ++ rest) hw (by simp [hr])
      simp only [List.flatMap_cons, forEach]
      rw [show w ++ (a.2 ++ v.flatMap Prod.snd) ++ gap ++ rest = w ++ a.2 ++ (v.flatMap Prod.snd ++ gap ++ rest) by simp, Rd.bind_ok h1]
      rw [List.nil_append] at e
      rw [Rd.bind_ok e]
      rfl

theorem resize_any {α : Type} (cfg : Cfg) (v : List α) (n : UInt64) (d : α) (h : n.toNat ≤ cfg.maxCount) :
    ∃ l : List α, l.length = n.toNat ∧ Silent (resize cfg v n d) l :=
  ⟨v.take n.toNat ++ List.replicate (n.toNat - v.length) d, by simp; omega, silent_lift (by simp [vecResize, h])⟩

theorem curveHead_at (old k : Curve) {lead t : Bytes} {words : List (Bytes × Bytes)} (hwords : words.map Prod.fst ++ [t] = curveHeadWords k)
    (hseps : ∀ q ∈ words, Blank q.2 ∧ q.2 ≠ []) (hlead : Blank lead) {w r : Bytes} (hw : Ws w) (hr : WsHead r) :
    loadCurveHeader old (gs (w ++ (Spaced lead words ++ (t ++ r)))) = .ok ({ k with data := old.data }, gs r) := by
  obtain ⟨c, r, rfl, hc⟩ := hr
  have := loadCurveHeader_reads k old (words ++ [(t, [c])]) (by
    rw [List.map_append, List.map_cons, List.map_nil, hwords]; simp [curveHeadWords, curveToks, decU64_eq]) (by
    intro q hq
    rcases List.mem_append.mp hq with hq | hq
    · exact hseps q hq
    · rw [List.mem_singleton] at hq
      subst hq
      exact ⟨by intro x hx; rw [List.mem_singleton] at hx; subst hx; exact hc, by simp⟩) (w ++ lead) r (by
    intro x hx; rcases List.mem_append.mp hx with hx | hx; exacts [hw x hx, hlead x hx])
  rw [lastSep_append] at this
  have e : w ++ (Spaced lead words ++ (t ++ c :: r)) = w ++ lead ++ flat (words ++ [(t, [c])]) ++ r := by simp [Spaced, flat, List.flatMap_def]
  rw [e, this]
  rfl

theorem patchHead_at (old k : Patch) {lead t : Bytes} {words : List (Bytes × Bytes)} (hwords : words.map Prod.fst ++ [t] = patchHeadWords k)
    (hseps : ∀ q ∈ words, Blank q.2 ∧ q.2 ≠ []) (hlead : Blank lead) {w r : Bytes} (hw : Ws w) (hr : WsHead r) :
    loadPatchHeader old (gs (w ++ (Spaced lead words ++ (t ++ r)))) = .ok ({ k with data := old.data }, gs r) := by
  obtain ⟨c, r, rfl, hc⟩ := hr
  have := loadPatchHeader_reads k old (words ++ [(t, [c])]) (by
    rw [List.map_append, List.map_cons, List.map_nil, hwords]; simp [patchHeadWords, patchToks, decU64_eq]) (by
    intro q hq
    rcases List.mem_append.mp hq with hq | hq
    · exact hseps q hq
    · rw [List.mem_singleton] at hq
      subst hq
      exact ⟨by intro x hx; rw [List.mem_singleton] at hx; subst hx; exact hc, by simp⟩) (w ++ lead) r (by
    intro x hx; rcases List.mem_append.mp hx with hx | hx; exacts [hw x hx, hlead x hx])
  rw [lastSep_append] at this
  have e : w ++ (Spaced lead words ++ (t ++ c :: r)) = w ++ lead ++ flat (words ++ [(t, [c])]) ++ r := by simp [Spaced, flat, List.flatMap_def]
  rw [e, this]
  rfl

theorem curve_eat (cfg : Cfg) (k : Curve) {lead t : Bytes} {words : List (Bytes × Bytes)} (hwords : words.map Prod.fst ++ [t] = curveHeadWords k)
    (hseps : ∀ q ∈ words, Blank q.2 ∧ q.2 ≠ []) (hlead : Blank lead) {x y : Bytes} (hx : WsHead x) (hy : WsHead y)
    (h : eatWhiteSpace 1 (gs x) = eatWhiteSpace 1 (gs y)) (old : Curve) (w : Bytes) (hw : Ws w) :
    loadCurveBinary cfg old (gs (w ++ (Spaced lead words ++ (t ++ x)))) = loadCurveBinary cfg old (gs (w ++ (Spaced lead words ++ (t ++ y)))) := by
  unfold loadCurveBinary
  rw [Rd.bind_ok (curveHead_at _ k hwords hseps hlead hw hx), Rd.bind_ok (curveHead_at _ k hwords hseps hlead hw hy), Rd.bind_def, Rd.bind_def, h]

theorem patch_eat (cfg : Cfg) (k : Patch) {lead t : Bytes} {words : List (Bytes × Bytes)} (hwords : words.map Prod.fst ++ [t] = patchHeadWords k)
    (hseps : ∀ q ∈ words, Blank q.2 ∧ q.2 ≠ []) (hlead : Blank lead) {x y : Bytes} (hx : WsHead x) (hy : WsHead y)
    (h : eatWhiteSpace 1 (gs x) = eatWhiteSpace 1 (gs y)) (old : Patch) (w : Bytes) (hw : Ws w) :
    loadPatchBinary cfg old (gs (w ++ (Spaced lead words ++ (t ++ x)))) = loadPatchBinary cfg old (gs (w ++ (Spaced lead words ++ (t ++ y)))) := by
  unfold loadPatchBinary
  rw [Rd.bind_ok (patchHead_at _ k hwords hseps hlead hw hx), Rd.bind_ok (patchHead_at _ k hwords hseps hlead hw hy)]
  have lift : ∀ {α β : Type} (p : Outcome α) (f : α → Rd β) {x y}, (∀ a, f a (gs x) = f a (gs y)) → (Rd.lift p >>= f) (gs x) = (Rd.lift p >>= f) (gs y) := by
    intro α β p f x y h
    cases p with
    | ok a => exact h a
    | _ => rfl
  refine lift _ _ fun a => ?_
  rw [Rd.bind_def, Rd.bind_def, h]

theorem CurveText.reads (cfg : Cfg) {k : Curve} {b : Bytes} (h : CurveText k b) (hok : k.Ok) (hm : k.data.length ≤ cfg.maxCount) (old : Curve) :
    ReadsM (loadCurveBinary cfg old) b k := by
  obtain ⟨lead, t, words, c, hwords, hseps, hlead, hc, hb⟩ := h
  intro w rest hw hr
  have hlt := cfg.maxCount_lt
  have hl := hok.entries (by omega)
  have he : eatWhiteSpace 1 (gs (c :: (k.data.flatMap leDouble ++ rest))) = .ok ((), gs (k.data.flatMap leDouble ++ rest)) :=
    eat_one (w := [c]) ⟨c, rfl, hc.eat⟩ (by simp [hr])
  obtain ⟨l, hll, hs⟩ := resize_any cfg ({ k with data := old.data } : Curve).data ({ k with data := old.data } : Curve).numEntries Double.zero
    (by show k.numEntries.toNat ≤ _; omega)
  have hll : l.length = k.data.length := hll.trans hl
  unfold loadCurveBinary
  rw [hb, List.append_assoc w, List.append_assoc (Spaced lead words), List.append_assoc t, List.cons_append,
    Rd.bind_ok (curveHead_at _ k hwords hseps hlead hw ⟨c, _, rfl, hc.space⟩), Rd.bind_ok he, Rd.bind_ok (hs _), show leDouble = encDouble from funext leDouble_eq,
    Rd.bind_ok (readDoubles_reads _ k.data hll rest)]
  rfl

theorem PatchText.reads (cfg : Cfg) {k : Patch} {b : Bytes} (h : PatchText k b) (hok : k.Ok) (hm : k.data.length ≤ cfg.maxCount) (old : Patch) :
    ReadsM (loadPatchBinary cfg old) b k := by
  obtain ⟨lead, t, words, c, hwords, hseps, hlead, hc, hb⟩ := h
  intro w rest hw hr
  have hlt := cfg.maxCount_lt
  have hl := hok.entries (by omega)
  have he : eatWhiteSpace 1 (gs (c :: (k.data.flatMap leDouble ++ rest))) = .ok ((), gs (k.data.flatMap leDouble ++ rest)) :=
    eat_one (w := [c]) ⟨c, rfl, hc.eat⟩ (by simp [hr])
  obtain ⟨l, hll, hs⟩ := resize_any cfg ({ k with data := old.data } : Patch).data ({ k with data := old.data } : Patch).numEntries Double.zero
    (by show k.numEntries.toNat ≤ _; omega)
  have hll : l.length = k.data.length := hll.trans hl
  unfold loadPatchBinary
  rw [hb, List.append_assoc w, List.append_assoc (Spaced lead words), List.append_assoc t, List.cons_append,
    Rd.bind_ok (patchHead_at _ k hwords hseps hlead hw ⟨c, _, rfl, hc.space⟩), Rd.bind_ok (hs _), Rd.bind_ok he, show leDouble = encDouble from funext leDouble_eq,
    Rd.bind_ok (readDoubles_reads _ k.data hll rest)]
  rfl

theorem curves_congr (cfg : Cfg) (hx : cfg.nanospline = true) {a : Bytes} {s : MshSpec} (ha : Boundary cfg a s) (ht : s.meshFormat.fileType ≠ 0)
    {w w' : Bytes} (hw : Blank w ∧ w ≠ []) (hw' : Blank w' ∧ w' ≠ []) {N : UInt64} {pre : List (Curve × Bytes)} (hN : pre.length < N.toNat)
    (hpre : ∀ q ∈ pre, CurveText q.1 q.2 ∧ q.1.Ok ∧ q.1.data.length ≤ cfg.maxCount) {k : Curve} {lead t : Bytes} {words : List (Bytes × Bytes)}
    (hwords : words.map Prod.fst ++ [t] = curveHeadWords k) (hseps : ∀ q ∈ words, Blank q.2 ∧ q.2 ≠ []) (hlead : Blank lead)
    {x y : Bytes} (hx' : WsHead x) (hy : WsHead y) (h : eatWhiteSpace 1 (gs x) = eatWhiteSpace 1 (gs y)) :
    loadMsh cfg (a ++ (b! "$Curves" ++ (w ++ natText N.toNat ++ (w' ++ pre.flatMap Prod.snd ++ (Spaced lead words ++ (t ++ x)))))) =
      loadMsh cfg (a ++ (b! "$Curves" ++ (w ++ natText N.toNat ++ (w' ++ pre.flatMap Prod.snd ++ (Spaced lead words ++ (t ++ y)))))) := by
  rw [← decU64_eq]
  have q : ∀ r, WsHead (w ++ decU64 N ++ r) := fun r => by rw [List.append_assoc]; exact head_blank hw _
  have nl : ∀ r t : Bytes, WsHead (w' ++ r ++ t) := fun r t => by rw [List.append_assoc]; exact head_blank hw' _
  refine loadMsh_round_congr (name := b! "Curves") ha (by decide) (q _) (q _) ?_
  rw [loadSection_curves, Rd.bind_def, Rd.bind_def]
  have e : ∀ r t, loadCurves cfg s.meshFormat s.curves (gs (w ++ decU64 N ++ (w' ++ r ++ t))) =
      (resize cfg s.curves N {} >>= fun cs => forEach (loadCurveBinary cfg) cs) (gs (w' ++ r ++ t)) := by
    intro r t
    unfold loadCurves
    rw [if_pos hx, Rd.bind_ok (extractSize_tok N w _ hw.1 (nl r t))]
    simp only [if_neg ht]
    rfl
  have ne : ∀ {x : Bytes}, WsHead x → Spaced lead words ++ (t ++ x) ≠ [] := by
    rintro x ⟨c, r, rfl, _⟩; simp
  rw [e, e]
  by_cases hm : N.toNat ≤ cfg.maxCount
  · obtain ⟨l, hl, hs⟩ := resize_any cfg s.curves N {} hm
    rw [Rd.bind_ok (hs _), Rd.bind_ok (hs _),
      forEach_pairs_at pre (fun q hq old => (hpre q hq).1.reads cfg (hpre q hq).2.1 (hpre q hq).2.2 old) (ne hx') (ne hy)
        (curve_eat cfg k hwords hseps hlead hx' hy h) l (by omega) w' hw'.1]
  · have : ∀ z, (resize cfg s.curves N ({} : Curve) >>= fun cs => forEach (loadCurveBinary cfg) cs) z = .throw .alloc := by
      intro z; simp [resize, vecResize, hm, Rd.lift, Rd.bind_def]
    rw [this, this]

theorem patches_congr (cfg : Cfg) (hx : cfg.nanospline = true) {a : Bytes} {s : MshSpec} (ha : Boundary cfg a s) (ht : s.meshFormat.fileType ≠ 0)
    {w w' : Bytes} (hw : Blank w ∧ w ≠ []) (hw' : Blank w' ∧ w' ≠ []) {N : UInt64} {pre : List (Patch × Bytes)} (hN : pre.length < N.toNat)
    (hpre : ∀ q ∈ pre, PatchText q.1 q.2 ∧ q.1.Ok ∧ q.1.data.length ≤ cfg.maxCount) {k : Patch} {lead t : Bytes} {words : List (Bytes × Bytes)}
    (hwords : words.map Prod.fst ++ [t] = patchHeadWords k) (hseps : ∀ q ∈ words, Blank q.2 ∧ q.2 ≠ []) (hlead : Blank lead)
    {x y : Bytes} (hx' : WsHead x) (hy : WsHead y) (h : eatWhiteSpace 1 (gs x) = eatWhiteSpace 1 (gs y)) :
    loadMsh cfg (a ++ (b! "$Patches" ++ (w ++ natText N.toNat ++ (w' ++ pre.flatMap Prod.snd ++ (Spaced lead words ++ (t ++ x)))))) =
      loadMsh cfg (a ++ (b! "$Patches" ++ (w ++ natText N.toNat ++ (w' ++ pre.flatMap Prod.snd ++ (Spaced lead words ++ (t ++ y)))))) := by
  rw [← decU64_eq]
  have q : ∀ r, WsHead (w ++ decU64 N ++ r) := fun r => by rw [List.append_assoc]; exact head_blank hw _
  have nl : ∀ r t : Bytes, WsHead (w' ++ r ++ t) := fun r t => by rw [List.append_assoc]; exact head_blank hw' _
  refine loadMsh_round_congr (name := b! "Patches") ha (by decide) (q _) (q _) ?_
  rw [loadSection_patches, Rd.bind_def, Rd.bind_def]
  have e : ∀ r t, loadPatches cfg s.meshFormat s.patches (gs (w ++ decU64 N ++ (w' ++ r ++ t))) =
      (resize cfg s.patches N {} >>= fun cs => forEach (loadPatchBinary cfg) cs) (gs (w' ++ r ++ t)) := by
    intro r t
    unfold loadPatches
    rw [if_pos hx, Rd.bind_ok (extractSize_tok N w _ hw.1 (nl r t))]
    simp only [if_neg ht]
    rfl
  have ne : ∀ {x : Bytes}, WsHead x → Spaced lead words ++ (t ++ x) ≠ [] := by
    rintro x ⟨c, r, rfl, _⟩; simp
  rw [e, e]
  by_cases hm : N.toNat ≤ cfg.maxCount
  · obtain ⟨l, hl, hs⟩ := resize_any cfg s.patches N {} hm
    rw [Rd.bind_ok (hs _), Rd.bind_ok (hs _),
      forEach_pairs_at pre (fun q hq old => (hpre q hq).1.reads cfg (hpre q hq).2.1 (hpre q hq).2.2 old) (ne hx') (ne hy)
        (patch_eat cfg k hwords hseps hlead hx' hy h) l (by omega) w' hw'.1]
  · have : ∀ z, (resize cfg s.patches N ({} : Patch) >>= fun cs => forEach (loadPatchBinary cfg) cs) z = .throw .alloc := by
      intro z; simp [resize, vecResize, hm, Rd.lift, Rd.bind_def]
    rw [this, this]

/-! ## The theorems -/

/-- **C57.** In builds with the extension, in a binary file, whatever was loaded before: after any number of complete curves of a section it does not matter which of
the four characters follows the head of the next curve `k`, whatever bytes come next. -/
theorem C57_curve (cfg : Cfg) (hx : cfg.nanospline = true) {a : Bytes} {s : MshSpec} (ha : Boundary cfg a s) (ht : s.meshFormat.fileType ≠ 0)
    {w w' : Bytes} (hw : Blank w ∧ w ≠ []) (hw' : Blank w' ∧ w' ≠ []) {N : UInt64} {pre : List (Curve × Bytes)} (hN : pre.length < N.toNat)
    (hpre : ∀ q ∈ pre, CurveText q.1 q.2 ∧ q.1.Ok ∧ q.1.data.length ≤ cfg.maxCount) {k : Curve} {lead t : Bytes} {words : List (Bytes × Bytes)}
    (hwords : words.map Prod.fst ++ [t] = curveHeadWords k) (hseps : ∀ q ∈ words, Blank q.2 ∧ q.2 ≠ []) (hlead : Blank lead)
    {c c' : UInt8} (hc : Skipped c) (hc' : Skipped c') (d : Bytes) :
    loadMsh cfg (a ++ (b! "$Curves" ++ (w ++ natText N.toNat ++ (w' ++ pre.flatMap Prod.snd ++ (Spaced lead words ++ (t ++ c :: d)))))) =
      loadMsh cfg (a ++ (b! "$Curves" ++ (w ++ natText N.toNat ++ (w' ++ pre.flatMap Prod.snd ++ (Spaced lead words ++ (t ++ c' :: d)))))) :=
  curves_congr cfg hx ha ht hw hw' hN hpre hwords hseps hlead ⟨c, d, rfl, hc.space⟩ ⟨c', d, rfl, hc'.space⟩ (by rw [eat_payload hc.eat, eat_payload hc'.eat])

/-- **C57.** After the head of a curve, too, a vertical tab or form feed is the first byte of the data. -/
theorem C57_curve_kept (cfg : Cfg) (hx : cfg.nanospline = true) {a : Bytes} {s : MshSpec} (ha : Boundary cfg a s) (ht : s.meshFormat.fileType ≠ 0)
    {w w' : Bytes} (hw : Blank w ∧ w ≠ []) (hw' : Blank w' ∧ w' ≠ []) {N : UInt64} {pre : List (Curve × Bytes)} (hN : pre.length < N.toNat)
    (hpre : ∀ q ∈ pre, CurveText q.1 q.2 ∧ q.1.Ok ∧ q.1.data.length ≤ cfg.maxCount) {k : Curve} {lead t : Bytes} {words : List (Bytes × Bytes)}
    (hwords : words.map Prod.fst ++ [t] = curveHeadWords k) (hseps : ∀ q ∈ words, Blank q.2 ∧ q.2 ≠ []) (hlead : Blank lead)
    {c v : UInt8} (hc : Skipped c) (hk : Kept v) (d : Bytes) :
    loadMsh cfg (a ++ (b! "$Curves" ++ (w ++ natText N.toNat ++ (w' ++ pre.flatMap Prod.snd ++ (Spaced lead words ++ (t ++ v :: d)))))) =
      loadMsh cfg (a ++ (b! "$Curves" ++ (w ++ natText N.toNat ++ (w' ++ pre.flatMap Prod.snd ++ (Spaced lead words ++ (t ++ c :: v :: d)))))) :=
  curves_congr cfg hx ha ht hw hw' hN hpre hwords hseps hlead ⟨v, d, rfl, hk.space⟩ ⟨c, _, rfl, hc.space⟩ (by rw [eat_payload hc.eat, hk.eat])

/-- **C57.** In builds with the extension, in a binary file, whatever was loaded before: after any number of complete patches of a section it does not matter which of
the four characters follows the head of the next patch `k`, whatever bytes come next. -/
theorem C57_patch (cfg : Cfg) (hx : cfg.nanospline = true) {a : Bytes} {s : MshSpec} (ha : Boundary cfg a s) (ht : s.meshFormat.fileType ≠ 0)
    {w w' : Bytes} (hw : Blank w ∧ w ≠ []) (hw' : Blank w' ∧ w' ≠ []) {N : UInt64} {pre : List (Patch × Bytes)} (hN : pre.length < N.toNat)
    (hpre : ∀ q ∈ pre, PatchText q.1 q.2 ∧ q.1.Ok ∧ q.1.data.length ≤ cfg.maxCount) {k : Patch} {lead t : Bytes} {words : List (Bytes × Bytes)}
    (hwords : words.map Prod.fst ++ [t] = patchHeadWords k) (hseps : ∀ q ∈ words, Blank q.2 ∧ q.2 ≠ []) (hlead : Blank lead)
    {c c' : UInt8} (hc : Skipped c) (hc' : Skipped c') (d : Bytes) :
    loadMsh cfg (a ++ (b! "$Patches" ++ (w ++ natText N.toNat ++ (w' ++ pre.flatMap Prod.snd ++ (Spaced lead words ++ (t ++ c :: d)))))) =
      loadMsh cfg (a ++ (b! "$Patches" ++ (w ++ natText N.toNat ++ (w' ++ pre.flatMap Prod.snd ++ (Spaced lead words ++ (t ++ c' :: d)))))) :=
  patches_congr cfg hx ha ht hw hw' hN hpre hwords hseps hlead ⟨c, d, rfl, hc.space⟩ ⟨c', d, rfl, hc'.space⟩ (by rw [eat_payload hc.eat, eat_payload hc'.eat])

/-- **C57.** After the head of a patch, too, a vertical tab or form feed is the first byte of the data. -/
theorem C57_patch_kept (cfg : Cfg) (hx : cfg.nanospline = true) {a : Bytes} {s : MshSpec} (ha : Boundary cfg a s) (ht : s.meshFormat.fileType ≠ 0)
    {w w' : Bytes} (hw : Blank w ∧ w ≠ []) (hw' : Blank w' ∧ w' ≠ []) {N : UInt64} {pre : List (Patch × Bytes)} (hN : pre.length < N.toNat)
    (hpre : ∀ q ∈ pre, PatchText q.1 q.2 ∧ q.1.Ok ∧ q.1.data.length ≤ cfg.maxCount) {k : Patch} {lead t : Bytes} {words : List (Bytes × Bytes)}
    (hwords : words.map Prod.fst ++ [t] = patchHeadWords k) (hseps : ∀ q ∈ words, Blank q.2 ∧ q.2 ≠ []) (hlead : Blank lead)
    {c v : UInt8} (hc : Skipped c) (hk : Kept v) (d : Bytes) :
    loadMsh cfg (a ++ (b! "$Patches" ++ (w ++ natText N.toNat ++ (w' ++ pre.flatMap Prod.snd ++ (Spaced lead words ++ (t ++ v :: d)))))) =
      loadMsh cfg (a ++ (b! "$Patches" ++ (w ++ natText N.toNat ++ (w' ++ pre.flatMap Prod.snd ++ (Spaced lead words ++ (t ++ c :: v :: d)))))) :=
  patches_congr cfg hx ha ht hw hw' hN hpre hwords hseps hlead ⟨v, d, rfl, hk.space⟩ ⟨c, _, rfl, hc.space⟩ (by rw [eat_payload hc.eat, hk.eat])

/-- **C57**, exactly one character: in builds with the extension a binary `$Curves` section whose members have any white space between the words of their heads and
any of the four characters after them is read exactly, even where the numbers begin with such a byte: whatever was loaded before, the curves are those of the section, and the rest of the file
follows. -/
theorem C57_curves_read (cfg : Cfg) (hx : cfg.nanospline = true) {a : Bytes} {s : MshSpec} (ha : Boundary cfg a s) (ht : s.meshFormat.fileType ≠ 0)
    (ks : List (Curve × Bytes)) (hks : ∀ q ∈ ks, CurveText q.1 q.2 ∧ q.1.Ok ∧ q.1.data.length ≤ cfg.maxCount)
    (hm : ks.length ≤ cfg.maxCount) {w w' gap tail : Bytes} (hw : Blank w ∧ w ≠ []) (hw' : Blank w' ∧ w' ≠ []) (hgap : Blank gap)
    (htail : Blank tail ∧ tail ≠ []) :
    Boundary cfg (a ++ (b! "$Curves" ++ (w ++ natText ks.length ++ (w' ++ ks.flatMap Prod.snd ++ (gap ++ b! "$EndCurves" ++ tail)))))
      { s with curves := ks.map Prod.fst } := by
  have hlt := cfg.maxCount_lt
  have hn : natText ks.length = decU64 (UInt64.ofNat ks.length) := by rw [decU64_eq, ofNat_toNat_lt (by omega)]
  refine ha.section (name := b! "Curves") ⟨⟨_, rfl, by rw [List.append_assoc]; exact head_blank hw _⟩, by decide, tail, htail.1, rfl, ?_⟩
  have hd : Rds (loadSection cfg (36 :: b! "Curves") s) (w ++ natText ks.length ++ (w' ++ ks.flatMap Prod.snd ++ gap)) { s with curves := ks.map Prod.fst } := by
    intro rest hr
    obtain ⟨l, hl, hs⟩ := resize_any cfg s.curves (UInt64.ofNat ks.length) {} (by rw [ofNat_toNat_lt (by omega)]; exact hm)
    rw [ofNat_toNat_lt (by omega)] at hl
    obtain ⟨v, hv, e⟩ := forEach_pairs (p := loadCurveBinary cfg) ks (fun q hq old => (hks q hq).1.reads cfg (hks q hq).2.1 (hks q hq).2.2 old) hgap l hl w' rest hw'.1 hr
    refine ⟨v, hv, ?_⟩
    have key : loadCurves cfg s.meshFormat s.curves (gs (w ++ natText ks.length ++ (w' ++ ks.flatMap Prod.snd ++ gap) ++ rest)) = .ok (ks.map Prod.fst, gs (v ++ rest)) := by
      unfold loadCurves
      rw [if_pos hx, hn, List.append_assoc (w ++ _), Rd.bind_ok (extractSize_tok _ w _ hw.1 (by simp only [List.append_assoc]; exact head_blank hw' _))]
      simp only [if_neg ht]
      show (resize cfg s.curves (UInt64.ofNat ks.length) {} >>= fun cs => forEach (loadCurveBinary cfg) cs) _ = _
      rw [Rd.bind_ok (hs _)]
      exact e
    rw [loadSection_curves, Rd.bind_ok key]
    rfl
  have hb : WsHead (w ++ natText ks.length ++ (w' ++ ks.flatMap Prod.snd ++ gap) ++ endTag (b! "Curves") ++ tail) := by
    simp only [List.append_assoc]; exact head_blank hw _
  have := loadRound_section (cfg := cfg) (spec := s) (rest := tail) (w := []) (by decide) hb (Sep.head htail) Ws.nil hd
  refine Eq.trans (congrArg _ (congrArg gs ?_)) this
  simp [endTag]

/-- **C57**, exactly one character: in builds with the extension a binary `$Patches` section whose members have any white space between the words of their heads and
any of the four characters after them is read exactly, even where the numbers begin with such a byte: whatever was loaded before, the patches are those of the section, and the rest of the file
follows. -/
theorem C57_patches_read (cfg : Cfg) (hx : cfg.nanospline = true) {a : Bytes} {s : MshSpec} (ha : Boundary cfg a s) (ht : s.meshFormat.fileType ≠ 0)
    (ks : List (Patch × Bytes)) (hks : ∀ q ∈ ks, PatchText q.1 q.2 ∧ q.1.Ok ∧ q.1.data.length ≤ cfg.maxCount)
    (hm : ks.length ≤ cfg.maxCount) {w w' gap tail : Bytes} (hw : Blank w ∧ w ≠ []) (hw' : Blank w' ∧ w' ≠ []) (hgap : Blank gap)
    (htail : Blank tail ∧ tail ≠ []) :
    Boundary cfg (a ++ (b! "$Patches" ++ (w ++ natText ks.length ++ (w' ++ ks.flatMap Prod.snd ++ (gap ++ b! "$EndPatches" ++ tail)))))
      { s with patches := ks.map Prod.fst } := by
  have hlt := cfg.maxCount_lt
  have hn : natText ks.length = decU64 (UInt64.ofNat ks.length) := by rw [decU64_eq, ofNat_toNat_lt (by omega)]
  refine ha.section (name := b! "Patches") ⟨⟨_, rfl, by rw [List.append_assoc]; exact head_blank hw _⟩, by decide, tail, htail.1, rfl, ?_⟩
  have hd : Rds (loadSection cfg (36 :: b! "Patches") s) (w ++ natText ks.length ++ (w' ++ ks.flatMap Prod.snd ++ gap)) { s with patches := ks.map Prod.fst } := by
    intro rest hr
    obtain ⟨l, hl, hs⟩ := resize_any cfg s.patches (UInt64.ofNat ks.length) {} (by rw [ofNat_toNat_lt (by omega)]; exact hm)
    rw [ofNat_toNat_lt (by omega)] at hl
    obtain ⟨v, hv, e⟩ := forEach_pairs (p := loadPatchBinary cfg) ks (fun q hq old => (hks q hq).1.reads cfg (hks q hq).2.1 (hks q hq).2.2 old) hgap l hl w' rest hw'.1 hr
    refine ⟨v, hv, ?_⟩
    have key : loadPatches cfg s.meshFormat s.patches (gs (w ++ natText ks.length ++ (w' ++ ks.flatMap Prod.snd ++ gap) ++ rest)) = .ok (ks.map Prod.fst, gs (v ++ rest)) := by
      unfold loadPatches
      rw [if_pos hx, hn, List.append_assoc (w ++ _), Rd.bind_ok (extractSize_tok _ w _ hw.1 (by simp only [List.append_assoc]; exact head_blank hw' _))]
      simp only [if_neg ht]
      show (resize cfg s.patches (UInt64.ofNat ks.length) {} >>= fun cs => forEach (loadPatchBinary cfg) cs) _ = _
      rw [Rd.bind_ok (hs _)]
      exact e
    rw [loadSection_patches, Rd.bind_ok key]
    rfl
  have hb : WsHead (w ++ natText ks.length ++ (w' ++ ks.flatMap Prod.snd ++ gap) ++ endTag (b! "Patches") ++ tail) := by
    simp only [List.append_assoc]; exact head_blank hw _
  have := loadRound_section (cfg := cfg) (spec := s) (rest := tail) (w := []) (by decide) hb (Sep.head htail) Ws.nil hd
  refine Eq.trans (congrArg _ (congrArg gs ?_)) this
  simp [endTag]

/-! ## The cases above occur -/

/-- A curve with one control point and one knot, and a patch with one control point and a knot in each direction. -/
def whiteCurve : Curve := { curveTag := 4, curveType := 1, curveDegree := 2, numControlPoints := 1, numKnots := 1, withWeights := 0, data := [⟨10⟩, ⟨2⟩, ⟨3⟩, ⟨4⟩] }

def whitePatch : Patch :=
  { patchTag := 4, patchType := 1, degreeU := 2, degreeV := 3, numControlPoints := 1, numUKnots := 1, numVKnots := 1, withWeights := 0,
    data := [⟨10⟩, ⟨2⟩, ⟨3⟩, ⟨4⟩, ⟨5⟩] }

/-- The curve as in a file, its head followed by a tab. -/
def whiteCurveText : Bytes := Spaced [] [(b! "4", b! " "), (b! "1", b! " "), (b! "2", b! "\n"), (b! "1", b! " "), (b! "1", b! " ")] ++ (b! "0" ++ 9 :: whiteCurve.data.flatMap leDouble)

theorem whiteCurveText_is : CurveText whiteCurve whiteCurveText :=
  ⟨[], b! "0", [(b! "4", b! " "), (b! "1", b! " "), (b! "2", b! "\n"), (b! "1", b! " "), (b! "1", b! " ")], 9, by decide +kernel, by unfold Blank; decide, by unfold Blank; decide, Or.inr (Or.inr (Or.inr rfl)), rfl⟩

/-- The patch as in a file, its head followed by a tab. -/
def whitePatchText : Bytes := Spaced [] [(b! "4", b! " "), (b! "1", b! " "), (b! "2", b! "\n"), (b! "3", b! " "), (b! "1", b! " "), (b! "1", b! " "), (b! "1", b! " ")] ++ (b! "0" ++ 9 :: whitePatch.data.flatMap leDouble)

theorem whitePatchText_is : PatchText whitePatch whitePatchText :=
  ⟨[], b! "0", [(b! "4", b! " "), (b! "1", b! " "), (b! "2", b! "\n"), (b! "3", b! " "), (b! "1", b! " "), (b! "1", b! " "), (b! "1", b! " ")], 9, by decide +kernel, by unfold Blank; decide, by unfold Blank; decide, Or.inr (Or.inr (Or.inr rfl)), rfl⟩

/-- Two curves, the head of the second followed by `c`. -/
def twoCurves (c : UInt8) : Bytes :=
  hdr22b ++ (b! "$Curves" ++ (b! "\n" ++ natText (2 : UInt64).toNat ++ (b! "\n" ++ [(whiteCurve, whiteCurveText)].flatMap Prod.snd ++
    (Spaced (b! "\n") [(b! "4", b! " "), (b! "1", b! "\n\t"), (b! "2", b! "\r\n"), (b! "1", b! " "), (b! "1", b! " ")] ++ (b! "0" ++ c :: (whiteCurve.data.flatMap leDouble ++ b! "\n$EndCurves\n"))))))

/-- Two patches, the head of the second followed by `c`. -/
def twoPatches (c : UInt8) : Bytes :=
  hdr22b ++ (b! "$Patches" ++ (b! "\n" ++ natText (2 : UInt64).toNat ++ (b! "\n" ++ [(whitePatch, whitePatchText)].flatMap Prod.snd ++
    (Spaced (b! "\n") [(b! "4", b! " "), (b! "1", b! "\n\t"), (b! "2", b! "\r\n"), (b! "3", b! " "), (b! "1", b! " "), (b! "1", b! " "), (b! "1", b! " ")] ++ (b! "0" ++ c :: (whitePatch.data.flatMap leDouble ++ b! "\n$EndPatches\n"))))))

/-- With any of the four characters the curves are there. -/
example {c : UInt8} (hc : Skipped c) : loadMsh demoExt (twoCurves c) = .ok { meshFormat := ⟨b! "2.2", 1, 8⟩, curves := [whiteCurve, whiteCurve] } :=
  (C57_curve demoExt rfl (boundary_binary22 _) (by decide) ⟨by unfold Blank; decide, by decide⟩ ⟨by unfold Blank; decide, by decide⟩ (pre := [(whiteCurve, whiteCurveText)]) (by decide)
    (by intro q hq; rw [List.mem_singleton] at hq; subst hq; exact ⟨whiteCurveText_is, rfl, by show 4 ≤ 1000000; decide⟩) (k := whiteCurve)
    (by decide +kernel) (by unfold Blank; decide) (by unfold Blank; decide) hc (Or.inl rfl : Skipped 10) _).trans (by decide +kernel)

/-- With any of the four characters the patches are there. -/
example {c : UInt8} (hc : Skipped c) : loadMsh demoExt (twoPatches c) = .ok { meshFormat := ⟨b! "2.2", 1, 8⟩, patches := [whitePatch, whitePatch] } :=
  (C57_patch demoExt rfl (boundary_binary22 _) (by decide) ⟨by unfold Blank; decide, by decide⟩ ⟨by unfold Blank; decide, by decide⟩ (pre := [(whitePatch, whitePatchText)]) (by decide)
    (by intro q hq; rw [List.mem_singleton] at hq; subst hq; exact ⟨whitePatchText_is, rfl, by show 5 ≤ 1000000; decide⟩) (k := whitePatch)
    (by decide +kernel) (by unfold Blank; decide) (by unfold Blank; decide) hc (Or.inl rfl : Skipped 10) _).trans (by decide +kernel)

/-- A vertical tab shifts the numbers of the second curve by one byte. -/
example : (match loadMsh demoExt (twoCurves 11) with
    | .ok s => s.curves.map (·.data) == [whiteCurve.data, [⟨0xa0b⟩, ⟨0x200⟩, ⟨0x300⟩, ⟨0x400⟩]]
    | _ => false) = true := by decide +kernel

/-- Two curves, the head of one followed by a line feed, of the other by a tab; their numbers begin with a line feed. -/
def whiteCurves (lead : Bytes) : List (Curve × Bytes) :=
  [(whiteCurve, Spaced lead [(b! "4", b! " "), (b! "1", b! " "), (b! "2", b! "\n"), (b! "1", b! " "), (b! "1", b! "\t")] ++
      (b! "0" ++ 10 :: whiteCurve.data.flatMap leDouble)),
    (whiteCurve, Spaced [] [(b! "4", b! " "), (b! "1", b! " "), (b! "2", b! " "), (b! "1", b! " "), (b! "1", b! " ")] ++
      (b! "0" ++ 9 :: whiteCurve.data.flatMap leDouble))]

example {lead : Bytes} (hl : Blank lead) :
    Boundary demoExt (hdr22b ++ (b! "$Curves" ++ (b! "\n" ++ natText (whiteCurves lead).length ++ (b! "\r\n" ++ (whiteCurves lead).flatMap Prod.snd ++
      ([] ++ b! "$EndCurves" ++ b! "\n")))))
    { meshFormat := ⟨b! "2.2", 1, 8⟩, curves := (whiteCurves lead).map Prod.fst } := by
  refine C57_curves_read demoExt rfl (boundary_binary22 _) (by decide) (whiteCurves lead) ?_ (by show 2 ≤ 1000000; decide) ⟨by unfold Blank; decide, by decide⟩
    ⟨by unfold Blank; decide, by decide⟩ (by unfold Blank; decide) ⟨by unfold Blank; decide, by decide⟩
  intro q hq
  simp only [whiteCurves, List.mem_cons, List.not_mem_nil, or_false] at hq
  rcases hq with rfl | rfl
  · exact ⟨⟨lead, b! "0", [(b! "4", b! " "), (b! "1", b! " "), (b! "2", b! "\n"), (b! "1", b! " "), (b! "1", b! "\t")], 10,
      (by decide +kernel : _ = curveHeadWords whiteCurve),
      by unfold Blank; decide, hl, Or.inl rfl, rfl⟩, rfl, by show 4 ≤ 1000000; decide⟩
  · exact ⟨⟨[], b! "0", [(b! "4", b! " "), (b! "1", b! " "), (b! "2", b! " "), (b! "1", b! " "), (b! "1", b! " ")], 9, by decide +kernel,
      by unfold Blank; decide, by unfold Blank; decide, Or.inr (Or.inr (Or.inr rfl)), rfl⟩, rfl, by show 4 ≤ 1000000; decide⟩

/-- A patch, its head followed by a space. -/
def whitePatches : List (Patch × Bytes) :=
  [(whitePatch, Spaced [] [(b! "4", b! " "), (b! "1", b! " "), (b! "2", b! "\n"), (b! "3", b! " "), (b! "1", b! " "), (b! "1", b! " "), (b! "1", b! "\t")] ++
      (b! "0" ++ 32 :: whitePatch.data.flatMap leDouble))]

example : Boundary demoExt (hdr22b ++ (b! "$Patches" ++ (b! "\n" ++ natText whitePatches.length ++ (b! "\n" ++ whitePatches.flatMap Prod.snd ++
      (b! "\n" ++ b! "$EndPatches" ++ b! "\n")))))
    { meshFormat := ⟨b! "2.2", 1, 8⟩, patches := whitePatches.map Prod.fst } := by
  refine C57_patches_read demoExt rfl (boundary_binary22 _) (by decide) whitePatches ?_ (by show 1 ≤ 1000000; decide) ⟨by unfold Blank; decide, by decide⟩
    ⟨by unfold Blank; decide, by decide⟩ (by unfold Blank; decide) ⟨by unfold Blank; decide, by decide⟩
  intro q hq
  simp only [whitePatches, List.mem_cons, List.not_mem_nil, or_false] at hq
  subst hq
  exact ⟨⟨[], b! "0", [(b! "4", b! " "), (b! "1", b! " "), (b! "2", b! "\n"), (b! "3", b! " "), (b! "1", b! " "), (b! "1", b! " "), (b! "1", b! "\t")], 32,
    by decide +kernel, by unfold Blank; decide, by unfold Blank; decide, Or.inr (Or.inr (Or.inl rfl)), rfl⟩, rfl, by show 5 ≤ 1000000; decide⟩

end MshIO
