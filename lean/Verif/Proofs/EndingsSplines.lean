import Verif.Proofs.EndingsElements

/-! # How reading a section ends: curves and patches, and the format -/

namespace MshIO

variable {α β : Type} {k : Ending}

/-! ## Streams that may not know yet that they are at the end -/

/-- As `EndsAt`, for a stream that may not know whether it is at the end of the file. -/
def EndsFrom (k : Ending) (m : Rd α) (x : Place) (Q : Prop) : Prop := ∀ st, Cur x st → (k.Of (m st) ↔ Q)

theorem EndsFrom.at {m : Rd α} {x : Place} {Q : Prop} (h : EndsFrom k m x Q) : EndsAt k m x Q := fun st hs => h st hs.cur

theorem EndsFrom.iff {m : Rd α} {x : Place} {Q Q' : Prop} (h : EndsFrom k m x Q) (e : Q ↔ Q') : EndsFrom k m x Q' := fun st hs => (h st hs).trans e

theorem EndsFrom.pure (a : α) (x : Place) : EndsFrom k (Pure.pure a : Rd α) x (ReadTo k x) := fun st hs => by
  show k.Of (.ok (a, st)) ↔ _
  rw [Ending.ok, at_stuck hs]
  rfl

theorem EndsFrom.yields {m : Rd α} {R : Place → α → Place → Prop} (hm : Yields m R) {f : α → Rd β} {x : Place} {Q : α → Place → Prop}
    (h : ∀ v y, R x v y → EndsFrom k (f v) y (Q v y)) : EndsFrom k (m >>= f) x (∃ v y, R x v y ∧ Q v y) := by
  intro st hs
  constructor
  · intro hu
    obtain ⟨v, y, hr⟩ := hm.total x
    obtain ⟨st', e, hs'⟩ := hm.sound hr hs
    rw [Rd.bind_ok e] at hu
    exact ⟨v, y, hr, (h v y hr st' hs'.cur).mp hu⟩
  · rintro ⟨v, y, hr, hq⟩
    obtain ⟨st', e, hs'⟩ := hm.sound hr hs
    rw [Rd.bind_ok e]
    exact (h v y hr st' hs'.cur).mpr hq

/-- The last number of a head is followed by something that asks what comes next. -/
theorem EndsFrom.then {m : Rd α} {R : Place → α → Place → Prop} (hm : Yields m R) {f : α → Rd β} {x : Place} {Q : α → Place → Prop}
    (h : ∀ v y, R x v y → EndsAt k (f v) y (Q v y)) : EndsFrom k (m >>= f) x (∃ v y, R x v y ∧ Q v y) := by
  intro st hs
  constructor
  · intro hu
    obtain ⟨v, y, hr⟩ := hm.total x
    obtain ⟨st', e, hs'⟩ := hm.sound hr hs
    rw [Rd.bind_ok e] at hu
    exact ⟨v, y, hr, (h v y hr st' hs').mp hu⟩
  · rintro ⟨v, y, hr, hq⟩
    obtain ⟨st', e, hs'⟩ := hm.sound hr hs
    rw [Rd.bind_ok e]
    exact (h v y hr st' hs').mpr hq

theorem EndsFrom.forEach {f : α → Rd α} (T : α → (Place → Prop) → Place → Prop)
    (h : ∀ b (K : α → Rd (List α)) Q x, (∀ b' y, EndsFrom k (K b') y (Q y)) → EndsFrom k (f b >>= K) x (T b Q x)) (P : List α → Place → Prop) (h0 : ∀ x, ReadTo k x ↔ P [] x)
    (h1 : ∀ b bs x, T b (P bs) x ↔ P (b :: bs) x) : ∀ l x, EndsFrom k (MshIO.forEach f l) x (P l x)
  | [], x => (EndsFrom.pure [] x).iff (h0 x)
  | b :: bs, x => by
    unfold MshIO.forEach
    refine (h b _ (P bs) x fun b' y => ?_).iff (h1 b bs x)
    intro st hs
    exact (ends_bind (fun _ _ => ⟨_, rfl⟩)).trans (EndsFrom.forEach T h P h0 h1 bs y st hs)

/-! ## Values -/

theorem readDoubles_state (v : List Double) (st : Stream) : ∃ l, readDoubles v st = .ok (l, if st.good then after (8 * v.length) st.rem else { st with fail := true }) := by
  have hl : ∀ v : List Double, (v.flatMap fun d => encU64 d.bits).length = 8 * v.length := fun v => by
    induction v with
    | nil => rfl
    | cons a v ih => rw [List.flatMap_cons, List.length_append, ih]; simp; omega
  unfold readDoubles
  rw [Rd.bind_def]
  unfold readRaw after
  by_cases hg : st.good = true
  · simp only [hg, if_true]
    by_cases h : 8 * v.length ≤ st.rem.length
    · rw [hl, if_pos h, if_pos h]; exact ⟨_, rfl⟩
    · rw [hl, if_neg h, if_neg h]; exact ⟨_, rfl⟩
  · simp only [hg]; exact ⟨_, rfl⟩

theorem skipsData_total (n : Nat) (x : Place) : ∃ z, SkipsData n x z := by
  cases x with
  | on r =>
    obtain ⟨d, hd⟩ := dataAfter_exists r
    by_cases h : d ≠ [] ∧ 8 * n ≤ d.length
    · exact ⟨_, d, hd, by rw [if_pos h]⟩
    · exact ⟨_, d, hd, by rw [if_neg h]⟩
  | stuck => exact ⟨_, rfl⟩
  | ended => exact ⟨_, rfl⟩

theorem eat_then_read {x z : Place} (v : List Double) (h : SkipsData v.length x z) {st : Stream} (hs : At x st) :
    ∃ st', eatWhiteSpace 1 st = .ok ((), st') ∧ ∃ l st'', readDoubles v st' = .ok (l, st'') ∧ Cur z st'' := by
  have lost : st.good = false → eatWhiteSpace 1 st = .ok ((), { st with fail := true }) := fun hg => by unfold eatWhiteSpace; rw [hg]; rfl
  cases x with
  | stuck =>
    cases h
    refine ⟨_, lost (by simp [Stream.good, hs.1]), ?_⟩
    obtain ⟨l, e⟩ := readDoubles_state v { st with fail := true }
    exact ⟨l, _, e, by simp [Stream.good, Cur, hs.2]⟩
  | ended =>
    cases h
    refine ⟨_, lost (by simp [Stream.good, hs.1]), ?_⟩
    obtain ⟨l, e⟩ := readDoubles_state v { st with fail := true }
    exact ⟨l, _, e, by simp [Stream.good, Cur, hs.2]⟩
  | on r =>
    obtain ⟨d, hd, hz⟩ := h
    obtain ⟨st', e, hs'⟩ := eat_from (y := .on r) hd hs
    have hst := eat_stuck hs e
    obtain ⟨l, e'⟩ := readDoubles_state v st'
    refine ⟨st', e, l, _, e', ?_⟩
    rcases hs' with ⟨hne, rfl⟩ | ⟨rfl, hg⟩
    · rw [if_pos (show (gs d).good = true from rfl)]
      unfold after
      by_cases h8 : 8 * v.length ≤ d.length
      · rw [if_pos ⟨hne, h8⟩] at hz
        rw [hz, if_pos h8]
        exact ⟨rfl, rfl, fun h => by cases h⟩
      · rw [if_neg fun h => h8 h.2] at hz
        rw [hz, if_neg h8]
        exact ⟨rfl, rfl⟩
    · rw [if_neg (fun h => h.1 rfl)] at hz
      rw [hz, if_neg (by rw [hg]; simp)]
      refine ⟨rfl, ?_⟩
      cases he : st'.eof with
      | true => rfl
      | false =>
        have hf : st'.fail = true := by
          cases hf : st'.fail with
          | true => rfl
          | false => simp [Stream.good, he, hf] at hg
        have := hst.mp ⟨hf, he⟩
        cases this

theorem skipsData_unique {n : Nat} {x z z' : Place} (h : SkipsData n x z) (h' : SkipsData n x z') : z = z' := by
  cases x with
  | on r =>
    obtain ⟨d, hd, hz⟩ := h
    obtain ⟨d', hd', hz'⟩ := h'
    have : d = d' := by
      rcases hd with ⟨c, rfl, hc⟩ | ⟨rfl, hc⟩ <;> rcases hd' with ⟨c', e, hc'⟩ | ⟨e, hc'⟩
      · cases e; rfl
      · exact absurd hc (hc' c rfl)
      · subst e; exact absurd hc' (hc c' rfl)
      · exact e.symm
    subst this
    by_cases h : d ≠ [] ∧ 8 * n ≤ d.length
    · rw [if_pos h] at hz hz'; rw [hz, hz']
    · rw [if_neg h] at hz hz'; rw [hz, hz']
  | stuck => exact Eq.trans h h'.symm
  | ended => exact Eq.trans h h'.symm

/-- Values in text. -/
theorem ends_valuesText (cfg : Cfg) {v : List Double} {n : UInt64} {N : Nat} (hN : n.toNat = N) {text : Prop} (ht : text) {K : List Double → Rd α} {x : Place} {Q : Place → Prop}
    (hK : ∀ l y, EndsFrom k (K l) y (Q y)) :
    EndsAt k (MshIO.resize cfg v n Double.zero >>= fun data => forEach inDouble data >>= K) x (N ≤ cfg.maxCount ∧ ∃ z, SkipsDoubles text N x z ∧ Q z) := by
  subst hN
  refine (EndsAt.resize fun _ => EndsAt.passes (forEach_many inDouble_passes real_total (resized_length ..)) fun l y => (hK l y).at).iff ?_
  refine and_congr_right fun _ => exists_congr fun z => and_congr_left fun _ => ?_
  exact ⟨fun h => Or.inl ⟨ht, h⟩, fun h => h.elim (fun h => h.2) fun h => absurd ht h.1⟩

theorem ends_read (v : List Double) {K : List Double → Rd α} {x : Place} {Q : Place → Prop} (hK : ∀ l y, EndsFrom k (K l) y (Q y)) :
    EndsAt k (eatWhiteSpace 1 >>= fun _ => readDoubles v >>= K) x (∃ z, SkipsData v.length x z ∧ Q z) := by
  intro st hs
  obtain ⟨z, hz⟩ := skipsData_total v.length x
  obtain ⟨st', e1, l, st'', e2, hc⟩ := eat_then_read v hz hs
  rw [Rd.bind_ok e1, Rd.bind_ok e2, hK l z st'' hc]
  exact ⟨fun h => ⟨z, hz, h⟩, fun ⟨z', h, h'⟩ => skipsData_unique hz h ▸ h'⟩

/-- Values in binary. -/
theorem ends_valuesBinary (cfg : Cfg) {v : List Double} {n : UInt64} {N : Nat} (hN : n.toNat = N) {text : Prop} (ht : ¬ text) {K : List Double → Rd α} {x : Place} {Q : Place → Prop}
    (hK : ∀ l y, EndsFrom k (K l) y (Q y)) :
    EndsAt k (MshIO.resize cfg v n Double.zero >>= fun data => eatWhiteSpace 1 >>= fun _ => readDoubles data >>= K) x (N ≤ cfg.maxCount ∧ ∃ z, SkipsDoubles text N x z ∧ Q z) := by
  subst hN
  refine (EndsAt.resize fun _ => ends_read _ hK).iff ?_
  rw [resized_length]
  refine and_congr_right fun _ => exists_congr fun z => and_congr_left fun _ => ?_
  exact ⟨fun h => Or.inr ⟨ht, h⟩, fun h => h.elim (fun h => absurd h.1 ht) fun h => h.2⟩

theorem swap_resize (cfg : Cfg) (v : List Double) (n : UInt64) (K : List Double → Rd α) (st : Stream) :
    k.Of ((eatWhiteSpace 1 >>= fun _ => MshIO.resize cfg v n Double.zero >>= K) st) ↔
      k.Of ((MshIO.resize cfg v n Double.zero >>= fun data => eatWhiteSpace 1 >>= fun _ => K data) st) := by
  obtain ⟨st', e⟩ : ∃ st', eatWhiteSpace 1 st = .ok ((), st') := by
    unfold eatWhiteSpace
    split <;> exact ⟨_, rfl⟩
  rw [Rd.bind_ok e]
  by_cases hn : n.toNat ≤ cfg.maxCount
  · have : ∀ st, MshIO.resize cfg v n Double.zero st = .ok (v.take n.toNat ++ List.replicate (n.toNat - v.length) Double.zero, st) := fun st => by
      unfold MshIO.resize vecResize; rw [if_pos hn]; rfl
    rw [Rd.bind_ok (this st'), Rd.bind_ok (this st), Rd.bind_ok e]
  · have : ∀ st, MshIO.resize cfg v n Double.zero st = .throw .alloc := fun st => by
      unfold MshIO.resize vecResize; rw [if_neg hn]; rfl
    rw [Rd.bind_throw (this st'), Rd.bind_throw (this st)]

theorem spline_entries (a w n : UInt64) : (a * (if 0 < w then 4 else 3) + n).toNat = splineSize a.toNat w.toNat n.toNat := by
  unfold splineSize
  have : (0 < w) ↔ 0 < w.toNat := by rw [UInt64.lt_iff_toNat_lt]; rfl
  by_cases h : 0 < w
  · rw [if_pos h, if_pos (this.mp h), UInt64.toNat_add, UInt64.toNat_mul]
    show (a.toNat * 4 % 2 ^ 64 + n.toNat) % 2 ^ 64 = _
    omega
  · rw [if_neg h, if_neg (fun h' => h (this.mpr h')), UInt64.toNat_add, UInt64.toNat_mul]
    show (a.toNat * 3 % 2 ^ 64 + n.toNat) % 2 ^ 64 = _
    omega

theorem spline_entries2 (a w n m : UInt64) : (a * (if 0 < w then 4 else 3) + n + m).toNat = splineSize a.toNat w.toNat (n.toNat + m.toNat) := by
  rw [UInt64.toNat_add, spline_entries]
  unfold splineSize
  omega

/-! ## Curves and patches -/

theorem ends_curve (cfg : Cfg) (text : Prop) [Decidable text] (c : Curve) (K : Curve → Rd α) (Q : Place → Prop) (x : Place) (hK : ∀ c y, EndsFrom k (K c) y (Q y)) :
    EndsFrom k ((if text then loadCurveAscii cfg c else loadCurveBinary cfg c) >>= K) x (∃ tag type degree points knots weights y y',
      TakesSizesOver [c.curveTag, c.curveType, c.curveDegree, c.numControlPoints, c.numKnots, c.withWeights] x [tag, type, degree, points, knots, weights] y ∧
      splineSize points.toNat weights.toNat knots.toNat ≤ cfg.maxCount ∧ SkipsDoubles text (splineSize points.toNat weights.toNat knots.toNat) y y' ∧ Q y') := by
  have hE : EndsFrom k ((if text then loadCurveAscii cfg c else loadCurveBinary cfg c) >>= K) x (∃ a x1, (∃ v, TakesSize x v x1 ∧ a = v.getD c.curveTag) ∧
      ∃ b x2, (∃ v, TakesSize x1 v x2 ∧ b = v.getD c.curveType) ∧ ∃ d x3, (∃ v, TakesSize x2 v x3 ∧ d = v.getD c.curveDegree) ∧
      ∃ e x4, (∃ v, TakesSize x3 v x4 ∧ e = v.getD c.numControlPoints) ∧ ∃ f x5, (∃ v, TakesSize x4 v x5 ∧ f = v.getD c.numKnots) ∧
      ∃ g y, (∃ v, TakesSize x5 v y ∧ g = v.getD c.withWeights) ∧
      splineSize e.toNat g.toNat f.toNat ≤ cfg.maxCount ∧ ∃ z, SkipsDoubles text (splineSize e.toNat g.toNat f.toNat) y z ∧ Q z) := by
    by_cases ht : text
    · rw [if_pos ht]
      unfold loadCurveAscii loadCurveHeader
      simp only [Rd.bind_assoc, Rd.pure_bind]
      exact EndsFrom.yields (inSize_yields _) fun a x1 _ => EndsFrom.yields (inSize_yields _) fun b x2 _ => EndsFrom.yields (inSize_yields _) fun d x3 _ =>
        EndsFrom.yields (inSize_yields _) fun e x4 _ => EndsFrom.yields (inSize_yields _) fun f x5 _ => EndsFrom.then (inSize_yields _) fun g y _ =>
        ends_valuesText cfg (spline_entries e g f) ht fun l z => hK _ z
    · rw [if_neg ht]
      unfold loadCurveBinary loadCurveHeader
      simp only [Rd.bind_assoc, Rd.pure_bind]
      exact EndsFrom.yields (inSize_yields _) fun a x1 _ => EndsFrom.yields (inSize_yields _) fun b x2 _ => EndsFrom.yields (inSize_yields _) fun d x3 _ =>
        EndsFrom.yields (inSize_yields _) fun e x4 _ => EndsFrom.yields (inSize_yields _) fun f x5 _ => EndsFrom.then (inSize_yields _) fun g y _ => fun st hs =>
        (swap_resize ..).trans (ends_valuesBinary cfg (spline_entries e g f) ht (fun l z => hK _ z) st hs)
  refine hE.iff ?_
  constructor
  · rintro ⟨_, x1, ⟨v1, h1, rfl⟩, _, x2, ⟨v2, h2, rfl⟩, _, x3, ⟨v3, h3, rfl⟩, _, x4, ⟨v4, h4, rfl⟩, _, x5, ⟨v5, h5, rfl⟩, _, y, ⟨v6, h6, rfl⟩, h7, z, h8, h9⟩
    exact ⟨_, _, _, _, _, _, y, z, .cons h1 (.cons h2 (.cons h3 (.cons h4 (.cons h5 (.cons h6 .nil))))), h7, h8, h9⟩
  · rintro ⟨a, b, d, e, f, g, y, z, h, h7, h8, h9⟩
    rcases h with _ | ⟨h1, _ | ⟨h2, _ | ⟨h3, _ | ⟨h4, _ | ⟨h5, _ | ⟨h6, _ | _⟩⟩⟩⟩⟩⟩
    exact ⟨_, _, ⟨_, h1, rfl⟩, _, _, ⟨_, h2, rfl⟩, _, _, ⟨_, h3, rfl⟩, _, _, ⟨_, h4, rfl⟩, _, _, ⟨_, h5, rfl⟩, _, _, ⟨_, h6, rfl⟩, h7, z, h8, h9⟩

theorem ends_patch (cfg : Cfg) (text : Prop) [Decidable text] (p : Patch) (K : Patch → Rd α) (Q : Place → Prop) (x : Place) (hK : ∀ c y, EndsFrom k (K c) y (Q y)) :
    EndsFrom k ((if text then loadPatchAscii cfg p else loadPatchBinary cfg p) >>= K) x (∃ tag type degreeU degreeV points knotsU knotsV weights y y',
      TakesSizesOver [p.patchTag, p.patchType, p.degreeU, p.degreeV, p.numControlPoints, p.numUKnots, p.numVKnots, p.withWeights] x
        [tag, type, degreeU, degreeV, points, knotsU, knotsV, weights] y ∧
      splineSize points.toNat weights.toNat (knotsU.toNat + knotsV.toNat) ≤ cfg.maxCount ∧
      SkipsDoubles text (splineSize points.toNat weights.toNat (knotsU.toNat + knotsV.toNat)) y y' ∧ Q y') := by
  have hE : EndsFrom k ((if text then loadPatchAscii cfg p else loadPatchBinary cfg p) >>= K) x (∃ a x1, (∃ v, TakesSize x v x1 ∧ a = v.getD p.patchTag) ∧
      ∃ b x2, (∃ v, TakesSize x1 v x2 ∧ b = v.getD p.patchType) ∧ ∃ d x3, (∃ v, TakesSize x2 v x3 ∧ d = v.getD p.degreeU) ∧
      ∃ d' x4, (∃ v, TakesSize x3 v x4 ∧ d' = v.getD p.degreeV) ∧
      ∃ e x5, (∃ v, TakesSize x4 v x5 ∧ e = v.getD p.numControlPoints) ∧ ∃ f x6, (∃ v, TakesSize x5 v x6 ∧ f = v.getD p.numUKnots) ∧
      ∃ f' x7, (∃ v, TakesSize x6 v x7 ∧ f' = v.getD p.numVKnots) ∧ ∃ g y, (∃ v, TakesSize x7 v y ∧ g = v.getD p.withWeights) ∧
      splineSize e.toNat g.toNat (f.toNat + f'.toNat) ≤ cfg.maxCount ∧ ∃ z, SkipsDoubles text (splineSize e.toNat g.toNat (f.toNat + f'.toNat)) y z ∧ Q z) := by
    by_cases ht : text
    · rw [if_pos ht]
      unfold loadPatchAscii loadPatchHeader
      simp only [Rd.bind_assoc, Rd.pure_bind]
      exact EndsFrom.yields (inSize_yields _) fun a x1 _ => EndsFrom.yields (inSize_yields _) fun b x2 _ => EndsFrom.yields (inSize_yields _) fun d x3 _ =>
        EndsFrom.yields (inSize_yields _) fun d' x4 _ => EndsFrom.yields (inSize_yields _) fun e x5 _ => EndsFrom.yields (inSize_yields _) fun f x6 _ =>
        EndsFrom.yields (inSize_yields _) fun f' x7 _ => EndsFrom.then (inSize_yields _) fun g y _ =>
        ends_valuesText cfg (spline_entries2 e g f f') ht fun l z => hK _ z
    · rw [if_neg ht]
      unfold loadPatchBinary loadPatchHeader
      simp only [Rd.bind_assoc, Rd.pure_bind]
      exact EndsFrom.yields (inSize_yields _) fun a x1 _ => EndsFrom.yields (inSize_yields _) fun b x2 _ => EndsFrom.yields (inSize_yields _) fun d x3 _ =>
        EndsFrom.yields (inSize_yields _) fun d' x4 _ => EndsFrom.yields (inSize_yields _) fun e x5 _ => EndsFrom.yields (inSize_yields _) fun f x6 _ =>
        EndsFrom.yields (inSize_yields _) fun f' x7 _ => EndsFrom.then (inSize_yields _) fun g y _ =>
        ends_valuesBinary cfg (spline_entries2 e g f f') ht (fun l z => hK _ z)
  refine hE.iff ?_
  constructor
  · rintro ⟨_, x1, ⟨v1, h1, rfl⟩, _, x2, ⟨v2, h2, rfl⟩, _, x3, ⟨v3, h3, rfl⟩, _, x4, ⟨v4, h4, rfl⟩, _, x5, ⟨v5, h5, rfl⟩, _, x6, ⟨v6, h6, rfl⟩, _, x7, ⟨v7, h7, rfl⟩,
      _, y, ⟨v8, h8, rfl⟩, h9, z, h10, h11⟩
    exact ⟨_, _, _, _, _, _, _, _, y, z, .cons h1 (.cons h2 (.cons h3 (.cons h4 (.cons h5 (.cons h6 (.cons h7 (.cons h8 .nil))))))), h9, h10, h11⟩
  · rintro ⟨a, b, d, d', e, f, f', g, y, z, h, h9, h10, h11⟩
    rcases h with _ | ⟨h1, _ | ⟨h2, _ | ⟨h3, _ | ⟨h4, _ | ⟨h5, _ | ⟨h6, _ | ⟨h7, _ | ⟨h8, _ | _⟩⟩⟩⟩⟩⟩⟩⟩
    exact ⟨_, _, ⟨_, h1, rfl⟩, _, _, ⟨_, h2, rfl⟩, _, _, ⟨_, h3, rfl⟩, _, _, ⟨_, h4, rfl⟩, _, _, ⟨_, h5, rfl⟩, _, _, ⟨_, h6, rfl⟩, _, _, ⟨_, h7, rfl⟩, _, _, ⟨_, h8, rfl⟩, h9, z, h10, h11⟩

theorem ends_curves (cfg : Cfg) (f : MeshFormat) (cs : List Curve) (x : Place) : EndsAt k (loadCurves cfg f cs) x (if cfg.nanospline = true then
    k = .sticks ∧ CounterRead cfg x fun n y => SkipsCurves cfg (f.fileType = 0) (blocksFor cs n {}) y .stuck else ReadTo k x) := by
  unfold loadCurves
  by_cases hn : cfg.nanospline = true
  swap
  · rw [if_neg hn, if_neg hn]; exact EndsAt.pure _ x
  rw [if_pos hn, if_pos hn]
  have each : ∀ (l : List Curve) (y : Place), EndsFrom k (forEach (fun c => if f.fileType = 0 then loadCurveAscii cfg c else loadCurveBinary cfg c) l) y
      (k = .sticks ∧ SkipsCurves cfg (f.fileType = 0) l y .stuck) :=
    EndsFrom.forEach _ (fun c K Q x hK => ends_curve cfg (f.fileType = 0) c K Q x hK) (fun l y => k = .sticks ∧ SkipsCurves cfg (f.fileType = 0) l y .stuck)
      (fun x => Iff.rfl) fun c cs x => by
        constructor
        · rintro ⟨a, b, d, e, f, g, y, y', h1, h2, h3, hk, h4⟩
          exact ⟨hk, a, b, d, e, f, g, y, y', h1, h2, h3, h4⟩
        · rintro ⟨hk, a, b, d, e, f, g, y, y', h1, h2, h3, h4⟩
          exact ⟨a, b, d, e, f, g, y, y', h1, h2, h3, hk, h4⟩
  refine (EndsAt.counter (P := fun n y => k = .sticks ∧ SkipsCurves cfg (f.fileType = 0) (blocksFor cs n {}) y .stuck) fun n y _ => ?_).iff ?_
  · have := (each (blocksFor cs n {}) y).at
    by_cases ht : f.fileType = 0
    · simp only [ht, if_true] at this ⊢; exact this
    · simp only [ht, if_false] at this ⊢; exact this
  · constructor
    · rintro ⟨n, y, h1, h2, hk, h3⟩
      exact ⟨hk, n, y, h1, h2, h3⟩
    · rintro ⟨hk, n, y, h1, h2, h3⟩
      exact ⟨n, y, h1, h2, hk, h3⟩

theorem ends_patches (cfg : Cfg) (f : MeshFormat) (cs : List Patch) (x : Place) : EndsAt k (loadPatches cfg f cs) x (if cfg.nanospline = true then
    k = .sticks ∧ CounterRead cfg x fun n y => SkipsPatches cfg (f.fileType = 0) (blocksFor cs n {}) y .stuck else ReadTo k x) := by
  unfold loadPatches
  by_cases hn : cfg.nanospline = true
  swap
  · rw [if_neg hn, if_neg hn]; exact EndsAt.pure _ x
  rw [if_pos hn, if_pos hn]
  have each : ∀ (l : List Patch) (y : Place), EndsFrom k (forEach (fun c => if f.fileType = 0 then loadPatchAscii cfg c else loadPatchBinary cfg c) l) y
      (k = .sticks ∧ SkipsPatches cfg (f.fileType = 0) l y .stuck) :=
    EndsFrom.forEach _ (fun c K Q x hK => ends_patch cfg (f.fileType = 0) c K Q x hK) (fun l y => k = .sticks ∧ SkipsPatches cfg (f.fileType = 0) l y .stuck)
      (fun x => Iff.rfl) fun c cs x => by
        constructor
        · rintro ⟨a, b, d, d', e, f, f', g, y, y', h1, h2, h3, hk, h4⟩
          exact ⟨hk, a, b, d, d', e, f, f', g, y, y', h1, h2, h3, h4⟩
        · rintro ⟨hk, a, b, d, d', e, f, f', g, y, y', h1, h2, h3, h4⟩
          exact ⟨a, b, d, d', e, f, f', g, y, y', h1, h2, h3, hk, h4⟩
  refine (EndsAt.counter (P := fun n y => k = .sticks ∧ SkipsPatches cfg (f.fileType = 0) (blocksFor cs n {}) y .stuck) fun n y _ => ?_).iff ?_
  · have := (each (blocksFor cs n {}) y).at
    by_cases ht : f.fileType = 0
    · simp only [ht, if_true] at this ⊢; exact this
    · simp only [ht, if_false] at this ⊢; exact this
  · constructor
    · rintro ⟨n, y, h1, h2, hk, h3⟩
      exact ⟨hk, n, y, h1, h2, h3⟩
    · rintro ⟨hk, n, y, h1, h2, h3⟩
      exact ⟨n, y, h1, h2, hk, h3⟩

/-! ## The format -/

theorem ends_format (f : MeshFormat) (x : Place) : EndsAt k (loadMeshFormat f) x (k = .sticks ∧ FormatSticks f x) := by
  unfold loadMeshFormat
  refine (EndsAt.yields (inString_yields f.version) fun v y _ => (?_ : EndsAt _ _ y (v ∈ [b! "2.2", b! "4.1"] ∧
    ∃ t y1 z, TakesInt y t y1 ∧ TakesInt y1 z .stuck ∧ (v = b! "4.1" → z.getD f.dataSize = 8) ∧ t.getD f.fileType = 0 ∧ k = .sticks))).iff ?_
  · by_cases hv : v ≠ b! "2.2" ∧ v ≠ b! "4.1"
    · rw [if_pos hv]
      exact (EndsAt.throw _ y).iff ⟨fun h => h.elim, fun h => absurd h.1 (by simpa using hv)⟩
    have hv' : v ∈ [b! "2.2", b! "4.1"] := by
      by_cases h : v = b! "2.2"
      · simp [h]
      · by_cases h' : v = b! "4.1"
        · simp [h']
        · exact absurd ⟨h, h'⟩ hv
    rw [if_neg hv]
    refine (EndsAt.yields (inInt_yields f.fileType) fun t y1 _ => EndsAt.yields (inInt_yields f.dataSize) fun z y2 _ => (?_ : EndsAt _ _ y2
      ((v = b! "4.1" → z = 8) ∧ t = 0 ∧ ReadTo k y2))).iff ?_
    · have h8 : sizeOfInt z ≠ 8 ↔ z ≠ 8 := by
        refine not_congr ⟨fun h => ?_, fun h => by rw [h]; rfl⟩
        have h1 := toNat_sizeOfInt z
        have h2 : (sizeOfInt z).toNat = 8 := by rw [h]; rfl
        rw [h2] at h1
        have h3 := z.le_toInt
        apply Int32.toInt_inj.mp
        show z.toInt = 8
        split at h1 <;> omega
      simp only [h8]
      by_cases hz : v = b! "4.1" ∧ z ≠ 8
      · rw [if_pos hz]
        exact (EndsAt.throw _ y2).iff ⟨fun h => h.elim, fun h => hz.2 (h.1 hz.1)⟩
      rw [if_neg hz]
      have hz' : v = b! "4.1" → z = 8 := fun h => Classical.byContradiction fun h' => hz ⟨h, h'⟩
      by_cases ht : t ≠ 0
      · rw [if_pos ht]
        refine EndsAt.iff (Q := False) ?_ ⟨fun h => h.elim, fun h => ht h.2.1⟩
        intro st hs
        refine ⟨?_, fun h => h.elim⟩
        have one : ∀ st' : Stream, ∃ v, readInt 0 st' = .ok (v, if st'.good then after 4 st'.rem else { st' with fail := true }) ∧ (st'.good = false → v = 0) := by
          intro st'
          unfold readInt
          rw [Rd.bind_def]
          unfold readRaw after
          by_cases hg : st'.good = true
          · simp only [hg, if_true, encI32_length]
            by_cases h : 4 ≤ st'.rem.length
            · rw [if_pos h, if_pos h]; exact ⟨_, rfl, fun h => by cases h⟩
            · rw [if_neg h, if_neg h]; exact ⟨_, rfl, fun h => by cases h⟩
          · simp only [hg]
            exact ⟨_, rfl, fun _ => by decide⟩
        obtain ⟨st', e⟩ : ∃ st', eatWhiteSpace (2 ^ 64 - 1) st = .ok ((), st') := by
          unfold eatWhiteSpace
          split <;> exact ⟨_, rfl⟩
        obtain ⟨o, e', ho⟩ := one st'
        rw [Rd.bind_ok e, Rd.bind_ok e']
        by_cases h1 : o ≠ 1
        · rw [if_pos h1]
          exact Ending.not_throw
        · rw [if_neg h1]
          have hg : st'.good = true := by
            cases hg : st'.good with
            | true => rfl
            | false => rw [ho hg] at h1; exact absurd (by decide) h1
          intro h
          rw [if_pos hg] at h
          have := Ending.ok.mp h
          exact after_not_stuck _ _ this.2
      · have ht' : t = 0 := Classical.byContradiction ht
        rw [if_neg ht]
        exact (EndsAt.pure _ y2).iff ⟨fun h => ⟨hz', ht', h⟩, fun h => h.2.2⟩
    · constructor
      · rintro ⟨_, y1, ⟨t, h1, rfl⟩, _, y2, ⟨z, h2, rfl⟩, h3, h4, h5, rfl⟩
        exact ⟨hv', t, y1, z, h1, h2, h3, h4, h5⟩
      · rintro ⟨-, t, y1, z, h1, h2, h3, h4, h5⟩
        exact ⟨_, y1, ⟨t, h1, rfl⟩, _, _, ⟨z, h2, rfl⟩, h3, h4, h5, rfl⟩
  · constructor
    · rintro ⟨_, y, ⟨w, h1, rfl⟩, h2, t, y1, z, h3, h4, h5, h6, h7⟩
      exact ⟨h7, w, y, t, y1, z, h1, h3, h4, h2, h5, h6⟩
    · rintro ⟨h7, w, y, t, y1, z, h1, h3, h4, h2, h5, h6⟩
      exact ⟨_, y, ⟨w, h1, rfl⟩, h2, t, y1, z, h3, h4, h5, h6, h7⟩

end MshIO
