import Verif.Proofs.ExhaustedData
import Verif.Proofs.EndingsSplines

/-! # When there is not enough memory for a section: curves and patches -/

namespace MshIO

variable {α β : Type} {ex : Exc}

/-- As `ThrowsAt`, for a stream that may not know whether it is at the end of the file. -/
def ThrowsFrom (ex : Exc) (m : Rd α) (x : Place) (Q : Prop) : Prop := ∀ st, Cur x st → (m st = .throw ex ↔ Q)

theorem ThrowsFrom.at {m : Rd α} {x : Place} {Q : Prop} (h : ThrowsFrom ex m x Q) : ThrowsAt ex m x Q := fun st hs => h st hs.cur

theorem ThrowsFrom.iff {m : Rd α} {x : Place} {Q Q' : Prop} (h : ThrowsFrom ex m x Q) (e : Q ↔ Q') : ThrowsFrom ex m x Q' := fun st hs => (h st hs).trans e

theorem ThrowsFrom.pure (a : α) (x : Place) : ThrowsFrom ex (Pure.pure a : Rd α) x False := fun _ _ => ⟨(fun h => by cases h), fun h => h.elim⟩

theorem ThrowsFrom.yields {m : Rd α} {R : Place → α → Place → Prop} (hm : Yields m R) {f : α → Rd β} {x : Place} {Q : α → Place → Prop}
    (h : ∀ v y, R x v y → ThrowsFrom ex (f v) y (Q v y)) : ThrowsFrom ex (m >>= f) x (∃ v y, R x v y ∧ Q v y) := by
  intro st hs
  constructor
  · intro hu
    obtain ⟨v, y, hr⟩ := hm.total x
    obtain ⟨st', e, hs'⟩ := hm.sound hr hs
    rw [Rd.bind_ok e] at hu
    exact ⟨v, y, hr, (h v y hr st' hs'.cur).mp hu⟩
  · rintro ⟨v, y, hr, hq⟩
    obtain ⟨st', e, hs'⟩ := hm.sound hr hs
    rw [Rd.bind_ok e]
    exact (h v y hr st' hs'.cur).mpr hq

/-- The last number of a head is followed by something that asks what comes next. -/
theorem ThrowsFrom.then {m : Rd α} {R : Place → α → Place → Prop} (hm : Yields m R) {f : α → Rd β} {x : Place} {Q : α → Place → Prop}
    (h : ∀ v y, R x v y → ThrowsAt ex (f v) y (Q v y)) : ThrowsFrom ex (m >>= f) x (∃ v y, R x v y ∧ Q v y) := by
  intro st hs
  constructor
  · intro hu
    obtain ⟨v, y, hr⟩ := hm.total x
    obtain ⟨st', e, hs'⟩ := hm.sound hr hs
    rw [Rd.bind_ok e] at hu
    exact ⟨v, y, hr, (h v y hr st' hs').mp hu⟩
  · rintro ⟨v, y, hr, hq⟩
    obtain ⟨st', e, hs'⟩ := hm.sound hr hs
    rw [Rd.bind_ok e]
    exact (h v y hr st' hs').mpr hq

theorem ThrowsFrom.forEach {f : α → Rd α} (T : α → (Place → Prop) → Place → Prop)
    (h : ∀ b (K : α → Rd (List α)) Q x, (∀ b' y, ThrowsFrom ex (K b') y (Q y)) → ThrowsFrom ex (f b >>= K) x (T b Q x)) (P : List α → Place → Prop) (h0 : ∀ x, ¬ P [] x)
    (h1 : ∀ b bs x, T b (P bs) x ↔ P (b :: bs) x) : ∀ l x, ThrowsFrom ex (MshIO.forEach f l) x (P l x)
  | [], x => (ThrowsFrom.pure [] x).iff ⟨fun h => h.elim, fun h => h0 x h⟩
  | b :: bs, x => by
    unfold MshIO.forEach
    refine (h b _ (P bs) x fun b' y => ?_).iff (h1 b bs x)
    intro st hs
    exact (throw_bind (fun _ _ h => by cases h)).trans (ThrowsFrom.forEach T h P h0 h1 bs y st hs)

/-! ## Values -/

theorem exhausts_valuesText (cfg : Cfg) {v : List Double} {n : UInt64} {N : Nat} (hN : n.toNat = N) {text : Prop} (ht : text) {K : List Double → Rd α} {x : Place} {Q : Place → Prop}
    (hK : ∀ l y, ThrowsFrom .alloc (K l) y (Q y)) :
    ThrowsAt .alloc (MshIO.resize cfg v n Double.zero >>= fun data => forEach inDouble data >>= K) x (cfg.maxCount < N ∨ ∃ z, SkipsDoubles text N x z ∧ Q z) := by
  subst hN
  refine (ThrowsAt.resizes fun _ => ThrowsAt.passes (forEach_many inDouble_passes real_total (resized_length ..)) fun l y => (hK l y).at).iff ?_
  refine or_congr Iff.rfl (exists_congr fun z => and_congr_left fun _ => ?_)
  exact ⟨fun h => Or.inl ⟨ht, h⟩, fun h => h.elim (fun h => h.2) fun h => absurd ht h.1⟩

theorem throws_read (v : List Double) {K : List Double → Rd α} {x : Place} {Q : Place → Prop} (hK : ∀ l y, ThrowsFrom ex (K l) y (Q y)) :
    ThrowsAt ex (eatWhiteSpace 1 >>= fun _ => readDoubles v >>= K) x (∃ z, SkipsData v.length x z ∧ Q z) := by
  intro st hs
  obtain ⟨z, hz⟩ := skipsData_total v.length x
  obtain ⟨st', e1, l, st'', e2, hc⟩ := eat_then_read v hz hs
  rw [Rd.bind_ok e1, Rd.bind_ok e2, hK l z st'' hc]
  exact ⟨fun h => ⟨z, hz, h⟩, fun ⟨z', h, h'⟩ => skipsData_unique hz h ▸ h'⟩

theorem exhausts_valuesBinary (cfg : Cfg) {v : List Double} {n : UInt64} {N : Nat} (hN : n.toNat = N) {text : Prop} (ht : ¬ text) {K : List Double → Rd α} {x : Place} {Q : Place → Prop}
    (hK : ∀ l y, ThrowsFrom .alloc (K l) y (Q y)) :
    ThrowsAt .alloc (MshIO.resize cfg v n Double.zero >>= fun data => eatWhiteSpace 1 >>= fun _ => readDoubles data >>= K) x (cfg.maxCount < N ∨ ∃ z, SkipsDoubles text N x z ∧ Q z) := by
  subst hN
  refine (ThrowsAt.resizes fun _ => throws_read _ hK).iff ?_
  rw [resized_length]
  refine or_congr Iff.rfl (exists_congr fun z => and_congr_left fun _ => ?_)
  exact ⟨fun h => Or.inr ⟨ht, h⟩, fun h => h.elim (fun h => absurd h.1 ht) fun h => h.2⟩

theorem throws_swap (cfg : Cfg) (v : List Double) (n : UInt64) (K : List Double → Rd α) (st : Stream) :
    (eatWhiteSpace 1 >>= fun _ => MshIO.resize cfg v n Double.zero >>= K) st = .throw ex ↔
      (MshIO.resize cfg v n Double.zero >>= fun data => eatWhiteSpace 1 >>= fun _ => K data) st = .throw ex := by
  obtain ⟨st', e⟩ : ∃ st', eatWhiteSpace 1 st = .ok ((), st') := by
    unfold eatWhiteSpace
    split <;> exact ⟨_, rfl⟩
  rw [Rd.bind_ok e]
  by_cases hn : n.toNat ≤ cfg.maxCount
  · have : ∀ st, MshIO.resize cfg v n Double.zero st = .ok (v.take n.toNat ++ List.replicate (n.toNat - v.length) Double.zero, st) := fun st => by
      unfold MshIO.resize vecResize; rw [if_pos hn]; rfl
    rw [Rd.bind_ok (this st'), Rd.bind_ok (this st), Rd.bind_ok e]
  · have : ∀ st, MshIO.resize cfg v n Double.zero st = .throw .alloc := fun st => by
      unfold MshIO.resize vecResize; rw [if_neg hn]; rfl
    rw [Rd.bind_throw (this st'), Rd.bind_throw (this st)]

/-! ## Curves and patches -/

theorem exhausts_curve (cfg : Cfg) (text : Prop) [Decidable text] (c : Curve) (K : Curve → Rd α) (Q : Place → Prop) (x : Place) (hK : ∀ c y, ThrowsFrom .alloc (K c) y (Q y)) :
    ThrowsFrom .alloc ((if text then loadCurveAscii cfg c else loadCurveBinary cfg c) >>= K) x (∃ tag type degree points knots weights y,
      TakesSizesOver [c.curveTag, c.curveType, c.curveDegree, c.numControlPoints, c.numKnots, c.withWeights] x [tag, type, degree, points, knots, weights] y ∧
      (cfg.maxCount < splineSize points.toNat weights.toNat knots.toNat ∨ ∃ y', SkipsDoubles text (splineSize points.toNat weights.toNat knots.toNat) y y' ∧ Q y')) := by
  have hE : ThrowsFrom .alloc ((if text then loadCurveAscii cfg c else loadCurveBinary cfg c) >>= K) x (∃ a x1, (∃ v, TakesSize x v x1 ∧ a = v.getD c.curveTag) ∧
      ∃ b x2, (∃ v, TakesSize x1 v x2 ∧ b = v.getD c.curveType) ∧ ∃ d x3, (∃ v, TakesSize x2 v x3 ∧ d = v.getD c.curveDegree) ∧
      ∃ e x4, (∃ v, TakesSize x3 v x4 ∧ e = v.getD c.numControlPoints) ∧ ∃ f x5, (∃ v, TakesSize x4 v x5 ∧ f = v.getD c.numKnots) ∧
      ∃ g y, (∃ v, TakesSize x5 v y ∧ g = v.getD c.withWeights) ∧
      (cfg.maxCount < splineSize e.toNat g.toNat f.toNat ∨ ∃ z, SkipsDoubles text (splineSize e.toNat g.toNat f.toNat) y z ∧ Q z)) := by
    by_cases ht : text
    · rw [if_pos ht]
      unfold loadCurveAscii loadCurveHeader
      simp only [Rd.bind_assoc, Rd.pure_bind]
      exact ThrowsFrom.yields (inSize_yields _) fun a x1 _ => ThrowsFrom.yields (inSize_yields _) fun b x2 _ => ThrowsFrom.yields (inSize_yields _) fun d x3 _ =>
        ThrowsFrom.yields (inSize_yields _) fun e x4 _ => ThrowsFrom.yields (inSize_yields _) fun f x5 _ => ThrowsFrom.then (inSize_yields _) fun g y _ =>
        exhausts_valuesText cfg (spline_entries e g f) ht fun l z => hK _ z
    · rw [if_neg ht]
      unfold loadCurveBinary loadCurveHeader
      simp only [Rd.bind_assoc, Rd.pure_bind]
      exact ThrowsFrom.yields (inSize_yields _) fun a x1 _ => ThrowsFrom.yields (inSize_yields _) fun b x2 _ => ThrowsFrom.yields (inSize_yields _) fun d x3 _ =>
        ThrowsFrom.yields (inSize_yields _) fun e x4 _ => ThrowsFrom.yields (inSize_yields _) fun f x5 _ => ThrowsFrom.then (inSize_yields _) fun g y _ => fun st hs =>
        (throws_swap ..).trans (exhausts_valuesBinary cfg (spline_entries e g f) ht (fun l z => hK _ z) st hs)
  refine hE.iff ?_
  constructor
  · rintro ⟨_, x1, ⟨v1, h1, rfl⟩, _, x2, ⟨v2, h2, rfl⟩, _, x3, ⟨v3, h3, rfl⟩, _, x4, ⟨v4, h4, rfl⟩, _, x5, ⟨v5, h5, rfl⟩, _, y, ⟨v6, h6, rfl⟩, h7⟩
    exact ⟨_, _, _, _, _, _, y, .cons h1 (.cons h2 (.cons h3 (.cons h4 (.cons h5 (.cons h6 .nil))))), h7⟩
  · rintro ⟨a, b, d, e, f, g, y, h, h7⟩
    rcases h with _ | ⟨h1, _ | ⟨h2, _ | ⟨h3, _ | ⟨h4, _ | ⟨h5, _ | ⟨h6, _ | _⟩⟩⟩⟩⟩⟩
    exact ⟨_, _, ⟨_, h1, rfl⟩, _, _, ⟨_, h2, rfl⟩, _, _, ⟨_, h3, rfl⟩, _, _, ⟨_, h4, rfl⟩, _, _, ⟨_, h5, rfl⟩, _, _, ⟨_, h6, rfl⟩, h7⟩

theorem exhausts_patch (cfg : Cfg) (text : Prop) [Decidable text] (p : Patch) (K : Patch → Rd α) (Q : Place → Prop) (x : Place) (hK : ∀ c y, ThrowsFrom .alloc (K c) y (Q y)) :
    ThrowsFrom .alloc ((if text then loadPatchAscii cfg p else loadPatchBinary cfg p) >>= K) x (∃ tag type degreeU degreeV points knotsU knotsV weights y,
      TakesSizesOver [p.patchTag, p.patchType, p.degreeU, p.degreeV, p.numControlPoints, p.numUKnots, p.numVKnots, p.withWeights] x
        [tag, type, degreeU, degreeV, points, knotsU, knotsV, weights] y ∧
      (cfg.maxCount < splineSize points.toNat weights.toNat (knotsU.toNat + knotsV.toNat) ∨
        ∃ y', SkipsDoubles text (splineSize points.toNat weights.toNat (knotsU.toNat + knotsV.toNat)) y y' ∧ Q y')) := by
  have hE : ThrowsFrom .alloc ((if text then loadPatchAscii cfg p else loadPatchBinary cfg p) >>= K) x (∃ a x1, (∃ v, TakesSize x v x1 ∧ a = v.getD p.patchTag) ∧
      ∃ b x2, (∃ v, TakesSize x1 v x2 ∧ b = v.getD p.patchType) ∧ ∃ d x3, (∃ v, TakesSize x2 v x3 ∧ d = v.getD p.degreeU) ∧
      ∃ d' x4, (∃ v, TakesSize x3 v x4 ∧ d' = v.getD p.degreeV) ∧
      ∃ e x5, (∃ v, TakesSize x4 v x5 ∧ e = v.getD p.numControlPoints) ∧ ∃ f x6, (∃ v, TakesSize x5 v x6 ∧ f = v.getD p.numUKnots) ∧
      ∃ f' x7, (∃ v, TakesSize x6 v x7 ∧ f' = v.getD p.numVKnots) ∧ ∃ g y, (∃ v, TakesSize x7 v y ∧ g = v.getD p.withWeights) ∧
      (cfg.maxCount < splineSize e.toNat g.toNat (f.toNat + f'.toNat) ∨ ∃ z, SkipsDoubles text (splineSize e.toNat g.toNat (f.toNat + f'.toNat)) y z ∧ Q z)) := by
    by_cases ht : text
    · rw [if_pos ht]
      unfold loadPatchAscii loadPatchHeader
      simp only [Rd.bind_assoc, Rd.pure_bind]
      exact ThrowsFrom.yields (inSize_yields _) fun a x1 _ => ThrowsFrom.yields (inSize_yields _) fun b x2 _ => ThrowsFrom.yields (inSize_yields _) fun d x3 _ =>
        ThrowsFrom.yields (inSize_yields _) fun d' x4 _ => ThrowsFrom.yields (inSize_yields _) fun e x5 _ => ThrowsFrom.yields (inSize_yields _) fun f x6 _ =>
        ThrowsFrom.yields (inSize_yields _) fun f' x7 _ => ThrowsFrom.then (inSize_yields _) fun g y _ =>
        exhausts_valuesText cfg (spline_entries2 e g f f') ht fun l z => hK _ z
    · rw [if_neg ht]
      unfold loadPatchBinary loadPatchHeader
      simp only [Rd.bind_assoc, Rd.pure_bind]
      exact ThrowsFrom.yields (inSize_yields _) fun a x1 _ => ThrowsFrom.yields (inSize_yields _) fun b x2 _ => ThrowsFrom.yields (inSize_yields _) fun d x3 _ =>
        ThrowsFrom.yields (inSize_yields _) fun d' x4 _ => ThrowsFrom.yields (inSize_yields _) fun e x5 _ => ThrowsFrom.yields (inSize_yields _) fun f x6 _ =>
        ThrowsFrom.yields (inSize_yields _) fun f' x7 _ => ThrowsFrom.then (inSize_yields _) fun g y _ =>
        exhausts_valuesBinary cfg (spline_entries2 e g f f') ht (fun l z => hK _ z)
  refine hE.iff ?_
  constructor
  · rintro ⟨_, x1, ⟨v1, h1, rfl⟩, _, x2, ⟨v2, h2, rfl⟩, _, x3, ⟨v3, h3, rfl⟩, _, x4, ⟨v4, h4, rfl⟩, _, x5, ⟨v5, h5, rfl⟩, _, x6, ⟨v6, h6, rfl⟩, _, x7, ⟨v7, h7, rfl⟩,
      _, y, ⟨v8, h8, rfl⟩, h9⟩
    exact ⟨_, _, _, _, _, _, _, _, y, .cons h1 (.cons h2 (.cons h3 (.cons h4 (.cons h5 (.cons h6 (.cons h7 (.cons h8 .nil))))))), h9⟩
  · rintro ⟨a, b, d, d', e, f, f', g, y, h, h9⟩
    rcases h with _ | ⟨h1, _ | ⟨h2, _ | ⟨h3, _ | ⟨h4, _ | ⟨h5, _ | ⟨h6, _ | ⟨h7, _ | ⟨h8, _ | _⟩⟩⟩⟩⟩⟩⟩⟩
    exact ⟨_, _, ⟨_, h1, rfl⟩, _, _, ⟨_, h2, rfl⟩, _, _, ⟨_, h3, rfl⟩, _, _, ⟨_, h4, rfl⟩, _, _, ⟨_, h5, rfl⟩, _, _, ⟨_, h6, rfl⟩, _, _, ⟨_, h7, rfl⟩, _, _, ⟨_, h8, rfl⟩, h9⟩

theorem exhausts_curves (cfg : Cfg) (f : MeshFormat) (cs : List Curve) (x : Place) : ThrowsAt .alloc (loadCurves cfg f cs) x (cfg.nanospline = true ∧
    CounterExhausts cfg x fun n y => CurvesExhaust cfg (f.fileType = 0) (blocksFor cs n {}) y) := by
  unfold loadCurves
  by_cases hn : cfg.nanospline = true
  swap
  · rw [if_neg hn]; exact fun st hs => ⟨(fun h => by cases h), fun h => absurd h.1 hn⟩
  rw [if_pos hn]
  have each : ∀ (l : List Curve) (y : Place), ThrowsFrom .alloc (forEach (fun c => if f.fileType = 0 then loadCurveAscii cfg c else loadCurveBinary cfg c) l) y
      (CurvesExhaust cfg (f.fileType = 0) l y) :=
    ThrowsFrom.forEach _ (fun c K Q x hK => exhausts_curve cfg (f.fileType = 0) c K Q x hK) (fun l y => CurvesExhaust cfg (f.fileType = 0) l y)
      (fun x => id) fun c cs x => Iff.rfl
  refine (ThrowsAt.counts (P := fun n y => CurvesExhaust cfg (f.fileType = 0) (blocksFor cs n {}) y) fun n y _ => ?_).iff ⟨fun h => ⟨hn, h⟩, fun h => h.2⟩
  have := (each (blocksFor cs n {}) y).at
  by_cases ht : f.fileType = 0
  · simp only [ht, if_true] at this ⊢; exact this
  · simp only [ht, if_false] at this ⊢; exact this

theorem exhausts_patches (cfg : Cfg) (f : MeshFormat) (cs : List Patch) (x : Place) : ThrowsAt .alloc (loadPatches cfg f cs) x (cfg.nanospline = true ∧
    CounterExhausts cfg x fun n y => PatchesExhaust cfg (f.fileType = 0) (blocksFor cs n {}) y) := by
  unfold loadPatches
  by_cases hn : cfg.nanospline = true
  swap
  · rw [if_neg hn]; exact fun st hs => ⟨(fun h => by cases h), fun h => absurd h.1 hn⟩
  rw [if_pos hn]
  have each : ∀ (l : List Patch) (y : Place), ThrowsFrom .alloc (forEach (fun c => if f.fileType = 0 then loadPatchAscii cfg c else loadPatchBinary cfg c) l) y
      (PatchesExhaust cfg (f.fileType = 0) l y) :=
    ThrowsFrom.forEach _ (fun c K Q x hK => exhausts_patch cfg (f.fileType = 0) c K Q x hK) (fun l y => PatchesExhaust cfg (f.fileType = 0) l y)
      (fun x => id) fun c cs x => Iff.rfl
  refine (ThrowsAt.counts (P := fun n y => PatchesExhaust cfg (f.fileType = 0) (blocksFor cs n {}) y) fun n y _ => ?_).iff ⟨fun h => ⟨hn, h⟩, fun h => h.2⟩
  have := (each (blocksFor cs n {}) y).at
  by_cases ht : f.fileType = 0
  · simp only [ht, if_true] at this ⊢; exact this
  · simp only [ht, if_false] at this ⊢; exact this

end MshIO
