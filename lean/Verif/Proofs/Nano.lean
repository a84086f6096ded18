import Verif.Proofs.Data41

/-!
# The NanoSpline extension sections: written and read back
-/

namespace MshIO

/-! ## Version -/

theorem slt_nanosplineFormat (cfg : Cfg) (spec : MshSpec) (v : Bytes) (hv : Word v) :
    SLT cfg ((36 :: b! "NanoSplineFormat") :: ([v] ++ [endTag (b! "NanoSplineFormat")])) (saveNanosplineFormat v) spec { spec with nanosplineVersion := v } := by
  unfold saveNanosplineFormat
  refine SLT.section (name := b! "NanoSplineFormat") (ts := [v]) rfl rfl (by decide)
    (WritesT.emit [(v, [10])] (by simp [one_nl, hv.isTok]) (by simp [flat, endl])) ?_
  unfold loadSection
  rw [if_neg (by decide), if_neg (by decide), if_neg (by decide), if_neg (by decide), if_neg (by decide),
      if_neg (by decide), if_neg (by decide), if_neg (by decide), if_pos rfl]
  exact ReadsT.map ((inString_tok _ v hv).readsT) rfl

theorem sls_nanosplineFormat (cfg : Cfg) (spec : MshSpec) (v : Bytes) (hv : Word v) :
    SLS cfg [(b! "NanoSplineFormat", v ++ endl)] (saveNanosplineFormat v) spec { spec with nanosplineVersion := v } := by
  unfold saveNanosplineFormat
  refine SLS.text (name := b! "NanoSplineFormat") (ts := [v]) rfl rfl (by decide)
    (WritesT.emit [(v, [10])] (by simp [one_nl, hv.isTok]) (by simp [flat, endl])) (Writes.emit _) ?_
  unfold loadSection
  rw [if_neg (by decide), if_neg (by decide), if_neg (by decide), if_neg (by decide), if_neg (by decide),
      if_neg (by decide), if_neg (by decide), if_neg (by decide), if_pos rfl]
  exact ReadsT.map ((inString_tok _ v hv).readsT) rfl

/-! ## Control points and knots -/

theorem flat_one (a b : Bytes) : flat [(a, b)] = a ++ b := by simp [flat]

theorem saveKnots_writes (cfg : Cfg) (data : List Double) (hlt : data.length < 2 ^ 64) :
    ∀ (ks : List UInt64) (start : UInt64), data.length = start.toNat + (ks.map (·.toNat)).sum →
    WritesT (saveControl.saveKnots cfg data start ks) ((data.drop start.toNat).map (fmtDouble cfg.fmt)) := by
  intro ks
  induction ks with
  | nil =>
    intro start h
    simp only [List.map_nil, List.sum_nil, Nat.add_zero] at h
    rw [← h, List.drop_length]
    exact WritesT.pure
  | cons k ks ih =>
    intro start h
    simp only [List.map_cons, List.sum_cons] at h
    have hs : (start + k).toNat = start.toNat + k.toNat := add_toNat (by omega)
    refine WritesT.cast (WritesT.bind (WritesT.loopW (toks := fun i =>
      [fmtDouble cfg.fmt (data.getD (start.toNat + i) Double.zero)]) k.toNat 0 ?_)
      (ih (start + k) (by omega))) ?_
    · intro j _ hj
      have hidx : (start + UInt64.ofNat j).toNat = start.toNat + j := by
        rw [add_toNat (by rw [ofNat_toNat_lt (by omega)]; omega), ofNat_toNat_lt (by omega)]
      refine WritesT.lift (vecGet_ok hidx (by omega)) ?_
      have hg : data.getD (start.toNat + j) Double.zero = data[start.toNat + j] := by
        simp only [List.getD]
        rw [List.getElem?_eq_getElem (by omega)]; rfl
      rw [hg]
      exact WritesT.emit [(fmtDouble cfg.fmt _, [10])] (by simp [one_nl]) (by rw [flat_one]; rfl)
    · rw [hs, ← List.drop_drop]
      generalize hD : data.drop start.toNat = D
      have hDl : k.toNat ≤ D.length := by rw [← hD]; simp; omega
      have e1 : ∀ i, data.getD (start.toNat + i) Double.zero = D.getD i Double.zero := by
        intro i; rw [← hD]; simp [List.getD]
      simp only [e1]
      rw [← List.map_eq_flatMap]
      conv => rhs; rw [← List.take_append_drop k.toNat D]
      rw [List.map_append]
      congr 1
      have := range'_map_get (D.take k.toNat) Double.zero
      rw [List.length_take, Nat.min_eq_left hDl] at this
      conv => rhs; rw [← this]
      rw [List.map_map]
      apply List.map_congr_left
      intro i hi
      have : i < k.toNat := by have := List.mem_range'_1.mp hi; omega
      simp [List.getD, List.getElem?_take, this]

theorem saveControl_writes (cfg : Cfg) (data : List Double) (hlt : data.length < 2 ^ 64) (n dim : UInt64)
    (ks : List UInt64) (h : data.length = n.toNat * dim.toNat + (ks.map (·.toNat)).sum) :
    WritesT (saveControl cfg data n dim ks) (data.map (fmtDouble cfg.fmt)) := by
  have hm : (n * dim).toNat = n.toNat * dim.toNat := mul_toNat (by omega)
  have hk := saveKnots_writes cfg data hlt ks (n * dim) (by omega)
  unfold saveControl
  refine WritesT.cast (WritesT.bind (x := (data.take (n * dim).toNat).map (fmtDouble cfg.fmt)) ?_ hk) ?_
  · refine WritesT.nested (data := data.take (n * dim).toNat) (txt := fmtDouble cfg.fmt) ?_ ?_ ?_
    · rw [List.length_take, hm]; omega
    · rw [List.length_take]; omega
    · intro j k _ _ a ha
      have ha' : vecGet data (UInt64.ofNat j * dim + UInt64.ofNat k) = .ok a := by
        unfold vecGet at ha ⊢
        generalize (UInt64.ofNat j * dim + UInt64.ofNat k).toNat = i at *
        rw [List.getElem?_take] at ha
        by_cases hi : i < (n * dim).toNat
        · rwa [if_pos hi] at ha
        · rw [if_neg hi] at ha; cases ha
      refine WritesT.lift ha' ?_
      by_cases hj : UInt64.ofNat k + 1 = dim
      · rw [if_pos hj]
        exact ⟨[(fmtDouble cfg.fmt a, [10])], rfl, by simp [one_nl], by rw [flat_one]; rfl⟩
      · rw [if_neg hj]
        exact ⟨[(fmtDouble cfg.fmt a, [32])], rfl, by simp [one_sp], by rw [flat_one]; rfl⟩
  · rw [← List.map_append, List.take_append_drop]

/-! ## Curves -/

def Curve.convert (g : Double → Double) (c : Curve) : Curve := { c with data := c.data.map g }
def Patch.convert (g : Double → Double) (p : Patch) : Patch := { p with data := p.data.map g }

theorem Curve.convert_id (c : Curve) : c.convert id = c := by simp [Curve.convert]
theorem Patch.convert_id (c : Patch) : c.convert id = c := by simp [Patch.convert]

theorem weights_pos (w : UInt64) : (if 0 < w then (4 : UInt64) else 3).toNat = if w = 0 then 3 else 4 := by
  by_cases h : w = 0
  · subst h; rfl
  · have : 0 < w := UInt64.lt_iff_toNat_lt.mpr (Nat.pos_of_ne_zero fun e => h (UInt64.toNat_inj.mp e))
    rw [if_pos this, if_neg h]; rfl

theorem Curve.Ok.entries {c : Curve} (h : c.Ok) (hlt : c.data.length < 2 ^ 64) :
    c.numEntries.toNat = c.data.length := by
  unfold Curve.Ok at h
  rw [← weights_pos] at h
  have hm : (c.numControlPoints * (if 0 < c.withWeights then (4 : UInt64) else 3)).toNat = _ :=
    mul_toNat (by omega)
  unfold Curve.numEntries
  rw [add_toNat (by rw [hm]; omega), hm, h]

theorem Patch.Ok.entries {c : Patch} (h : c.Ok) (hlt : c.data.length < 2 ^ 64) :
    c.numEntries.toNat = c.data.length := by
  unfold Patch.Ok at h
  rw [← weights_pos] at h
  have hm : (c.numControlPoints * (if 0 < c.withWeights then (4 : UInt64) else 3)).toNat = _ :=
    mul_toNat (by omega)
  unfold Patch.numEntries
  rw [add_toNat (by rw [add_toNat (by rw [hm]; omega), hm]; omega), add_toNat (by rw [hm]; omega), hm, h]

def curveToks (c : Curve) : List Bytes :=
  [decU64 c.curveTag, decU64 c.curveType, decU64 c.curveDegree, decU64 c.numControlPoints,
   decU64 c.numKnots, decU64 c.withWeights]

def patchToks (c : Patch) : List Bytes :=
  [decU64 c.patchTag, decU64 c.patchType, decU64 c.degreeU, decU64 c.degreeV, decU64 c.numControlPoints,
   decU64 c.numUKnots, decU64 c.numVKnots, decU64 c.withWeights]

theorem loadCurveHeader_reads (c c0 : Curve) :
    ReadsT (loadCurveHeader c0) (curveToks c) { c with data := c0.data } := by
  unfold loadCurveHeader
  exact ReadsT.cons (inSize_tok _ _) (ReadsT.cons (inSize_tok _ _) (ReadsT.cons (inSize_tok _ _)
    (ReadsT.cons (inSize_tok _ _) (ReadsT.cons (inSize_tok _ _) (ReadsT.cons (inSize_tok _ _) (ReadsT.pure _))))))

theorem loadPatchHeader_reads (c c0 : Patch) :
    ReadsT (loadPatchHeader c0) (patchToks c) { c with data := c0.data } := by
  unfold loadPatchHeader
  exact ReadsT.cons (inSize_tok _ _) (ReadsT.cons (inSize_tok _ _) (ReadsT.cons (inSize_tok _ _)
    (ReadsT.cons (inSize_tok _ _) (ReadsT.cons (inSize_tok _ _) (ReadsT.cons (inSize_tok _ _)
    (ReadsT.cons (inSize_tok _ _) (ReadsT.cons (inSize_tok _ _) (ReadsT.pure _))))))))

def curvePairs (c : Curve) : List (Bytes × Bytes) :=
  [(decU64 c.curveTag, [32]), (decU64 c.curveType, [32]), (decU64 c.curveDegree, [32]),
   (decU64 c.numControlPoints, [32]), (decU64 c.numKnots, [32]), (decU64 c.withWeights, [10])]

def patchPairs (c : Patch) : List (Bytes × Bytes) :=
  [(decU64 c.patchTag, [32]), (decU64 c.patchType, [32]), (decU64 c.degreeU, [32]), (decU64 c.degreeV, [32]),
   (decU64 c.numControlPoints, [32]), (decU64 c.numUKnots, [32]), (decU64 c.numVKnots, [32]),
   (decU64 c.withWeights, [10])]

theorem curvePairs_one (c : Curve) : ∀ q ∈ curvePairs c, IsTok q.1 ∧ One q.2 := by
  simp [curvePairs, one_sp, one_nl]
theorem patchPairs_one (c : Patch) : ∀ q ∈ patchPairs c, IsTok q.1 ∧ One q.2 := by
  simp [patchPairs, one_sp, one_nl]
theorem curvePairs_fst (c : Curve) : (curvePairs c).map Prod.fst = curveToks c := rfl
theorem patchPairs_fst (c : Patch) : (patchPairs c).map Prod.fst = patchToks c := rfl
theorem curveHeaderText_eq (c : Curve) : curveHeaderText c = flat (curvePairs c) := by
  simp [curveHeaderText, curvePairs, flat, endl]
theorem patchHeaderText_eq (c : Patch) : patchHeaderText c = flat (patchPairs c) := by
  simp [patchHeaderText, patchPairs, flat, endl]

theorem writes_assertW (cfg : Cfg) {b : Bool} (h : b = true) : Writes (assertW cfg b) [] := by
  subst h; simp [assertW, Writes]; rfl

theorem writesT_assertW (cfg : Cfg) {b : Bool} (h : b = true) : WritesT (assertW cfg b) [] :=
  ⟨[], rfl, by simp, writes_assertW cfg h⟩

theorem eq_sizeU {α : Type} {v : List α} {n : UInt64} (h : n.toNat = v.length) : n = sizeU v := by
  apply UInt64.toNat_inj.mp
  rw [h, sizeU_toNat (h ▸ n.toNat_lt)]

theorem loadCurveAscii_reads (cfg : Cfg) {rd : Double → Double} (c : Curve) (h : c.Ok)
    (hc : c.data.length ≤ cfg.maxCount) (hd : ∀ x ∈ c.data, DTok cfg.fmt rd x) :
    ReadsT (loadCurveAscii cfg {}) (curveToks c ++ c.data.map (fmtDouble cfg.fmt)) (c.convert rd) := by
  have hlt := cfg.maxCount_lt
  have hl := h.entries (by omega)
  have hl' : Curve.numEntries { c with data := [] } = c.numEntries := rfl
  unfold loadCurveAscii
  refine ReadsT.bind (loadCurveHeader_reads c _) (ReadsT.silent (silent_resize_nil _ _ _ ?_) ?_)
  · show c.numEntries.toNat ≤ _
    omega
  · show ReadsT (forEach inDouble (List.replicate c.numEntries.toNat _) >>= _) _ _
    rw [hl]
    exact ReadsT.map (readsT_doubles _ hd) rfl

theorem loadPatchAscii_reads (cfg : Cfg) {rd : Double → Double} (c : Patch) (h : c.Ok)
    (hc : c.data.length ≤ cfg.maxCount) (hd : ∀ x ∈ c.data, DTok cfg.fmt rd x) :
    ReadsT (loadPatchAscii cfg {}) (patchToks c ++ c.data.map (fmtDouble cfg.fmt)) (c.convert rd) := by
  have hlt := cfg.maxCount_lt
  have hl := h.entries (by omega)
  unfold loadPatchAscii
  refine ReadsT.bind (loadPatchHeader_reads c _) (ReadsT.silent (silent_resize_nil _ _ _ ?_) ?_)
  · show c.numEntries.toNat ≤ _
    omega
  · show ReadsT (forEach inDouble (List.replicate c.numEntries.toNat _) >>= _) _ _
    rw [hl]
    exact ReadsT.map (readsT_doubles _ hd) rfl

theorem saveCurveAscii_writes (cfg : Cfg) (c : Curve) (h : c.Ok) (hlt : c.data.length < 2 ^ 64) :
    WritesT (saveCurveAscii cfg c) (curveToks c ++ c.data.map (fmtDouble cfg.fmt)) := by
  have hl := h.entries hlt
  unfold saveCurveAscii
  refine WritesT.bind ⟨curvePairs c, rfl, curvePairs_one c, by rw [curveHeaderText_eq]; rfl⟩
    (WritesT.bind (x := []) (writesT_assertW cfg (by simp [eq_sizeU hl])) (saveControl_writes cfg _ hlt _ _ _ ?_))
  rw [weights_pos]
  simpa [Curve.Ok] using h

theorem savePatchAscii_writes (cfg : Cfg) (c : Patch) (h : c.Ok) (hlt : c.data.length < 2 ^ 64) :
    WritesT (savePatchAscii cfg c) (patchToks c ++ c.data.map (fmtDouble cfg.fmt)) := by
  have hl := h.entries hlt
  unfold savePatchAscii
  refine WritesT.bind ⟨patchPairs c, rfl, patchPairs_one c, by rw [patchHeaderText_eq]; rfl⟩
    (WritesT.bind (x := []) (writesT_assertW cfg (by simp [eq_sizeU hl])) (saveControl_writes cfg _ hlt _ _ _ ?_))
  rw [weights_pos]
  simp only [Patch.Ok] at h
  simp [h, Nat.add_assoc]

theorem saveCurveBinary_writes (cfg : Cfg) (c : Curve) (h : c.Ok) (hlt : c.data.length < 2 ^ 61) :
    Writes (saveCurveBinary cfg c) (flat (curvePairs c) ++ c.data.flatMap encDouble) := by
  have hl := h.entries (by omega)
  unfold saveCurveBinary
  refine Writes.bind (by rw [← curveHeaderText_eq]; exact Writes.emit _)
    (Writes.bind (x := []) (writes_assertW cfg (by simp [eq_sizeU hl])) ?_)
  exact writeN_all _ _ _ hl hlt

theorem savePatchBinary_writes (cfg : Cfg) (c : Patch) (h : c.Ok) (hlt : c.data.length < 2 ^ 61) :
    Writes (savePatchBinary cfg c) (flat (patchPairs c) ++ c.data.flatMap encDouble) := by
  have hl := h.entries (by omega)
  unfold savePatchBinary
  refine Writes.bind (by rw [← patchHeaderText_eq]; exact Writes.emit _)
    (Writes.bind (x := []) (writes_assertW cfg (by simp [eq_sizeU hl])) ?_)
  exact writeN_all _ _ _ hl hlt

theorem loadCurveBinary_reads (cfg : Cfg) (c : Curve) (h : c.Ok) (hc : c.data.length ≤ cfg.maxCount) :
    ReadsM (loadCurveBinary cfg {}) (flat (curvePairs c) ++ c.data.flatMap encDouble) c := by
  have hlt := cfg.maxCount_lt
  have hl := h.entries (by omega)
  unfold loadCurveBinary
  refine ReadsM.tokens (loadCurveHeader_reads c _) (curvePairs_fst c) (fun q hq => (curvePairs_one c q hq).2) (by simp [curvePairs]) ?_
  intro w rest hw hr
  rw [List.append_assoc, Rd.bind_ok (eat_one hw (by simp [hr])),
    Rd.bind_ok (silent_resize_nil cfg _ Double.zero (by show c.numEntries.toNat ≤ _; omega) _)]
  rw [Rd.bind_ok (readDoubles_reads _ c.data (by show (List.replicate c.numEntries.toNat _).length = _; simp [hl]) rest)]
  rfl

theorem loadPatchBinary_reads (cfg : Cfg) (c : Patch) (h : c.Ok) (hc : c.data.length ≤ cfg.maxCount) :
    ReadsM (loadPatchBinary cfg {}) (flat (patchPairs c) ++ c.data.flatMap encDouble) c := by
  have hlt := cfg.maxCount_lt
  have hl := h.entries (by omega)
  unfold loadPatchBinary
  refine ReadsM.tokens (loadPatchHeader_reads c _) (patchPairs_fst c) (fun q hq => (patchPairs_one c q hq).2) (by simp [patchPairs]) ?_
  intro w rest hw hr
  rw [Rd.bind_ok (silent_resize_nil cfg _ Double.zero (by show c.numEntries.toNat ≤ _; omega) _),
    List.append_assoc, Rd.bind_ok (eat_one hw (by simp [hr]))]
  rw [Rd.bind_ok (readDoubles_reads _ c.data (by show (List.replicate c.numEntries.toNat _).length = _; simp [hl]) rest)]
  rfl

/-! ## Sections -/

/-- A loop of mixed records. -/
theorem readsM_forEach {α : Type} {p : α → Rd α} {d : α} {enc : α → Bytes} (v : List α)
    (h : ∀ a ∈ v, ReadsM (p d) (enc a) a) : ∀ w rest, Ws w → rest ≠ [] →
    ∃ w', Ws w' ∧ forEach p (List.replicate v.length d) (gs (w ++ v.flatMap enc ++ rest)) =
      .ok (v, gs (w' ++ rest)) := by
  induction v with
  | nil => intro w rest hw _; exact ⟨w, hw, by simp [forEach, Pure.pure, Rd.pure]⟩
  | cons a v ih =>
    intro w rest hw hr
    obtain ⟨w', hw', e⟩ := ih (fun b hb => h b (by simp [hb])) [] rest Ws.nil hr
    refine ⟨w', hw', ?_⟩
    have h1 := h a (by simp) w (v.flatMap enc ++ rest) hw (by simp [hr])
    simp only [List.length_cons, List.replicate_succ, List.flatMap_cons, forEach]
    rw [← List.append_assoc, List.append_assoc (w ++ enc a), Rd.bind_ok h1]
    rw [List.nil_append] at e
    rw [Rd.bind_ok e]
    rfl

theorem loadSection_curves (cfg : Cfg) (spec : MshSpec) : loadSection cfg (36 :: b! "Curves") spec =
    (loadCurves cfg spec.meshFormat spec.curves >>= fun f => pure { spec with curves := f }) := by
  unfold loadSection
  rw [if_neg (by decide), if_neg (by decide), if_neg (by decide), if_neg (by decide), if_neg (by decide),
      if_neg (by decide), if_neg (by decide), if_neg (by decide), if_neg (by decide), if_pos rfl]

theorem loadSection_patches (cfg : Cfg) (spec : MshSpec) : loadSection cfg (36 :: b! "Patches") spec =
    (loadPatches cfg spec.meshFormat spec.patches >>= fun f => pure { spec with patches := f }) := by
  unfold loadSection
  rw [if_neg (by decide), if_neg (by decide), if_neg (by decide), if_neg (by decide), if_neg (by decide),
      if_neg (by decide), if_neg (by decide), if_neg (by decide), if_neg (by decide), if_neg (by decide), if_pos rfl]

theorem slt_curves (cfg : Cfg) (hn : cfg.nanospline = true) {rd : Double → Double} (spec : MshSpec)
    (ht : spec.meshFormat.fileType = 0) (h0 : spec.curves = []) (cs : List Curve)
    (hc : cs.length ≤ cfg.maxCount) (hok : ∀ c ∈ cs, c.Ok) (hfit : ∀ c ∈ cs, c.data.length ≤ cfg.maxCount)
    (hd : ∀ c ∈ cs, ∀ x ∈ c.data, DTok cfg.fmt rd x) :
    SLT cfg ((36 :: b! "Curves") :: (([decU64 (sizeU cs)] ++ cs.flatMap fun c => curveToks c ++ c.data.map (fmtDouble cfg.fmt)) ++
      [endTag (b! "Curves")])) (saveCurves cfg spec.meshFormat cs) spec { spec with curves := cs.map (Curve.convert rd) } := by
  have hlt := cfg.maxCount_lt
  have l1 : (sizeU cs).toNat = cs.length := sizeU_toNat (by omega)
  unfold saveCurves
  simp only [if_pos ht]
  rw [← Wr.bind_assoc (emit (decU64 (sizeU cs) ++ endl))]
  refine SLT.section (name := b! "Curves") rfl rfl (by decide) (WritesT.bind (x := [_])
    (WritesT.emit [(decU64 (sizeU cs), [10])] (by simp [one_nl]) (by simp [flat, endl]))
    (WritesT.forW _ fun c hm => saveCurveAscii_writes cfg c (hok c hm) (by have := hfit c hm; omega))) ?_
  rw [loadSection_curves]
  unfold loadCurves
  rw [h0, if_pos hn]
  simp only [if_pos ht]
  refine ReadsT.map ?_ rfl
  refine ReadsT.cons (extractSize_tok _) (ReadsT.silent (silent_useVar _)
    (ReadsT.silent (silent_resize_nil _ _ _ (by omega)) ?_))
  rw [l1]
  exact ReadsT.forEach _ fun c hm => loadCurveAscii_reads cfg c (hok c hm) (hfit c hm) (hd c hm)

theorem slt_patches (cfg : Cfg) (hn : cfg.nanospline = true) {rd : Double → Double} (spec : MshSpec)
    (ht : spec.meshFormat.fileType = 0) (h0 : spec.patches = []) (cs : List Patch)
    (hc : cs.length ≤ cfg.maxCount) (hok : ∀ c ∈ cs, c.Ok) (hfit : ∀ c ∈ cs, c.data.length ≤ cfg.maxCount)
    (hd : ∀ c ∈ cs, ∀ x ∈ c.data, DTok cfg.fmt rd x) :
    SLT cfg ((36 :: b! "Patches") :: (([decU64 (sizeU cs)] ++ cs.flatMap fun c => patchToks c ++ c.data.map (fmtDouble cfg.fmt)) ++
      [endTag (b! "Patches")])) (savePatches cfg spec.meshFormat cs) spec { spec with patches := cs.map (Patch.convert rd) } := by
  have hlt := cfg.maxCount_lt
  have l1 : (sizeU cs).toNat = cs.length := sizeU_toNat (by omega)
  unfold savePatches
  simp only [if_pos ht]
  rw [← Wr.bind_assoc (emit (decU64 (sizeU cs) ++ endl))]
  refine SLT.section (name := b! "Patches") rfl rfl (by decide) (WritesT.bind (x := [_])
    (WritesT.emit [(decU64 (sizeU cs), [10])] (by simp [one_nl]) (by simp [flat, endl]))
    (WritesT.forW _ fun c hm => savePatchAscii_writes cfg c (hok c hm) (by have := hfit c hm; omega))) ?_
  rw [loadSection_patches]
  unfold loadPatches
  rw [h0, if_pos hn]
  simp only [if_pos ht]
  refine ReadsT.map ?_ rfl
  refine ReadsT.cons (extractSize_tok _) (ReadsT.silent (silent_useVar _)
    (ReadsT.silent (silent_resize_nil _ _ _ (by omega)) ?_))
  rw [l1]
  exact ReadsT.forEach _ fun c hm => loadPatchAscii_reads cfg c (hok c hm) (hfit c hm) (hd c hm)

theorem sls_curves (cfg : Cfg) (hn : cfg.nanospline = true) (spec : MshSpec)
    (ht : spec.meshFormat.fileType ≠ 0) (h0 : spec.curves = []) (cs : List Curve)
    (hc : cs.length ≤ cfg.maxCount) (hok : ∀ c ∈ cs, c.Ok) (hfit : ∀ c ∈ cs, c.data.length ≤ cfg.maxCount) :
    SLS cfg [(b! "Curves", decU64 (sizeU cs) ++ endl ++ cs.flatMap fun c => flat (curvePairs c) ++ c.data.flatMap encDouble)]
      (saveCurves cfg spec.meshFormat cs) spec { spec with curves := cs } := by
  have hlt := cfg.maxCount_lt
  have l1 : (sizeU cs).toNat = cs.length := sizeU_toNat (by omega)
  unfold saveCurves
  simp only [if_neg ht]
  rw [← Wr.bind_assoc (emit (decU64 (sizeU cs) ++ endl))]
  refine SLS.section (name := b! "Curves") rfl rfl (by decide) (Writes.bind (Writes.emit _)
    (Writes.forW _ fun c hm => saveCurveBinary_writes cfg c (hok c hm) (by have := hfit c hm; omega))) ?_
  rw [loadSection_curves]
  unfold loadCurves
  rw [h0, if_pos hn]
  simp only [if_neg ht]
  refine Rds.map (a := cs) ?_ rfl
  intro rest hr
  obtain ⟨w', hw', e⟩ := readsM_forEach cs (fun c hm => loadCurveBinary_reads cfg c (hok c hm) (hfit c hm))
    [10] rest one_nl.sep.1 hr
  refine ⟨w', hw', ?_⟩
  have e0 := extractSize_tok (sizeU cs) [10] ([10] ++ cs.flatMap
    (fun c => flat (curvePairs c) ++ c.data.flatMap encDouble) ++ rest) one_nl.sep.1 ⟨10, _, rfl, by decide⟩
  have e1 : [10] ++ (decU64 (sizeU cs) ++ endl ++ cs.flatMap
      (fun c => flat (curvePairs c) ++ c.data.flatMap encDouble)) ++ rest = [10] ++ decU64 (sizeU cs) ++
      ([10] ++ cs.flatMap (fun c => flat (curvePairs c) ++ c.data.flatMap encDouble) ++ rest) := by
    simp [endl]
  rw [e1, Rd.bind_ok e0, Rd.bind_ok (silent_useVar _ _), Rd.bind_ok (silent_resize_nil cfg _ _ (by omega) _), l1, e]

theorem sls_patches (cfg : Cfg) (hn : cfg.nanospline = true) (spec : MshSpec)
    (ht : spec.meshFormat.fileType ≠ 0) (h0 : spec.patches = []) (cs : List Patch)
    (hc : cs.length ≤ cfg.maxCount) (hok : ∀ c ∈ cs, c.Ok) (hfit : ∀ c ∈ cs, c.data.length ≤ cfg.maxCount) :
    SLS cfg [(b! "Patches", decU64 (sizeU cs) ++ endl ++ cs.flatMap fun c => flat (patchPairs c) ++ c.data.flatMap encDouble)]
      (savePatches cfg spec.meshFormat cs) spec { spec with patches := cs } := by
  have hlt := cfg.maxCount_lt
  have l1 : (sizeU cs).toNat = cs.length := sizeU_toNat (by omega)
  unfold savePatches
  simp only [if_neg ht]
  rw [← Wr.bind_assoc (emit (decU64 (sizeU cs) ++ endl))]
  refine SLS.section (name := b! "Patches") rfl rfl (by decide) (Writes.bind (Writes.emit _)
    (Writes.forW _ fun c hm => savePatchBinary_writes cfg c (hok c hm) (by have := hfit c hm; omega))) ?_
  rw [loadSection_patches]
  unfold loadPatches
  rw [h0, if_pos hn]
  simp only [if_neg ht]
  refine Rds.map (a := cs) ?_ rfl
  intro rest hr
  obtain ⟨w', hw', e⟩ := readsM_forEach cs (fun c hm => loadPatchBinary_reads cfg c (hok c hm) (hfit c hm))
    [10] rest one_nl.sep.1 hr
  refine ⟨w', hw', ?_⟩
  have e0 := extractSize_tok (sizeU cs) [10] ([10] ++ cs.flatMap
    (fun c => flat (patchPairs c) ++ c.data.flatMap encDouble) ++ rest) one_nl.sep.1 ⟨10, _, rfl, by decide⟩
  have e1 : [10] ++ (decU64 (sizeU cs) ++ endl ++ cs.flatMap
      (fun c => flat (patchPairs c) ++ c.data.flatMap encDouble)) ++ rest = [10] ++ decU64 (sizeU cs) ++
      ([10] ++ cs.flatMap (fun c => flat (patchPairs c) ++ c.data.flatMap encDouble) ++ rest) := by
    simp [endl]
  rw [e1, Rd.bind_ok e0, Rd.bind_ok (silent_useVar _ _), Rd.bind_ok (silent_resize_nil cfg _ _ (by omega) _), l1, e]

end MshIO
