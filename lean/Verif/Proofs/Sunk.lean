import Verif.Proofs.StuckFile

/-!
# Files that cannot be read back
-/

namespace MshIO

/-- The reader gave up for good: undefined behaviour, an assertion, or a stuck stream. -/
def Sunk {α : Type} (o : Outcome (α × Stream)) : Prop := o = .ub ∨ o = .abort ∨ Jam o

section
variable {α β : Type} {cfg : Cfg}

theorem Dead.sunk {o : Outcome (α × Stream)} (h : Dead cfg o) : Sunk o := by
  cases ha : cfg.asserts with
  | true => exact Or.inr (Or.inl (h.1 ha))
  | false => exact Or.inr (Or.inr (h.2 ha))

theorem Sunk.bind {p : Rd α} {f : α → Rd β} {s : Stream} (h : Sunk (p s)) (hf : ∀ a s, Stuck s → Sunk (f a s)) :
    Sunk ((p >>= f) s) := by
  rcases h with h | h | h
  · exact Or.inl (Rd.bind_ub h)
  · exact Or.inr (Or.inl (Rd.bind_abort h))
  · exact h.bind hf

theorem Stuck.jam {s : Stream} (h : Stuck s) (a : α) : Jam ((pure a : Rd α) s) := ⟨a, s, rfl, h⟩

theorem Stuck.sunk {s : Stream} (h : Stuck s) (a : α) : Sunk ((pure a : Rd α) s) := Or.inr (Or.inr (h.jam a))

/-- The first bad item of a loop decides. -/
theorem EndsT.forEach_first {γ : Type} {f : α → Rd α} {toks : γ → List Bytes} {g : γ → α} {d : α} {good : γ → Prop}
    {Q : Outcome (α × Stream) → Prop} {R : Outcome (List α × Stream) → Prop} (cs : List γ)
    (hbad : ∃ c ∈ cs, ¬ good c) (h : ∀ c ∈ cs, good c → ReadsT (f d) (toks c) (g c))
    (hb : ∀ c ∈ cs, ¬ good c → EndsT (f d) (toks c) Q)
    (hq : ∀ k s, Q (f d s) → R (MshIO.forEach f (List.replicate (k + 1) d) s))
    (hr : ∀ (p : Rd (List α)) a s, R (p s) → R ((p >>= fun as => Pure.pure (a :: as)) s)) :
    EndsT (MshIO.forEach f (List.replicate cs.length d)) (cs.flatMap toks) R := by
  classical
  induction cs with
  | nil => obtain ⟨c, hc, _⟩ := hbad; cases hc
  | cons c cs ih =>
    rw [List.length_cons, List.flatMap_cons]
    by_cases hg : good c
    · rw [List.replicate_succ]
      have hbad' : ∃ c ∈ cs, ¬ good c := by
        obtain ⟨x, hx, hn⟩ := hbad
        rcases List.mem_cons.mp hx with rfl | hx
        · exact absurd hg hn
        · exact ⟨x, hx, hn⟩
      exact EndsT.bind (h c (by simp) hg) (EndsT.first (ih hbad' (fun x hx => h x (by simp [hx]))
        fun x hx => hb x (by simp [hx])) fun s hs => hr _ _ _ hs)
    · exact EndsT.more (fun ps h1 h2 w rest hw => hq _ _ (hb c (by simp) hg ps h1 h2 w rest hw)) _

theorem Stuck.forEach_jam {f : α → Rd α} {d : α} (hf : ∀ s, Stuck s → Jam (f d s)) (k : Nat) : ∀ s, Stuck s →
    Jam (MshIO.forEach f (List.replicate k d) s) := by
  induction k with
  | zero => intro s hs; exact hs.jam _
  | succ k ih =>
    intro s hs
    rw [List.replicate_succ]
    exact (hf s hs).bind fun a s' hs' => (ih s' hs').bind fun as s'' hs'' => hs''.jam _

theorem EndsT.forEach_jam {γ : Type} {f : α → Rd α} {toks : γ → List Bytes} {g : γ → α} {d : α} {good : γ → Prop}
    (cs : List γ) (hbad : ∃ c ∈ cs, ¬ good c) (h : ∀ c ∈ cs, good c → ReadsT (f d) (toks c) (g c))
    (hb : ∀ c ∈ cs, ¬ good c → EndsT (f d) (toks c) Jam) (hs : ∀ s, Stuck s → Jam (f d s)) :
    EndsT (MshIO.forEach f (List.replicate cs.length d)) (cs.flatMap toks) Jam := by
  refine EndsT.forEach_first cs hbad h hb ?_ fun p a s hj => hj.bind fun as s' hs' => hs'.jam _
  intro k s hj
  rw [List.replicate_succ]
  exact hj.bind fun a s' hs' => (Stuck.forEach_jam hs k s' hs').bind fun as s'' hs'' => hs''.jam _

theorem EndsT.forEach_bad {γ : Type} {f : α → Rd α} {toks : γ → List Bytes} {g : γ → α} {d : α} {good : γ → Prop}
    (cs : List γ) (hbad : ∃ c ∈ cs, ¬ good c) (h : ∀ c ∈ cs, good c → ReadsT (f d) (toks c) (g c))
    (hb : ∀ c ∈ cs, ¬ good c → EndsT (f d) (toks c) (· = .ub)) :
    EndsT (MshIO.forEach f (List.replicate cs.length d)) (cs.flatMap toks) (· = .ub) := by
  refine EndsT.forEach_first cs hbad h hb ?_ fun p a s hj => Rd.bind_ub hj
  intro k s hj
  rw [List.replicate_succ]
  exact Rd.bind_ub hj

/-- A vector of doubles, one of which cannot be read. -/
theorem EndsT.doubles {P : Fmt} (cs : List Double) (hbad : ∃ d ∈ cs, ¬ Printable P d) :
    EndsT (MshIO.forEach inDouble (List.replicate cs.length Double.zero)) (cs.map (fmtDouble P)) Jam := by
  have := EndsT.forEach_jam (f := inDouble) (toks := fun d => [fmtDouble P d]) (g := reread P) (d := Double.zero)
    (good := Printable P) cs hbad (fun c _ hg => (hg.dtok _).readsT) (fun c _ hg => EndsT.double hg _)
    (fun s hs => ⟨_, s, hs.inDouble _, hs⟩)
  rwa [← List.map_eq_flatMap] at this

end

/-! ## `$Entities` -/

/-- Reading a coordinate, then something that cannot be read from a stuck stream. -/
theorem EndsT.dbl_ub {α : Type} {P : Fmt} {d old : Double} {f : Double → Rd α} {ts : List Bytes}
    (h1 : Printable P d → EndsT (f (reread P d)) ts (· = .ub)) (h2 : ∀ v s, Stuck s → f v s = .ub) :
    EndsT (inDouble old >>= f) (fmtDouble P d :: ts) (· = .ub) := by
  by_cases h : Printable P d
  · exact EndsT.cons (h.dtok _) (h1 h)
  · exact EndsT.more (ts := [fmtDouble P d]) (EndsT.first (EndsT.double h old) fun s hs => hs.bind (R := (· = .ub)) h2) ts

theorem stuck_intList_ub (cfg : Cfg) (v : List Int32) {s : Stream} (hs : Stuck s) : loadIntListAscii cfg v s = .ub := by
  unfold loadIntListAscii
  rw [Rd.bind_ok hs.extractSize]
  rfl

theorem stuck_dbl_ub {α : Type} {old : Double} {f : Double → Rd α} (h : ∀ v s, Stuck s → f v s = .ub) :
    ∀ s, Stuck s → (inDouble old >>= f) s = .ub := fun s hs => by
  rw [Rd.bind_ok (hs.inDouble _)]; exact h _ _ hs

theorem loadPointAscii_ub (cfg : Cfg) (p : PointEntity) (h : ¬ ∀ d ∈ [p.x, p.y, p.z], Printable cfg.fmt d) :
    EndsT (loadPointAscii cfg {}) (pointToks cfg.fmt p) (· = .ub) := by
  have s3 : ∀ (f : List Int32 → Rd PointEntity) s, Stuck s → (loadIntListAscii cfg [] >>= f) s = .ub :=
    fun f s hs => Rd.bind_ub (stuck_intList_ub cfg _ hs)
  unfold loadPointAscii
  refine EndsT.cons (inInt_tok _ _) ?_
  refine EndsT.dbl_ub (fun h1 => ?_) fun v => stuck_dbl_ub fun v => stuck_dbl_ub fun v => s3 _
  refine EndsT.dbl_ub (fun h2 => ?_) fun v => stuck_dbl_ub fun v => s3 _
  refine EndsT.dbl_ub (fun h3 => ?_) fun v => s3 _
  exact absurd (by simp [h1, h2, h3]) h

theorem loadBoxAscii_ub (cfg : Cfg) (p : BoxEntity)
    (h : ¬ ∀ d ∈ [p.minX, p.minY, p.minZ, p.maxX, p.maxY, p.maxZ], Printable cfg.fmt d) :
    EndsT (loadBoxAscii cfg {}) (boxToks cfg.fmt p) (· = .ub) := by
  have s3 : ∀ (f : List Int32 → Rd BoxEntity) s, Stuck s → (loadIntListAscii cfg [] >>= f) s = .ub :=
    fun f s hs => Rd.bind_ub (stuck_intList_ub cfg _ hs)
  unfold loadBoxAscii
  refine EndsT.cons (inInt_tok _ _) ?_
  refine EndsT.dbl_ub (fun h1 => ?_) fun v => stuck_dbl_ub fun v => stuck_dbl_ub fun v => stuck_dbl_ub fun v =>
    stuck_dbl_ub fun v => stuck_dbl_ub fun v => s3 _
  refine EndsT.dbl_ub (fun h2 => ?_) fun v => stuck_dbl_ub fun v => stuck_dbl_ub fun v => stuck_dbl_ub fun v =>
    stuck_dbl_ub fun v => s3 _
  refine EndsT.dbl_ub (fun h3 => ?_) fun v => stuck_dbl_ub fun v => stuck_dbl_ub fun v => stuck_dbl_ub fun v => s3 _
  refine EndsT.dbl_ub (fun h4 => ?_) fun v => stuck_dbl_ub fun v => stuck_dbl_ub fun v => s3 _
  refine EndsT.dbl_ub (fun h5 => ?_) fun v => stuck_dbl_ub fun v => s3 _
  refine EndsT.dbl_ub (fun h6 => ?_) fun v => s3 _
  exact absurd (by simp [h1, h2, h3, h4, h5, h6]) h

theorem loadEntitiesAscii41_ub (cfg : Cfg) (e : Entities) (hbad : ∃ d ∈ e.doubles, ¬ Printable cfg.fmt d)
    (hc : ∀ n ∈ e.sizes, n ≤ cfg.maxCount) :
    EndsT (loadEntitiesAscii41 cfg {}) (entitiesToks cfg.fmt e) (· = .ub) := by
  classical
  let gp : PointEntity → Prop := fun p => ∀ d ∈ [p.x, p.y, p.z], Printable cfg.fmt d
  let gb : BoxEntity → Prop := fun p => ∀ d ∈ [p.minX, p.minY, p.minZ, p.maxX, p.maxY, p.maxZ], Printable cfg.fmt d
  have hp : ∀ p ∈ e.points, gp p → ReadsT (loadPointAscii cfg {}) (pointToks cfg.fmt p) (p.convert (reread cfg.fmt)) := by
    intro p hp hg
    refine loadPointAscii_reads cfg p (fun d h => (hg d h).dtok) (hc _ ?_)
    exact List.mem_append_left _ (List.mem_append_right _ (List.mem_map.mpr ⟨p, hp, rfl⟩))
  have hb : ∀ p ∈ e.curves ++ e.surfaces ++ e.volumes, gb p →
      ReadsT (loadBoxAscii cfg {}) (boxToks cfg.fmt p) (p.convert (reread cfg.fmt)) := by
    intro p hp hg
    refine loadBoxAscii_reads cfg p (fun d h => (hg d h).dtok) (hc _ ?_) (hc _ ?_)
    · exact List.mem_append_right _ (List.mem_flatMap.mpr ⟨p, hp, by simp⟩)
    · exact List.mem_append_right _ (List.mem_flatMap.mpr ⟨p, hp, by simp⟩)
  have hlt := cfg.maxCount_lt
  have c1 := hc e.points.length (by simp [Entities.sizes])
  have c2 := hc e.curves.length (by simp [Entities.sizes])
  have c3 := hc e.surfaces.length (by simp [Entities.sizes])
  have c4 := hc e.volumes.length (by simp [Entities.sizes])
  have l1 : (sizeU e.points).toNat = e.points.length := sizeU_toNat (by omega)
  have l2 : (sizeU e.curves).toNat = e.curves.length := sizeU_toNat (by omega)
  have l3 : (sizeU e.surfaces).toNat = e.surfaces.length := sizeU_toNat (by omega)
  have l4 : (sizeU e.volumes).toNat = e.volumes.length := sizeU_toNat (by omega)
  unfold loadEntitiesAscii41
  refine EndsT.cons (extractSize_tok _) (EndsT.cons (extractSize_tok _) (EndsT.cons (extractSize_tok _)
    (EndsT.cons (extractSize_tok _) (EndsT.silent (silent_assertGood cfg) ?_))))
  refine EndsT.silent (silent_useVar _) (EndsT.silent (silent_resize_nil _ _ _ (by omega)) ?_)
  refine EndsT.silent (silent_useVar _) (EndsT.silent (silent_resize_nil _ _ _ (by omega)) ?_)
  refine EndsT.silent (silent_useVar _) (EndsT.silent (silent_resize_nil _ _ _ (by omega)) ?_)
  refine EndsT.silent (silent_useVar _) (EndsT.silent (silent_resize_nil _ _ _ (by omega)) ?_)
  rw [l1, l2, l3, l4]
  have ub : ∀ {α β : Type} {p : Rd α} {f : α → Rd β} {t1 : List Bytes} (t2 : List Bytes), EndsT p t1 (· = .ub) →
      EndsT (p >>= f) (t1 ++ t2) (· = .ub) := fun t2 h => EndsT.more (EndsT.first h fun s hs => Rd.bind_ub hs) t2
  have good : ∀ {γ : Type} {g : γ → Prop} {l : List γ}, (¬ ∃ c ∈ l, ¬ g c) → ∀ c ∈ l, g c := by
    intro γ g l h c hc
    by_contra hn
    exact h ⟨c, hc, hn⟩
  by_cases b1 : ∃ c ∈ e.points, ¬ gp c
  · exact ub _ (EndsT.forEach_bad e.points b1 hp fun c _ hn => loadPointAscii_ub cfg c hn)
  refine EndsT.bind (ReadsT.forEach e.points fun c hm => hp c hm (good b1 c hm)) ?_
  by_cases b2 : ∃ c ∈ e.curves, ¬ gb c
  · exact ub _ (EndsT.forEach_bad e.curves b2 (fun c hm => hb c (by simp [hm])) fun c _ hn => loadBoxAscii_ub cfg c hn)
  refine EndsT.bind (ReadsT.forEach e.curves fun c hm => hb c (by simp [hm]) (good b2 c hm)) ?_
  by_cases b3 : ∃ c ∈ e.surfaces, ¬ gb c
  · exact ub _ (EndsT.forEach_bad e.surfaces b3 (fun c hm => hb c (by simp [hm])) fun c _ hn => loadBoxAscii_ub cfg c hn)
  refine EndsT.bind (ReadsT.forEach e.surfaces fun c hm => hb c (by simp [hm]) (good b3 c hm)) ?_
  by_cases b4 : ∃ c ∈ e.volumes, ¬ gb c
  · exact EndsT.first (EndsT.forEach_bad e.volumes b4 (fun c hm => hb c (by simp [hm])) fun c _ hn => loadBoxAscii_ub cfg c hn)
      fun s hs => Rd.bind_ub hs
  exfalso
  obtain ⟨d, hd, hn⟩ := hbad
  rcases List.mem_append.mp hd with hd | hd
  · obtain ⟨p, hp, hd⟩ := List.mem_flatMap.mp hd
    exact hn (good b1 p hp d hd)
  · obtain ⟨p, hp, hd⟩ := List.mem_flatMap.mp hd
    rcases List.mem_append.mp hp with hp | hp
    · rcases List.mem_append.mp hp with hp | hp
      · exact hn (good b2 p hp d hd)
      · exact hn (good b3 p hp d hd)
    · exact hn (good b4 p hp d hd)

/-! ## Data sections -/

theorem resize_fresh {α : Type} (cfg : Cfg) (n : UInt64) (d : α) (h : n.toNat ≤ cfg.maxCount) (s : Stream) :
    resize cfg [] n d s = .ok (List.replicate n.toNat d, s) := Rd.lift_ok (by simp [vecResize, h]) s

theorem loadDataHeader_ub (cfg : Cfg) {P : Fmt} (h : DataHeader)
    (hbad : ∃ d ∈ h.realTags, ¬ Printable P d) (hc1 : h.stringTags.length ≤ cfg.maxCount)
    (hc2 : h.realTags.length ≤ cfg.maxCount) :
    EndsT (loadDataHeader cfg {}) (headerToks P h) (· = .ub) := by
  have hlt := cfg.maxCount_lt
  have l1 : (sizeU h.stringTags).toNat = h.stringTags.length := sizeU_toNat (by omega)
  have l2 : (sizeU h.realTags).toNat = h.realTags.length := sizeU_toNat (by omega)
  unfold loadDataHeader
  refine EndsT.cons (extractSize_tok _) (EndsT.silent (silent_useVar _)
    (EndsT.silent (silent_resize_nil _ _ _ (by omega)) ?_))
  rw [l1]
  refine EndsT.bind (readsT_quoted _) (EndsT.cons (extractSize_tok _) (EndsT.silent (silent_useVar _)
    (EndsT.silent (silent_resize_nil _ _ _ (by omega)) ?_)))
  rw [l2]
  refine EndsT.more (EndsT.first (EndsT.doubles h.realTags hbad) fun s hs => hs.bind (R := (· = .ub)) fun a s' hs' => ?_) _
  rw [Rd.bind_ok hs'.extractSize]
  rfl

theorem loadDataEntryAscii_stuck (cfg : Cfg) (fields : UInt64) (isEN : Bool) (hf : isEN = false → fields.toNat ≤ cfg.maxCount)
    (s : Stream) (hs : Stuck s) : Jam (loadDataEntryAscii cfg fields isEN {} s) := by
  unfold loadDataEntryAscii
  rw [Rd.bind_ok (hs.inSize _)]
  cases isEN with
  | false =>
    simp only [Bool.false_eq_true, if_false]
    rw [Rd.bind_ok (resize_fresh cfg fields Double.zero (hf rfl) s),
      Rd.bind_ok (Stuck.forEach _ fun a _ => hs.inDouble a)]
    exact hs.jam _
  | true =>
    simp only [if_true]
    rw [Rd.bind_ok (hs.inInt _)]
    have e0 : fields * sizeOfInt 0 = 0 := by
      rw [show sizeOfInt 0 = 0 from by decide]; simp
    show Jam ((resize cfg [] (fields * sizeOfInt 0) Double.zero >>= _) s)
    rw [e0, Rd.bind_ok (resize_fresh cfg 0 Double.zero (by simp) s)]
    rw [show (sizeOfInt ({} : DataEntry).numNodesPerElement).toNat = 0 from by decide]
    exact hs.jam _

theorem loadDataEntryAscii_jam (cfg : Cfg) (fields : Int32) (hf : 0 ≤ fields.toInt) (isEN : Bool)
    (e : DataEntry) (he : e.Ok isEN fields) (hbad : ∃ x ∈ e.data, ¬ Printable cfg.fmt x)
    (hc : e.data.length ≤ cfg.maxCount) :
    EndsT (loadDataEntryAscii cfg (sizeOfInt fields) isEN {}) (entryToks cfg.fmt isEN e) Jam := by
  have hlt := cfg.maxCount_lt
  unfold loadDataEntryAscii
  refine EndsT.cons (inSize_tok _ _) ?_
  cases isEN with
  | false =>
    have hl : (sizeOfInt fields).toNat = e.data.length := by
      rw [sizeOfInt_toNat hf]
      have : (e.data.length : Int) = fields.toInt := he
      omega
    refine EndsT.silent (silent_resize_nil _ _ _ (by omega)) ?_
    rw [hl]
    exact EndsT.first (EndsT.doubles _ hbad) fun s hs => hs.bind fun a s' hs' => hs'.jam _
  | true =>
    obtain ⟨h1, h2⟩ : 0 ≤ e.numNodesPerElement.toInt ∧
      (e.data.length : Int) = fields.toInt * e.numNodesPerElement.toInt := he
    obtain ⟨hm1, hm2⟩ := fields_mul hf h1 h2 (by omega)
    refine EndsT.cons (inInt_tok _ _) (EndsT.silent (silent_resize_nil _ _ _ (by omega)) ?_)
    have hfill := EndsT.fill (P := cfg.fmt) e.data
      (List.replicate (sizeOfInt fields * sizeOfInt e.numNodesPerElement).toNat Double.zero) hbad (by simp [hm1]) (by omega)
    rw [hm2, ← loopN_flat] at hfill
    exact EndsT.first hfill fun s hs => hs.bind fun a s' hs' => hs'.jam _

theorem loadData_dead (cfg : Cfg) (f : MeshFormat) (ht : f.fileType = 0)
    (isEN : Bool) (d : Data) (hok : d.Ok isEN) (hfit : d.Fits cfg)
    (hd1 : ∀ x ∈ d.header.realTags, Printable cfg.fmt x)
    (hbad : ∃ e ∈ d.entries, ∃ x ∈ e.data, ¬ Printable cfg.fmt x) :
    EndsT (loadData cfg f isEN) (dataToks cfg.fmt isEN d) (Dead cfg) := by
  obtain ⟨t0, fields, num, more, hi, hnum, hf, he⟩ := hok.entries
  obtain ⟨c1, c2, c3, c4, c5⟩ := hfit.get
  unfold loadData
  refine EndsT.bind (loadDataHeader_reads cfg d.header (fun x hx => (hd1 x hx).dtok) c1 c2 c3) ?_
  simp only [hi]
  have hn : (sizeOfInt num).toNat = d.entries.length := by
    rw [sizeOfInt_toNat (by omega)]; omega
  refine EndsT.silent (silent_resize_nil _ _ _ (by omega)) ?_
  rw [hn, if_neg (by rw [ht]; decide)]
  have hbad' : ∃ e ∈ d.entries, ¬ ∀ x ∈ e.data, Printable cfg.fmt x := by
    obtain ⟨e, hm, x, hx, hp⟩ := hbad
    exact ⟨e, hm, fun h => hp (h x hx)⟩
  refine EndsT.first (EndsT.forEach_jam d.entries hbad' (g := DataEntry.convert isEN id (reread cfg.fmt))
    (fun e hm hg => loadDataEntryAscii_reads cfg fields hf isEN e (he e hm) (fun x hx => (hg x hx).dtok) (c5 e hm))
    (fun e hm hg => loadDataEntryAscii_jam cfg fields hf isEN e (he e hm) (by simpa using hg) (c5 e hm))
    (loadDataEntryAscii_stuck cfg _ isEN ?_)) fun s hs => ?_
  · intro hEN
    obtain ⟨e, hm, _⟩ := hbad
    have hk := he e hm
    rw [hEN] at hk
    have : (e.data.length : Int) = fields.toInt := hk
    have := c5 e hm
    rw [sizeOfInt_toNat hf]
    omega
  · exact hs.bind fun a s' hs' => Dead.bind hs'.assertGood fun _ _ s'' h'' => h''.jam _

/-! ## Curves and patches -/

theorem loadCurveAscii_jam (cfg : Cfg) (c : Curve) (h : c.Ok)
    (hc : c.data.length ≤ cfg.maxCount) (hbad : ∃ x ∈ c.data, ¬ Printable cfg.fmt x) :
    EndsT (loadCurveAscii cfg {}) (curveToks c ++ c.data.map (fmtDouble cfg.fmt)) Jam := by
  have hlt := cfg.maxCount_lt
  have hl := h.entries (by omega)
  unfold loadCurveAscii
  refine EndsT.bind (loadCurveHeader_reads c _) (EndsT.silent (silent_resize_nil _ _ _ ?_) ?_)
  · show c.numEntries.toNat ≤ _
    omega
  · show EndsT (forEach inDouble (List.replicate c.numEntries.toNat _) >>= _) _ _
    rw [hl]
    exact EndsT.first (EndsT.doubles _ hbad) fun s hs => hs.bind fun a s' hs' => hs'.jam _

theorem loadCurveAscii_stuck (cfg : Cfg) (s : Stream) (hs : Stuck s) : Jam (loadCurveAscii cfg {} s) := by
  have hh : loadCurveHeader {} s = .ok ({}, s) := by
    unfold loadCurveHeader
    rw [Rd.bind_ok (hs.inSize _), Rd.bind_ok (hs.inSize _), Rd.bind_ok (hs.inSize _), Rd.bind_ok (hs.inSize _),
      Rd.bind_ok (hs.inSize _), Rd.bind_ok (hs.inSize _)]
    rfl
  unfold loadCurveAscii
  rw [Rd.bind_ok hh]
  show Jam ((resize cfg [] ({} : Curve).numEntries Double.zero >>= _) s)
  rw [show ({} : Curve).numEntries = 0 from by decide, Rd.bind_ok (resize_fresh cfg 0 Double.zero (by simp) s)]
  exact hs.jam _

theorem loadPatchAscii_jam (cfg : Cfg) (c : Patch) (h : c.Ok)
    (hc : c.data.length ≤ cfg.maxCount) (hbad : ∃ x ∈ c.data, ¬ Printable cfg.fmt x) :
    EndsT (loadPatchAscii cfg {}) (patchToks c ++ c.data.map (fmtDouble cfg.fmt)) Jam := by
  have hlt := cfg.maxCount_lt
  have hl := h.entries (by omega)
  unfold loadPatchAscii
  refine EndsT.bind (loadPatchHeader_reads c _) (EndsT.silent (silent_resize_nil _ _ _ ?_) ?_)
  · show c.numEntries.toNat ≤ _
    omega
  · show EndsT (forEach inDouble (List.replicate c.numEntries.toNat _) >>= _) _ _
    rw [hl]
    exact EndsT.first (EndsT.doubles _ hbad) fun s hs => hs.bind fun a s' hs' => hs'.jam _

theorem loadPatchAscii_stuck (cfg : Cfg) (s : Stream) (hs : Stuck s) : Jam (loadPatchAscii cfg {} s) := by
  have hh : loadPatchHeader {} s = .ok ({}, s) := by
    unfold loadPatchHeader
    rw [Rd.bind_ok (hs.inSize _), Rd.bind_ok (hs.inSize _), Rd.bind_ok (hs.inSize _), Rd.bind_ok (hs.inSize _),
      Rd.bind_ok (hs.inSize _), Rd.bind_ok (hs.inSize _), Rd.bind_ok (hs.inSize _), Rd.bind_ok (hs.inSize _)]
    rfl
  unfold loadPatchAscii
  rw [Rd.bind_ok hh]
  show Jam ((resize cfg [] ({} : Patch).numEntries Double.zero >>= _) s)
  rw [show ({} : Patch).numEntries = 0 from by decide, Rd.bind_ok (resize_fresh cfg 0 Double.zero (by simp) s)]
  exact hs.jam _

end MshIO
