import Verif.Proofs.File41
import Verif.Proofs.Boundary

/-!
# Extension sections in builds without the extension

A `$Curves` or `$Patches` section written as text is passed over: its reader does nothing and no word
in it is the end marker.
-/

namespace MshIO

/-! ## No dollar sign in numbers -/

theorem dollar_decNat (n : ℕ) : (36 : UInt8) ∉ decNat n := fun h => by
  have := decNat_digits n _ h
  revert this; decide

theorem dollar_decU64 (n : UInt64) : (36 : UInt8) ∉ decU64 n := dollar_decNat _

theorem dollar_fracText {ds : Bytes} (h : (36 : UInt8) ∉ ds) : (36 : UInt8) ∉ fracText (stripZeros ds) := by
  intro hc
  unfold fracText at hc
  split at hc
  · cases hc
  · rcases List.mem_cons.mp hc with hc | hc
    · revert hc; decide
    · refine h ?_
      unfold stripZeros at hc
      rw [List.mem_reverse] at hc
      exact List.mem_reverse.mp (List.dropWhile_sublist _ |>.mem hc)

theorem dollar_expText (x : ℤ) : (36 : UInt8) ∉ expText x := by
  intro hc
  unfold expText at hc
  rcases List.mem_cons.mp hc with hc | hc
  · split at hc <;> revert hc <;> decide
  · split at hc
    · rcases List.mem_cons.mp hc with hc | hc
      · revert hc; decide
      · exact dollar_decNat _ hc
    · exact dollar_decNat _ hc

theorem dollar_fmtDouble (p : Fmt) (d : Double) : (36 : UInt8) ∉ fmtDouble p d := by
  by_cases hd : d.isFinite = true
  · obtain ⟨n, _, e⟩ := fmtDouble_numeral p hd
    rw [e]
    exact fun hc => (n.text_chars _ hc).not_dollar rfl
  · unfold fmtDouble
    rw [if_neg hd]
    cases d.neg <;> by_cases h : d.mag = Double.infMag <;> simp only [h, if_true, if_false] <;> decide

/-! ## Skipped sections -/

theorem ParsesT.skip {cfg : Cfg} {spec : MshSpec} {name : Bytes} {ts : List Bytes}
    (hn : ∀ c ∈ name, isSpace c = false) (hk : loadSection cfg (36 :: name) spec = pure spec)
    (hts : ∀ t ∈ ts, Word t ∧ (36 : UInt8) ∉ t) :
    ParsesT cfg spec ((36 :: name) :: (ts ++ [endTag name])) spec := by
  intro ps hps hs
  cases ps with
  | nil => simp at hps
  | cons q ps =>
    simp only [List.map_cons, List.cons.injEq] at hps
    obtain ⟨hq, hps⟩ := hps
    obtain ⟨p1, p2, rfl, e1, e2⟩ := List.map_eq_append_iff.mp hps
    obtain ⟨r, rfl, hr⟩ := List.map_eq_singleton_iff.mp e2
    have hq2 := hs q (by simp)
    have hr2 := hs r (by simp)
    intro w rest hw
    refine ⟨r.2, hr2.1, ?_⟩
    have hh : WsHead (r.2 ++ rest) := wsHead_append hr2.head
    have := loadRound_skip (cfg := cfg) (spec := spec) hn hk hq2 (ps := p1) (fun q hq => by
      have hm : q.1 ∈ ts := e1 ▸ List.mem_map_of_mem hq
      obtain ⟨h1, h2⟩ := hts _ hm
      exact ⟨h1, fun h => h2 (by rw [h]; simp [endTag]), hs q (by simp [hq])⟩) (rest := r.2 ++ rest) (Or.inr hh)
    have e : w ++ flat (q :: (p1 ++ [r])) ++ rest =
        w ++ ((36 :: name) ++ (q.2 ++ flat p1 ++ endTag name ++ (r.2 ++ rest))) := by
      rw [← hr, ← hq]
      simp [flat]
    rw [e, loadFull_wsPrefix cfg spec hw]
    refine loadFull_round_ok rfl (this.trans ?_)
    obtain ⟨c, b, e, _⟩ := hh
    rw [e]; rfl

theorem LinkedT.skip {cfg : Cfg} {spec : MshSpec} {name : Bytes} {ts : List Bytes}
    (hn : ∀ c ∈ name, isSpace c = false) (hk : loadSection cfg (36 :: name) spec = pure spec)
    (hts : ∀ t ∈ ts, Word t ∧ (36 : UInt8) ∉ t) (hkn : name ∈ knownSections true := by decide) :
    LinkedT cfg spec ((36 :: name) :: (ts ++ [endTag name])) spec := by
  intro ps hps hs
  cases ps with
  | nil => simp at hps
  | cons q ps =>
    simp only [List.map_cons, List.cons.injEq] at hps
    obtain ⟨hq, hps⟩ := hps
    obtain ⟨p1, p2, rfl, e1, e2⟩ := List.map_eq_append_iff.mp hps
    obtain ⟨r, rfl, hr⟩ := List.map_eq_singleton_iff.mp e2
    have hq2 := hs q (by simp)
    have hr2 := hs r (by simp)
    have := loadRound_skip (cfg := cfg) (spec := spec) hn hk hq2 (ps := p1) (fun q hq => by
      have hm : q.1 ∈ ts := e1 ▸ List.mem_map_of_mem hq
      obtain ⟨h1, h2⟩ := hts _ hm
      exact ⟨h1, fun h => h2 (by rw [h]; simp [endTag]), hs q (by simp [hq])⟩) (rest := r.2) (Or.inr hr2.head)
    refine (Linked.one (cfg := cfg) (body := q.2 ++ flat p1) (tail := r.2) hn
      (by rw [List.append_assoc]; exact wsHead_append hq2.head) hr2 (this.trans ?_) (by simp) hkn).cast ?_
    · obtain ⟨c, b, e, _⟩ := hr2.head
      rw [e]; rfl
    · rw [← hr, ← hq]
      simp [flat]

theorem SLT.skip {cfg : Cfg} {name : Bytes} {w : Wr Unit} {ts : List Bytes} {spec : MshSpec}
    {t e : Bytes} (ht : t = (36 :: name) ++ endl) (he : e = endTag name ++ endl)
    (hn : ∀ c ∈ name, isSpace c = false) (hw : WritesT w ts)
    (hk : loadSection cfg (36 :: name) spec = Pure.pure spec) (hts : ∀ t ∈ ts, Word t ∧ (36 : UInt8) ∉ t)
    (hkn : name ∈ knownSections true := by decide) :
    SLT cfg ((36 :: name) :: (ts ++ [endTag name])) (emit t >>= fun _ => w >>= fun _ => emit e) spec spec := by
  refine ⟨?_, ParsesT.skip hn hk hts, LinkedT.skip hn hk hts hkn⟩
  exact WritesT.bind (x := [36 :: name]) (WritesT.emit [(36 :: name, [10])] (by simp [one_nl, (tag_word hn).isTok])
      (by subst ht; simp [flat, endl]))
    (WritesT.bind hw (WritesT.emit [(endTag name, [10])] (by simp [one_nl, (endTag_word hn).isTok])
      (by subst he; simp [flat, endl])))

theorem word_decU64 (n : UInt64) : Word (decU64 n) := decNat_word _

theorem slt_curves_skip {cfg : Cfg} {cw : Cfg} (hn : cfg.nanospline = false) (spec : MshSpec)
    (f : MeshFormat) (hf : f.fileType = 0) (cs : List Curve)
    (hok : ∀ c ∈ cs, c.Ok) (hfit : ∀ c ∈ cs, c.data.length < 2 ^ 64) :
    SLT cfg ((36 :: b! "Curves") :: (([decU64 (sizeU cs)] ++ cs.flatMap fun c => curveToks c ++ c.data.map (fmtDouble cw.fmt)) ++
      [endTag (b! "Curves")])) (saveCurves cw f cs) spec spec := by
  unfold saveCurves
  simp only [if_pos hf]
  rw [← Wr.bind_assoc (emit (decU64 (sizeU cs) ++ endl))]
  refine SLT.skip (name := b! "Curves") rfl rfl (by decide) (WritesT.bind (x := [_])
    (WritesT.emit [(decU64 (sizeU cs), [10])] (by simp [one_nl]) (by simp [flat, endl]))
    (WritesT.forW _ fun c hm => saveCurveAscii_writes cw c (hok c hm) (hfit c hm))) ?_ ?_
  · rw [loadSection_curves]
    unfold loadCurves
    simp only [hn]
    rfl
  · intro t ht
    simp only [List.singleton_append, List.mem_cons, List.mem_flatMap, curveToks,
      List.mem_append, List.mem_map, List.not_mem_nil, or_false] at ht
    rcases ht with rfl | ⟨c, _, h | ⟨x, _, rfl⟩⟩
    · exact ⟨word_decU64 _, dollar_decU64 _⟩
    · rcases h with rfl | rfl | rfl | rfl | rfl | rfl <;> exact ⟨word_decU64 _, dollar_decU64 _⟩
    · exact ⟨fmtDouble_word _ _, dollar_fmtDouble _ _⟩

theorem slt_patches_skip {cfg : Cfg} {cw : Cfg} (hn : cfg.nanospline = false) (spec : MshSpec)
    (f : MeshFormat) (hf : f.fileType = 0) (cs : List Patch)
    (hok : ∀ c ∈ cs, c.Ok) (hfit : ∀ c ∈ cs, c.data.length < 2 ^ 64) :
    SLT cfg ((36 :: b! "Patches") :: (([decU64 (sizeU cs)] ++ cs.flatMap fun c => patchToks c ++ c.data.map (fmtDouble cw.fmt)) ++
      [endTag (b! "Patches")])) (savePatches cw f cs) spec spec := by
  unfold savePatches
  simp only [if_pos hf]
  rw [← Wr.bind_assoc (emit (decU64 (sizeU cs) ++ endl))]
  refine SLT.skip (name := b! "Patches") rfl rfl (by decide) (WritesT.bind (x := [_])
    (WritesT.emit [(decU64 (sizeU cs), [10])] (by simp [one_nl]) (by simp [flat, endl]))
    (WritesT.forW _ fun c hm => savePatchAscii_writes cw c (hok c hm) (hfit c hm))) ?_ ?_
  · rw [loadSection_patches]
    unfold loadPatches
    simp only [hn]
    rfl
  · intro t ht
    simp only [List.singleton_append, List.mem_cons, List.mem_flatMap, patchToks,
      List.mem_append, List.mem_map, List.not_mem_nil, or_false] at ht
    rcases ht with rfl | ⟨c, _, h | ⟨x, _, rfl⟩⟩
    · exact ⟨word_decU64 _, dollar_decU64 _⟩
    · rcases h with rfl | rfl | rfl | rfl | rfl | rfl | rfl | rfl <;> exact ⟨word_decU64 _, dollar_decU64 _⟩
    · exact ⟨fmtDouble_word _ _, dollar_fmtDouble _ _⟩

/-! ## Whole files -/

/-- The build without the extension. -/
abbrev Cfg.noExt (cfg : Cfg) : Cfg := { cfg with nanospline := false }

theorem Wr.whenW_false (w : Wr Unit) : whenW false w = Pure.pure () := rfl

/-- A file of a build with the extension is the file of one without it followed by the extension's sections. -/
theorem saveMsh_ext (cfg : Cfg) (hn : cfg.nanospline = true) (s : MshSpec) : saveMsh cfg s =
    saveMsh cfg.noExt s >>= fun _ => saveNanosplineFormat s.nanosplineVersion >>= fun _ =>
      whenW (s.curves.length > 0) (saveCurves cfg s.meshFormat s.curves) >>= fun _ =>
      whenW (s.patches.length > 0) (savePatches cfg s.meshFormat s.patches) := by
  rw [saveMsh_eq, saveMsh_eq]
  unfold saveTail
  simp only [hn, Wr.bind_assoc]
  rfl

theorem slt_ext {cfg : Cfg} (hn : cfg.nanospline = true) {s s1 : MshSpec} (ht : s.meshFormat.fileType = 0)
    (hs : s.Ok) (hf : s.Fits cfg) (hw : Word s.nanosplineVersion)
    {ts : List Bytes} (h : SLT cfg.noExt ts (saveMsh cfg.noExt s) {} s1) :
    SLT cfg.noExt (ts ++ extToks cfg.fmt s) (saveMsh cfg s) {} { s1 with nanosplineVersion := s.nanosplineVersion } := by
  rw [saveMsh_ext cfg hn]
  have hlt := cfg.maxCount_lt
  refine SLT.bind h (SLT.bind (slt_nanosplineFormat cfg.noExt s1 _ hw) (SLT.bind
    (SLT.when (s2 := { s1 with nanosplineVersion := s.nanosplineVersion }) (fun _ => ?_) fun _ => rfl)
    (SLT.when (fun _ => ?_) fun _ => rfl)))
  · refine slt_curves_skip rfl _ _ ht _ hs.curve fun c hc => ?_
    have := (hs.tail hf fun _ => hw).csOk c hc
    omega
  · refine slt_patches_skip rfl _ _ ht _ hs.patch fun c hc => ?_
    have := (hs.tail hf fun _ => hw).psOk c hc
    omega

end MshIO
