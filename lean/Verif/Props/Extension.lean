import Verif.Proofs.Skip
import Verif.Props.Demo22

/-!
# C39: files with extension sections in builds without the extension

`cfg.noExt` is the build `cfg` with the nanospline extension switched off.  `s.bare` is the spec without
its curves and patches.
-/

namespace MshIO

/-- The spec without curves and patches. -/
def MshSpec.bare (s : MshSpec) : MshSpec := { s with curves := [], patches := [] }

/-! ## Helper lemmas -/

theorem MshSpec.Ok.bare {s : MshSpec} (h : s.Ok) : s.bare.Ok :=
  ⟨h.1, h.2, h.3, h.4, h.5, h.6, h.7, by simp [MshSpec.bare], by simp [MshSpec.bare]⟩

theorem MshSpec.Fits.bare {cfg : Cfg} {s : MshSpec} (h : s.Fits cfg) : s.bare.Fits cfg.noExt where
  all := by
    intro n hn
    by_cases h0 : n = 0
    · omega
    · refine h.all n ?_
      simp only [MshSpec.sizes, MshSpec.bare, List.mem_append, List.mem_cons, List.not_mem_nil, or_false,
        List.map_nil, List.length_nil, h0] at hn ⊢
      tauto
  groups := h.groups

/-! ## C39 -/

/-- **C39** (v4.1) The ASCII file a build with the extension writes from a consistent spec loads, in the build
without the extension, to the spec with empty curves and patches.  The numbers of the curves and patches need not
even be readable. -/
theorem C39_ascii41_reader (cfg : Cfg) (hx : cfg.nanospline = true) (s : MshSpec) (hfmt : s.meshFormat = ⟨b! "4.1", 0, 8⟩)
    (hs : s.Ok) (hf : s.Fits cfg) (hd : ∀ x ∈ s.bare.doubles, Printable cfg.fmt x)
    (hpar : cfg.asserts = true → ∀ b ∈ s.nodes.entityBlocks, 0 ≤ b.parametric.toInt ∧ b.parametric.toInt ≤ 3)
    (hw : Word s.nanosplineVersion) :
    ∃ file, saveMsh cfg s = (file, .ok ()) ∧
      loadMsh cfg.noExt file = .ok (s.bare.convert true id (reread cfg.fmt) (reread cfg.fmt)) := by
  have h1 : SLT cfg.noExt _ (saveMsh cfg.noExt s.bare) {} (s.bare.convert false id (reread cfg.fmt) (reread cfg.fmt)) :=
    slt_msh41 cfg.noExt s.bare (by show s.meshFormat.version = _; rw [hfmt]) (by show s.meshFormat.fileType = _; rw [hfmt])
      (by show s.meshFormat.dataSize = _; rw [hfmt]) hs.bare hf.bare hpar (fun h => by cases h) fun x hx => (hd x hx).dtok
  have e : saveMsh cfg.noExt s.bare = saveMsh cfg.noExt s := rfl
  rw [e] at h1
  have h2 := slt_ext hx (by rw [hfmt]) hs hf hw h1
  obtain ⟨file, h3, h4⟩ := h2.sl.load41 (by show s.meshFormat.version = _; rw [hfmt])
  exact ⟨file, h3, h4⟩

/-- **C39** (v4.1) One ASCII file, two builds: the build without the extension loads the same spec as the build
with it, except that curves and patches are empty. -/
theorem C39_ascii41 (cfg : Cfg) (hx : cfg.nanospline = true) (s : MshSpec) (hfmt : s.meshFormat = ⟨b! "4.1", 0, 8⟩)
    (hs : s.Ok) (hf : s.Fits cfg) (hd : ∀ x ∈ s.doubles, Printable cfg.fmt x)
    (hpar : cfg.asserts = true → ∀ b ∈ s.nodes.entityBlocks, 0 ≤ b.parametric.toInt ∧ b.parametric.toInt ≤ 3)
    (hw : Word s.nanosplineVersion) :
    ∃ file t, saveMsh cfg s = (file, .ok ()) ∧ loadMsh cfg file = .ok t ∧
      t.curves.length = s.curves.length ∧ t.patches.length = s.patches.length ∧
      loadMsh { cfg with nanospline := false } file = .ok { t with curves := [], patches := [] } := by
  obtain ⟨file, h1, h2⟩ := C02_ascii41 cfg s hfmt hs hf hd hpar (fun _ => hw)
  obtain ⟨file', h3, h4⟩ := C39_ascii41_reader cfg hx s hfmt hs hf (fun x h => hd x (by
    rw [mem_doubles] at h ⊢
    rcases h with h | h | h | h | h | h
    · exact Or.inl h
    · exact Or.inr (Or.inl h)
    · exact Or.inr (Or.inr (Or.inl h))
    · exact Or.inr (Or.inr (Or.inr (Or.inl h)))
    · cases h
    · cases h)) hpar hw
  obtain rfl : file = file' := by rw [h1] at h3; exact congrArg Prod.fst h3
  rw [hx] at h2
  refine ⟨file, _, h1, h2, ?_, ?_, h4⟩ <;> simp [MshSpec.convert]

/-- **C39** (v2.2) The same for version 2.2 ASCII files, under the hypotheses of C04. -/
theorem C39_ascii22_reader (cfg : Cfg) (hx : cfg.nanospline = true) (s : MshSpec) {d : Int32} (hfmt : s.meshFormat = ⟨b! "2.2", 0, d⟩)
    (hs : s.Ok) (hc : s.Counted) (hf : s.Fits cfg) (hetag : ∀ b ∈ s.elements.entityBlocks, ∀ t ∈ b.data, t.toNat < 2 ^ 31)
    (hd : ∀ x ∈ s.bare.doubles22, Printable cfg.fmt x)
    (hr : NodesInRange s.nodes.list s.elements.list) (hfit : Fits22 cfg s.nodes.list s.elements.list)
    (hw : Word s.nanosplineVersion) :
    ∃ file, saveMsh cfg s = (file, .ok ()) ∧
      loadMsh cfg.noExt file = .ok (s.bare.convert22 true id id (reread cfg.fmt) (reread cfg.fmt)) := by
  have he : s.elems22 wrap32 = s.elems22 id := elems22_congr hs fun b hb t ht => wrap32_small (hetag b hb t ht)
  have hr' := hr.convert (reread cfg.fmt)
  have hfit' : Fits22 cfg.noExt _ _ := ⟨hfit.two, hfit.coords, hfit.span, hfit.entries⟩
  have hfit'' := Fits22.convert (s := s) hfit' (reread cfg.fmt)
  have h2 := hfit.two
  have h1 := slt_msh22 cfg.noExt (rd := reread cfg.fmt) s.bare (by show s.meshFormat.version = _; rw [hfmt])
    (by show s.meshFormat.fileType = _; rw [hfmt]) hs.bare hf.bare ⟨hc.1, hc.2⟩ hetag (fun h => by cases h)
    (fun x hx => (hd x hx).dtok) hfit.coords (by show 1 ≤ cfg.maxCount; omega) hfit.entries
  have e : saveMsh cfg.noExt s.bare = saveMsh cfg.noExt s := rfl
  rw [e] at h1
  have h2 := slt_ext hx (by rw [hfmt]) hs hf hw h1
  obtain ⟨file, h3, h4⟩ := h2.sl.load
  refine ⟨file, h3, h4.trans ?_⟩
  have he' : s.bare.elems22 wrap32 = s.bare.elems22 id := he
  rw [he']
  have := post22 cfg.noExt s.bare (by show s.meshFormat.version = _; rw [hfmt]) hs.bare ⟨hc.1, hc.2⟩ true id id (reread cfg.fmt) (reread cfg.fmt)
    (rawElements (s.elems22 id)) ⟨rfl, rfl, rfl⟩ hr' hfit''
  exact this

/-- **C39** (v2.2) One ASCII file, two builds. -/
theorem C39_ascii22 (cfg : Cfg) (hx : cfg.nanospline = true) (s : MshSpec) {d : Int32} (hfmt : s.meshFormat = ⟨b! "2.2", 0, d⟩)
    (hs : s.Ok) (hc : s.Counted) (hf : s.Fits cfg) (hetag : ∀ b ∈ s.elements.entityBlocks, ∀ t ∈ b.data, t.toNat < 2 ^ 31)
    (hd : ∀ x ∈ s.doubles22, Printable cfg.fmt x)
    (hr : NodesInRange s.nodes.list s.elements.list) (hfit : Fits22 cfg s.nodes.list s.elements.list)
    (hw : Word s.nanosplineVersion) :
    ∃ file t, saveMsh cfg s = (file, .ok ()) ∧ loadMsh cfg file = .ok t ∧
      t.curves.length = s.curves.length ∧ t.patches.length = s.patches.length ∧
      loadMsh { cfg with nanospline := false } file = .ok { t with curves := [], patches := [] } := by
  obtain ⟨file, h1, h2⟩ := C04_ascii22 cfg s hfmt hs hc hf hetag hd hr hfit (fun _ => hw)
  obtain ⟨file', h3, h4⟩ := C39_ascii22_reader cfg hx s hfmt hs hc hf hetag (fun x h => hd x (by
    rw [mem_doubles22] at h ⊢
    rcases h with h | h | h | h | h
    · exact Or.inl h
    · exact Or.inr (Or.inl h)
    · exact Or.inr (Or.inr (Or.inl h))
    · cases h
    · cases h)) hr hfit hw
  obtain rfl : file = file' := by rw [h1] at h3; exact congrArg Prod.fst h3
  rw [hx] at h2
  refine ⟨file, _, h1, h2, ?_, ?_, h4⟩ <;> simp [MshSpec.convert22, MshSpec.convert]

/-! ## Concrete cases -/

/-- C39: a curve and a patch, π among the coordinates. -/
example : ∃ file t, saveMsh demoExt (demoNano ⟨b! "4.1", 0, 8⟩ dPi) = (file, .ok ()) ∧ loadMsh demoExt file = .ok t ∧
    t.curves.length = 1 ∧ t.patches.length = 1 ∧ loadMsh demoDebug file = .ok { t with curves := [], patches := [] } := by
  refine C39_ascii41 demoExt rfl _ rfl (demoNano_ok _ _) (demoNano_fits (by decide) _ _) (fun y hy => ?_) (fun _ => by decide) word_10
  rcases demo_doubles _ _ y hy with rfl | rfl | rfl
  · exact demo_exact.1
  · exact demo_exact.2.2.1
  · exact C05_default_always_readable _ (by decide)

/-- C39: version 2.2, with a NaN in a curve, which the build with the extension could not read. -/
def demoNanCurve : MshSpec := { demoSpec ⟨b! "2.2", 0, 8⟩ dOne with curves := [⟨1, 1, 1, 1, 2, 0, [dNaN, dOne, dOne, dTenth, dOne]⟩] }

example : ∃ file, saveMsh demoExt demoNanCurve = (file, .ok ()) ∧
    loadMsh demoDebug file = .ok (demoNanCurve.bare.convert22 true id id (reread (.general 6)) (reread (.general 6))) := by
  have h := demoSpec_ok ⟨b! "2.2", 0, 8⟩ dOne
  refine C39_ascii22_reader demoExt rfl demoNanCurve (d := 8) rfl
    ⟨h.1, h.2, h.3, h.4, h.5, h.6, h.7, by simp [demoNanCurve, Curve.Ok], h.9⟩ ⟨rfl, rfl⟩
    ⟨?_, by decide⟩ (demo22_tags ⟨b! "2.2", 0, 8⟩ dOne).2.1 (fun y hy => ?_) (demo22_range ⟨b! "2.2", 0, 8⟩ dOne) (demo22_fits (by decide) ⟨b! "2.2", 0, 8⟩ dOne) word_10
  · intro n hn
    have : n ∈ [1,1,0,1,0,2,1,1,0,1,1,0,1,1,2,1,5,2,6,4,1,1,3,2,1,1,1,0,3,1,3,5] := hn
    have hm : demoExt.maxCount = 1000000 := rfl
    simp only [List.mem_cons, List.not_mem_nil, or_false] at this
    omega
  · rcases demo22_doubles ⟨b! "2.2", 0, 8⟩ dOne y hy with rfl | rfl | rfl
    · exact demo_exact.1
    · exact demo_exact.2.2.1
    · exact demo_exact.1

/-- The claim is about ASCII files.  In binary files the numbers of a curve may spell an end marker: these five
doubles are the bytes of `"\n$EndCurves\n$NanoSplineFormat\n2.0\n"` and padding. -/
def demoSpelled : MshSpec where
  meshFormat := ⟨b! "4.1", 1, 8⟩
  curves := [⟨1, 1, 1, 1, 2, 0, [⟨0x727543646E45240A⟩, ⟨0x6E614E240A736576⟩, ⟨0x46656E696C70536F⟩, ⟨0x2E320A74616D726F⟩, ⟨0x2020202020200A30⟩]⟩]

theorem C39_binary_counterexample :
    (saveMsh demoExt demoSpelled).2 = .ok () ∧
    loadMsh demoExt (saveMsh demoExt demoSpelled).1 = .ok demoSpelled ∧
    loadMsh demoDebug (saveMsh demoExt demoSpelled).1 = .ok { demoSpelled.bare with nanosplineVersion := b! "2.0" } := by
  decide +kernel


end MshIO
