import Verif.Proofs.FormatBytes
import Verif.Proofs.FormatLines
import Verif.Proofs.Precision
import Verif.Props.Demo
import Verif.Props.Demo22

/-!
# C45, C46, C47: files have the published layout

`Spec/Format.lean` writes down the layout of MSH 4.1 and MSH 2.2 files, text and binary, without
reference to the code.  Files that are saved have exactly that layout, and files that have that layout,
produced by whatever program, load to the described mesh.  (Numbers in text are printed as by `fmtDouble`;
C05 to C08 say which double that text denotes.)
-/

namespace MshIO

theorem spaced_flat (lead : Bytes) (words : List (Bytes × Bytes)) : Spaced lead words = lead ++ flat words := by
  unfold Spaced flat
  rw [List.flatMap_def]

/-! ## C45: version 4.1, text -/

/-- **C45** Saving a consistent spec as version 4.1 text writes exactly the lines of the layout, one space between
words, also if there are NaN or infinite doubles.  Every entry of a data section needs at least one value. -/
theorem C45_ascii41_written (cfg : Cfg) (s : MshSpec) (hfmt : s.meshFormat = ⟨b! "4.1", 0, 8⟩) (hs : s.Ok)
    (hf : s.Fits cfg)
    (hne : ∀ d ∈ s.nodeData ++ s.elementData ++ s.elementNodeData, ∀ e ∈ d.entries, e.data ≠ []) :
    saveMsh cfg s = ((lines41 cfg.nanospline cfg.fmt s).flatMap textLine, .ok ()) :=
  saveMsh_lines41 cfg hfmt hs hf hne

/-- **C45** A text file whose words are those of the version 4.1 layout for `s`, with doubles printed in the format
`P` (any decimal numerals), separated by any white space, loads to `s` with each double replaced by the value of its text.
The format of the program that reads does not matter. -/
theorem C45_ascii41_read (cfg : Cfg) (P : Fmt) (s : MshSpec) (hfmt : s.meshFormat = ⟨b! "4.1", 0, 8⟩) (hs : s.Ok)
    (hf : s.Fits cfg) (hd : ∀ x ∈ s.doubles, Printable P x)
    (hpar : cfg.asserts = true → ∀ b ∈ s.nodes.entityBlocks, 0 ≤ b.parametric.toInt ∧ b.parametric.toInt ≤ 3)
    (hw : cfg.nanospline = true → Word s.nanosplineVersion) (lead : Bytes) (words : List (Bytes × Bytes))
    (hwords : words.map Prod.fst = (lines41 cfg.nanospline P s).flatten) (hlead : Blank lead)
    (hsep : ∀ q ∈ words, Blank q.2 ∧ q.2 ≠ []) :
    loadMsh cfg (Spaced lead words) = .ok (s.convert cfg.nanospline id (reread P) (reread P)) := by
  have hf' : s.Fits (cfg.withFmt P) := ⟨hf.all, hf.groups⟩
  have h := slt_msh41 (cfg.withFmt P) (rd := reread P) s (by rw [hfmt]) (by rw [hfmt]) (by rw [hfmt]) hs hf' hpar hw
    fun x hx => (hd x hx).dtok
  have ht : words.map Prod.fst = headToks41 P s (tailToks cfg.nanospline P s) := by
    rw [hwords, lines41_flatten _ _ hs, toks41_eq cfg P _ hfmt hs hf]
  rw [← loadMsh_prec cfg P, spaced_flat, (h.2.1 words ht hsep).load_lead hlead]
  unfold loadPostProcess
  rw [if_neg (by show ¬ s.meshFormat.version = _; rw [hfmt]; decide)]
  rfl

/-- **C45** With at least 17 digits such a file loads to exactly `s`. -/
theorem C45_ascii41_read_exact (cfg : Cfg) {P : Fmt} (hP : P.Lossless) (s : MshSpec) (hfmt : s.meshFormat = ⟨b! "4.1", 0, 8⟩)
    (hs : s.Ok) (hf : s.Fits cfg) (hp : s.Plain cfg.nanospline) (hd : ∀ x ∈ s.doubles, x.isFinite = true)
    (hpar : cfg.asserts = true → ∀ b ∈ s.nodes.entityBlocks, 0 ≤ b.parametric.toInt ∧ b.parametric.toInt ≤ 3)
    (hw : cfg.nanospline = true → Word s.nanosplineVersion) (lead : Bytes) (words : List (Bytes × Bytes))
    (hwords : words.map Prod.fst = (lines41 cfg.nanospline P s).flatten) (hlead : Blank lead)
    (hsep : ∀ q ∈ words, Blank q.2 ∧ q.2 ≠ []) :
    loadMsh cfg (Spaced lead words) = .ok s := by
  rw [C45_ascii41_read cfg P s hfmt hs hf (fun x hx => (hP _ (hd x hx)).1) hpar hw lead words hwords hlead hsep,
    MshSpec.convert_congr (t' := id) (f' := id) (g' := id) (fun _ _ => rfl)
      (fun x hx => (hP _ (hd x (mem_doubles.mpr (Or.inr (Or.inr (Or.inl hx)))))).2)
      (fun x hx => (hP _ (hd x hx)).2), hp.convert_self]

/-! ## C46: version 4.1, binary -/

/-- **C46** Saving a consistent spec as version 4.1 binary writes exactly the bytes of the layout: the sections, a line
break after each start marker and each end marker. -/
theorem C46_binary41_written (cfg : Cfg) (s : MshSpec) (hfmt : s.meshFormat = ⟨b! "4.1", 1, 8⟩) (hs : s.Ok) (hf : s.Fits cfg) :
    saveMsh cfg s = (sectionsFile ((sections41 cfg.nanospline cfg.fmt s).map fun q => (q, .tight)), .ok ()) :=
  saveMsh_bytes41 cfg hfmt hs hf

/-- **C46** A binary file consisting of the sections of the version 4.1 layout for `s`, with any white space in front of the
file, in front of end markers and between sections, loads to `s` with tags of data entries squeezed through 32
bits and real tags (which are text, printed to `P` digits) replaced by the value of their text. -/
theorem C46_binary41_read (cfg : Cfg) (P : Fmt) (s : MshSpec) (hfmt : s.meshFormat = ⟨b! "4.1", 1, 8⟩) (hs : s.Ok)
    (hf : s.Fits cfg) (hreal : ∀ x ∈ s.realTags, Printable P x)
    (hw : cfg.nanospline = true → Word s.nanosplineVersion) (lead : Bytes) (parts : List ((Bytes × Bytes) × Margin))
    (hparts : parts.map Prod.fst = sections41 cfg.nanospline P s) (hlead : Blank lead)
    (hsep : ∀ p ∈ parts, Blank p.2.before ∧ Blank p.2.after ∧ p.2.after ≠ []) :
    loadMsh cfg (lead ++ sectionsFile parts) = .ok (s.convert cfg.nanospline wrap32 (reread P) id) := by
  have hf' : s.Fits (cfg.withFmt P) := ⟨hf.all, hf.groups⟩
  have h := sls_msh41 (cfg.withFmt P) (rd := reread P) s (by rw [hfmt]) (by rw [hfmt]) (by rw [hfmt]) hs hf' hw
    fun x hx => (hreal x hx).dtok
  rw [← loadMsh_prec cfg P, sectionsFile_flatS, (h.2.1 _ (by
    rw [secs41_eq (cfg.withFmt P) hfmt hs hf', List.map_map]; exact hparts) fun q hq => by
      obtain ⟨p, hp, rfl⟩ := List.mem_map.mp hq
      exact ⟨(hsep p hp).1, (hsep p hp).2⟩).load_lead hlead]
  unfold loadPostProcess
  rw [if_neg (by show ¬ s.meshFormat.version = _; rw [hfmt]; decide)]
  rfl

/-- **C46** With data tags below `2^31` and real tags printed to at least 17 digits such a file loads to exactly `s`. -/
theorem C46_binary41_read_exact (cfg : Cfg) {P : Fmt} (hP : P.Lossless) (s : MshSpec) (hfmt : s.meshFormat = ⟨b! "4.1", 1, 8⟩)
    (hs : s.Ok) (hf : s.Fits cfg) (hp : s.Plain cfg.nanospline) (htag : ∀ t ∈ s.dataTags, t.toNat < 2 ^ 31)
    (hreal : ∀ x ∈ s.realTags, x.isFinite = true)
    (hw : cfg.nanospline = true → Word s.nanosplineVersion) (lead : Bytes) (parts : List ((Bytes × Bytes) × Margin))
    (hparts : parts.map Prod.fst = sections41 cfg.nanospline P s) (hlead : Blank lead)
    (hsep : ∀ p ∈ parts, Blank p.2.before ∧ Blank p.2.after ∧ p.2.after ≠ []) :
    loadMsh cfg (lead ++ sectionsFile parts) = .ok s := by
  rw [C46_binary41_read cfg P s hfmt hs hf (fun x hx => (hP _ (hreal x hx)).1) hw lead parts hparts hlead hsep,
    MshSpec.convert_congr (t := wrap32) (t' := id) (f' := id) (g' := id) (fun t ht => wrap32_small (htag t ht))
      (fun x hx => (hP _ (hreal x hx)).2) (fun _ _ => rfl), hp.convert_self]

/-! ## C47: version 2.2 -/

/-- **C47** Saving a consistent spec as version 2.2 text writes exactly the lines of the layout. -/
theorem C47_ascii22_written (cfg : Cfg) (s : MshSpec) {d : Int32} (hfmt : s.meshFormat = ⟨b! "2.2", 0, d⟩) (hs : s.Ok)
    (hc : s.Counted) (hf : s.Fits cfg)
    (hne : ∀ d ∈ s.nodeData ++ s.elementData ++ s.elementNodeData, ∀ e ∈ d.entries, e.data ≠ []) :
    saveMsh cfg s = ((lines22 cfg.nanospline cfg.fmt s).flatMap textLine, .ok ()) :=
  saveMsh_lines22 cfg (by rw [hfmt]) (by rw [hfmt]) hs hf hc hne

/-- **C47** A text file whose words are those of the version 2.2 layout for `s`, separated by any white space, loads to the
nodes and elements of `s`, grouped anew, and the rest of `s`. -/
theorem C47_ascii22_read (cfg : Cfg) (P : Fmt) (s : MshSpec) {d : Int32} (hfmt : s.meshFormat = ⟨b! "2.2", 0, d⟩) (hs : s.Ok)
    (hc : s.Counted) (hf : s.Fits cfg) (hetag : ∀ b ∈ s.elements.entityBlocks, ∀ t ∈ b.data, t.toNat < 2 ^ 31)
    (hd : ∀ x ∈ s.doubles22, Printable P x)
    (hr : NodesInRange s.nodes.list s.elements.list) (hfit : Fits22 cfg s.nodes.list s.elements.list)
    (hw : cfg.nanospline = true → Word s.nanosplineVersion) (lead : Bytes) (words : List (Bytes × Bytes))
    (hwords : words.map Prod.fst = (lines22 cfg.nanospline P s).flatten) (hlead : Blank lead)
    (hsep : ∀ q ∈ words, Blank q.2 ∧ q.2 ≠ []) :
    loadMsh cfg (Spaced lead words) = .ok (s.convert22 cfg.nanospline id id (reread P) (reread P)) := by
  have hf' : s.Fits (cfg.withFmt P) := ⟨hf.all, hf.groups⟩
  have hfit' : Fits22 (cfg.withFmt P) s.nodes.list s.elements.list := { hfit with }
  have h2 := hfit.two
  have h := slt_msh22 (cfg.withFmt P) (rd := reread P) s (by rw [hfmt]) (by rw [hfmt]) hs hf' hc hetag hw
    (fun x hx => (hd x hx).dtok) hfit'.coords (by have := hfit'.two; omega) hfit'.entries
  have ht : words.map Prod.fst = headToks22 P s (tailToks cfg.nanospline P s) := by
    rw [hwords, lines22_flatten, toks22_eq cfg P _ (by rw [hfmt]) (by rw [hfmt]) hs hf hc hetag]
  rw [← loadMsh_prec cfg P, spaced_flat, (h.2.1 words ht hsep).load_lead hlead]
  exact post_C04 (cfg.withFmt P) s hfmt hs hc hetag hr hfit' _

/-- **C47** Saving a consistent spec as version 2.2 binary writes exactly the bytes of the layout. -/
theorem C47_binary22_written (cfg : Cfg) (s : MshSpec) {d : Int32} (hfmt : s.meshFormat = ⟨b! "2.2", 1, d⟩) (hs : s.Ok)
    (hc : s.Counted) (hf : s.Fits cfg) (hblk : ∀ b ∈ s.elements.entityBlocks, b.numElementsInBlock.toNat < 2 ^ 31) :
    saveMsh cfg s = (sectionsFile ((sections22 cfg.nanospline cfg.fmt s).map fun q => (q, .tight)), .ok ()) :=
  saveMsh_bytes22 cfg (by rw [hfmt]) (by rw [hfmt]) hs hf hc hblk

/-- **C47** A binary file consisting of the sections of the version 2.2 layout for `s`, with any white space in front of the
file, in front of end markers and between sections, loads to the nodes and elements of `s`, grouped anew, and the rest of
`s`. -/
theorem C47_binary22_read (cfg : Cfg) (P : Fmt) (s : MshSpec) {d : Int32} (hfmt : s.meshFormat = ⟨b! "2.2", 1, d⟩) (hs : s.Ok)
    (hc : s.Counted) (hf : s.Fits cfg)
    (hblk : ∀ b ∈ s.elements.entityBlocks, 0 < b.numElementsInBlock.toNat ∧ b.numElementsInBlock.toNat < 2 ^ 31)
    (hntag : ∀ b ∈ s.nodes.entityBlocks, ∀ t ∈ b.tags, t.toNat < 2 ^ 31)
    (hetag : ∀ b ∈ s.elements.entityBlocks, ∀ t ∈ b.data, t.toNat < 2 ^ 31)
    (htag : ∀ t ∈ s.dataTags, t.toNat < 2 ^ 31)
    (hreal : ∀ x ∈ s.realTags, Printable P x)
    (hr : NodesInRange s.nodes.list s.elements.list) (hfit : Fits22 cfg s.nodes.list s.elements.list)
    (hw : cfg.nanospline = true → Word s.nanosplineVersion) (lead : Bytes) (parts : List ((Bytes × Bytes) × Margin))
    (hparts : parts.map Prod.fst = sections22 cfg.nanospline P s) (hlead : Blank lead)
    (hsep : ∀ p ∈ parts, Blank p.2.before ∧ Blank p.2.after ∧ p.2.after ≠ []) :
    loadMsh cfg (lead ++ sectionsFile parts) = .ok (s.convert22 cfg.nanospline id id (reread P) id) := by
  have hf' : s.Fits (cfg.withFmt P) := ⟨hf.all, hf.groups⟩
  have hfit' : Fits22 (cfg.withFmt P) s.nodes.list s.elements.list := { hfit with }
  have h2 := hfit.two
  have h := sls_msh22 (cfg.withFmt P) (rd := reread P) s (by rw [hfmt]) (by rw [hfmt]) hs hf' hc hblk hw
    (fun x hx => (hreal x hx).dtok) hfit'.coords (by have := hfit'.two; omega) hfit'.entries
  rw [← loadMsh_prec cfg P, sectionsFile_flatS, (h.2.1 _ (by
    rw [secs22_eq (cfg.withFmt P) (by rw [hfmt]) (by rw [hfmt]) hs hf' hc fun b hb => (hblk b hb).2, List.map_map]; exact hparts) fun q hq => by
      obtain ⟨p, hp, rfl⟩ := List.mem_map.mp hq
      exact ⟨(hsep p hp).1, (hsep p hp).2⟩).load_lead hlead]
  exact post_C03 (cfg.withFmt P) s hfmt hs hc hntag hetag htag hr hfit' _

/-! ## Concrete cases -/

theorem margin_nl : Blank (b! "\n") ∧ Blank (b! "\n") ∧ (b! "\n") ≠ [] :=
  ⟨by unfold Blank; decide, by unfold Blank; decide, by decide⟩

theorem wr_eq {w : Wr Unit} {b : Bytes} (h1 : w.1 = b) (h2 : w.2 = .ok ()) : w = (b, .ok ()) := Prod.ext h1 h2


theorem margins_fst (secs : List (Bytes × Bytes)) (m : Margin) : (secs.map fun q => (q, m)).map Prod.fst = secs := by
  simp [Function.comp_def]


/-- C45: a spec with a NaN, an awkward name, entities, parametric nodes, data, a curve and a patch is saved as these lines. -/
example : saveMsh demoExt (demoNano ⟨b! "4.1", 0, 8⟩ dNaN) = (b! "$MeshFormat\n4.1 0 8\n$EndMeshFormat\n$PhysicalNames\n1\n2 7 \"upper \\\"wing\\\"\n\"\n$EndPhysicalNames\n$Entities\n1 0 1 0\n1 1 0.1 1 1 3\n1 1 1 1 0.1 0.1 0.1 1 7 2 -1 2\n$EndEntities\n$Nodes\n2 3 1 3\n2 1 1 1\n1\n1 0.1 nan 1 1\n2 1 0 2\n2\n3\n1 1 1\n0.1 1 0.1\n$EndNodes\n$Elements\n1 1 9 9\n2 1 2 1\n9 1 2 3\n$EndElements\n$NodeData\n1\n\"temp\"\n1\n0.1\n3\n0\n1\n2\n1 1\n2 nan\n$EndNodeData\n$ElementNodeData\n1\n\"a b\"\n0\n3\n0\n1\n1\n9 3 1 0.1 1\n$EndElementNodeData\n$NanoSplineFormat\n1.0\n$EndNanoSplineFormat\n$Curves\n1\n1 1 1 1 2 0\nnan 1 1\n0.1\n1\n$EndCurves\n$Patches\n1\n1 1 1 1 1 1 0 1\n1 1 1 0.1\n1\n$EndPatches\n", .ok ()) := by
  rw [C45_ascii41_written demoExt _ rfl (demoNano_ok _ _) (demoNano_fits (by decide) _ _) (by simp [demoNano, demoSpec])]
  exact wr_eq (by decide +kernel) rfl

/-- C45 needs values in data entries: the line of an entry without values is not ended. -/
theorem C45_empty_entry_counterexample :
    saveMsh demoDebug { nodeData := [⟨⟨[], [], [0, 0, 2]⟩, [⟨1, 0, []⟩, ⟨2, 0, []⟩]⟩] } =
      (b! "$MeshFormat\n4.1 0 8\n$EndMeshFormat\n$NodeData\n0\n0\n3\n0\n0\n2\n1 2 $EndNodeData\n", .ok ()) ∧
    (lines41 false (.general 6) { nodeData := [⟨⟨[], [], [0, 0, 2]⟩, [⟨1, 0, []⟩, ⟨2, 0, []⟩]⟩] }).flatMap textLine =
      b! "$MeshFormat\n4.1 0 8\n$EndMeshFormat\n$NodeData\n0\n0\n3\n0\n0\n2\n1\n2\n$EndNodeData\n" := by
  exact ⟨wr_eq (by decide +kernel) (by decide +kernel), by decide +kernel⟩

/-- C45: a file with numbers printed to 17 digits, separated by tabs, read by a program whose precision is 6. -/
example (words : List (Bytes × Bytes))
    (hwords : words.map Prod.fst = (lines41 true (.general 17) (demoNano ⟨b! "4.1", 0, 8⟩ dPi)).flatten) (hsep : ∀ q ∈ words, q.2 = b! "\t") :
    loadMsh demoExt (Spaced (b! "\n") words) = .ok (demoNano ⟨b! "4.1", 0, 8⟩ dPi) := by
  refine C45_ascii41_read_exact demoExt (C07_lossless_general 17 (le_refl 17)) _ rfl (demoNano_ok _ _) (demoNano_fits (by decide) _ _)
    (demoNano_plain _ _) (fun y hy => ?_) (fun _ => by decide) (fun _ => word_10) _ words hwords (by unfold Blank; decide)
    fun q hq => by rw [hsep q hq]; exact ⟨by unfold Blank; decide, by decide⟩
  rcases demo_doubles _ _ y hy with rfl | rfl | rfl <;> decide +kernel

/-- C46: the same sections with a line break in front of every end marker. -/
example : loadMsh demoExt (sectionsFile ((sections41 true (.general 17) (demoNano ⟨b! "4.1", 1, 8⟩ dNaN)).map fun q => (q, ⟨b! "\n", b! "\n"⟩))) =
    .ok (demoNano ⟨b! "4.1", 1, 8⟩ dNaN) := by
  rw [← List.nil_append (sectionsFile _)]
  refine C46_binary41_read_exact demoExt (C07_lossless_general 17 (le_refl 17)) _ rfl (demoNano_ok _ _) (demoNano_fits (by decide) _ _)
    (demoNano_plain _ _) (demo_tags _ _) (fun y hy => ?_) (fun _ => word_10) [] _ (margins_fst _ _) (by simp [Blank]) ?_
  · have : y ∈ ([dTenth] : List Double) := hy
    simp only [List.mem_cons, List.not_mem_nil, or_false] at this
    subst this
    decide +kernel
  · intro p hp
    obtain ⟨q, -, rfl⟩ := List.mem_map.mp hp
    exact margin_nl

/-- C46: the first bytes of such a file. -/
example : (sectionsFile ((sections41 false (.general 6) (demoSpec ⟨b! "4.1", 1, 8⟩ dPi)).map fun q => (q, .tight))).take 54 =
    b! "$MeshFormat\n4.1 1 8\n" ++ [1, 0, 0, 0] ++ b! "$EndMeshFormat\n$PhysicalNames\n" ∧
    (sections41 false (.general 6) (demoSpec ⟨b! "4.1", 1, 8⟩ dPi)).map Prod.fst = [b! "MeshFormat", b! "PhysicalNames", b! "Entities",
      b! "Nodes", b! "Elements", b! "NodeData", b! "ElementNodeData"] ∧
    ((sections41 false (.general 6) (demoSpec ⟨b! "4.1", 1, 8⟩ dPi)).map Prod.snd)[4]? = some
      [1,0,0,0,0,0,0,0, 1,0,0,0,0,0,0,0, 9,0,0,0,0,0,0,0, 9,0,0,0,0,0,0,0, 2,0,0,0, 1,0,0,0, 2,0,0,0, 1,0,0,0,0,0,0,0,
        9,0,0,0,0,0,0,0, 1,0,0,0,0,0,0,0, 2,0,0,0,0,0,0,0, 3,0,0,0,0,0,0,0] := by
  refine ⟨?_, ?_, ?_⟩ <;> decide +kernel

/-- C47: a version 2.2 text file. -/
example : saveMsh demoDebug (demoSpec ⟨b! "2.2", 0, 8⟩ dPi) = (b! "$MeshFormat\n2.2 0 8\n$EndMeshFormat\n$PhysicalNames\n1\n2 7 \"upper \\\"wing\\\"\n\"\n$EndPhysicalNames\n$Nodes\n3\n1 1 0.1 3.14159\n2 1 1 1\n3 0.1 1 0.1\n$EndNodes\n$Elements\n1\n9 2 1 1 1 2 3\n$EndElements\n$NodeData\n1\n\"temp\"\n1\n0.1\n3\n0\n1\n2\n1 1\n2 3.14159\n$EndNodeData\n$ElementNodeData\n1\n\"a b\"\n0\n3\n0\n1\n1\n9 3 1 0.1 1\n$EndElementNodeData\n", .ok ()) := by
  rw [C47_ascii22_written demoDebug _ (d := 8) rfl (demoSpec_ok _ _) (demo22_counted _ _) (demoSpec_fits (by decide) _ _) (by simp [demoSpec])]
  exact wr_eq (by decide +kernel) rfl

/-- C47: a version 2.2 text file, words separated by spaces. -/
example (words : List (Bytes × Bytes))
    (hwords : words.map Prod.fst = (lines22 false (.general 6) (demoSpec ⟨b! "2.2", 0, 8⟩ dPi)).flatten) (hsep : ∀ q ∈ words, q.2 = b! "  ") :
    loadMsh demoDebug (Spaced [] words) = .ok ((demoSpec ⟨b! "2.2", 0, 8⟩ dPi).convert22 false id id (reread (.general 6)) (reread (.general 6))) := by
  refine C47_ascii22_read demoDebug (.general 6) _ (d := 8) rfl (demoSpec_ok _ _) (demo22_counted _ _) (demoSpec_fits (by decide) _ _) (demo22_tags _ _).2.1 (fun y hy => ?_)
    (demo22_range _ _) (demo22_fits (by decide) _ _) (by simp [demoDebug]) _ words hwords (by simp [Blank])
    fun q hq => by rw [hsep q hq]; exact ⟨by unfold Blank; decide, by decide⟩
  rcases demo22_doubles _ _ y hy with rfl | rfl | rfl
  · exact demo_exact.1
  · exact demo_exact.2.2.1
  · exact C05_default_always_readable _ (by decide)

/-- C47: a version 2.2 binary file with a line break in front of every end marker. -/
example : loadMsh demoDebug (sectionsFile ((sections22 false (.general 6) (demoSpec ⟨b! "2.2", 1, 8⟩ dNaN)).map fun q => (q, ⟨b! "\n", b! "\n"⟩))) =
    .ok ((demoSpec ⟨b! "2.2", 1, 8⟩ dNaN).convert22 false id id (reread (.general 6)) id) := by
  rw [← List.nil_append (sectionsFile _)]
  refine C47_binary22_read demoDebug (.general 6) _ (d := 8) rfl (demoSpec_ok _ _) (demo22_counted _ _) (demoSpec_fits (by decide) _ _) (demo22_tags _ _).2.2 (demo22_tags _ _).1
    (demo22_tags _ _).2.1 (fun t ht => demo_tags ⟨b! "2.2", 1, 8⟩ dNaN t ht) (fun x hx => (demo_reals ⟨b! "2.2", 1, 8⟩ dNaN x hx).1) (demo22_range _ _)
    (demo22_fits (by decide) _ _) (by simp [demoDebug]) [] _ (margins_fst _ _) (by simp [Blank]) ?_
  intro p hp
  obtain ⟨q, -, rfl⟩ := List.mem_map.mp hp
  exact margin_nl

end MshIO
