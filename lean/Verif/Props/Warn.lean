import Verif.Proofs.WarnCut
import Verif.Props.Robust
import Verif.Props.RoundTrip22
import Verif.Props.RoundTrip41
import Verif.Props.Extension
import Verif.Props.Spelling22
import Verif.Props.Pieces22
import Verif.Props.Demo

/-!
# C77, C78: what `load_msh` writes to the standard error stream
-/

namespace MshIO

/-! ## Every file -/

/-- **C77** The warnings do not change what happens: however loading ends, and whatever mesh comes of it, is what C01–C76 are about. -/
theorem C77_same_result (cfg : Cfg) (file : Bytes) : (loadMshE cfg file).2 = loadMsh cfg file := loadMshE_snd cfg file

/-- **C77** The bound on the rounds of the main loop in the model is no bound on the warnings: with more rounds nothing else is written. -/
theorem C77_bound (cfg : Cfg) (file : Bytes) (n : Nat) (hn : file.length + 2 ≤ n) : (loadLoopE cfg n {} (Stream.ofBytes file)).1 = warnings cfg file := by
  rw [warnings_said, said, loadLoopE_stable n (file.length + 2) {} (Stream.ofBytes file) hn le_rfl]
  rfl

/-- **C77** Exactly: follow the main loop until nothing new happens.  Each round that finds a section no build knows writes one line with its name, in the order of the rounds, also the
round that throws, crashes or does not come back; nothing else is written. -/
theorem C77_exact (cfg : Cfg) (file : Bytes) (ms : List Meets) (x : MshSpec × Stream) (h : Rounds cfg ({}, Stream.ofBytes file) ms x) (hx : Final cfg x) :
    warnings cfg file = (unknownNames ms ++ unknownNext x.2).flatMap warningLine := by
  have h1 := said_rounds h
  rw [said_final hx] at h1
  rw [warnings_said]
  refine h1.trans ?_
  rw [← lines_append]
  rfl

/-- **C77** There is such an end in every execution. -/
theorem C77_end (cfg : Cfg) (file : Bytes) : ∃ ms x, Rounds cfg ({}, Stream.ofBytes file) ms x ∧ Final cfg x :=
  rounds_final cfg _ _ le_rfl

/-- **C77** So whatever the file: complete lines, each about a section that no build knows and whose name follows a `$` in the file. -/
theorem C77_lines (cfg : Cfg) (file : Bytes) : ∃ names : List Bytes, warnings cfg file = names.flatMap warningLine ∧
    ∀ n ∈ names, n ∉ knownSections true ∧ (∀ c ∈ n, isSpace c = false) ∧ b! "$" ++ n <:+: file := by
  obtain ⟨ms, x, h1, h2⟩ := C77_end cfg file
  refine ⟨_, C77_exact cfg file ms x h1 h2, fun n hn => ?_⟩
  obtain ⟨h3, h4⟩ := rounds_strange h1 (file := file) List.suffix_rfl
  have := (List.mem_append.mp hn).elim (h3 n) (unknownNext_strange h4 n)
  exact ⟨this.unknown, this.clean, this.infile⟩

/-- **C77** And the names of the skipped sections can be read off the lines. -/
theorem C77_readable (names names' : List Bytes) (h : ∀ n ∈ names, ∀ c ∈ n, isSpace c = false) (h' : ∀ n ∈ names', ∀ c ∈ n, isSpace c = false)
    (e : names.flatMap warningLine = names'.flatMap warningLine) : names = names' := lines_inj h h' e

/-- Two unknown sections; the second has no end, and is complained about too. -/
example : warnings demoCfg (b! "$Comments by hand $EndComments $Nodes\n0 0 0 0\n$EndNodes\n$Faces 1") =
    b! "Warning: skipping section \"$Comments\"\nWarning: skipping section \"$Faces\"\n" := by decide +kernel

/-- A file that does not load; the warning comes before the exception. -/
example : warnings demoCfg (b! "$Faces $EndFaces $MeshFormat 3.0 0 8 $EndMeshFormat $Edges $EndEdges") = b! "Warning: skipping section \"$Faces\"\n" ∧
    loadMsh demoCfg (b! "$Faces $EndFaces $MeshFormat 3.0 0 8 $EndMeshFormat $Edges $EndEdges") = .throw .unsupportedFeature := by decide +kernel

/-! ## Inserting sections -/

/-- **C77** A section inserted at a boundary whose contents this build does not read adds exactly one line, at its place among the lines, if no build knows its name.  The sections
`$Curves` and `$Patches`, which builds without the extension skip like unknown ones, add none: their data is dropped without a word. -/
theorem C77_insert (cfg : Cfg) {a b name lead : Bytes} {spec : MshSpec} {words : List (Bytes × Bytes)} (ha : Boundary cfg a spec)
    (hname : ∀ c ∈ name, isSpace c = false) (hunknown : name ∉ knownSections cfg.nanospline) (hlead : Blank lead ∧ lead ≠ [])
    (hwords : ∀ q ∈ words, Word q.1 ∧ q.1 ≠ b! "$End" ++ name ∧ Blank q.2 ∧ q.2 ≠ []) (hb : ∀ c, b.head? = some c → isSpace c = true) :
    ∃ later, warnings cfg (a ++ b) = warnings cfg a ++ later ∧
      warnings cfg (a ++ (b! "$" ++ name ++ Spaced lead words ++ b! "$End" ++ name ++ b)) =
        warnings cfg a ++ (if name = b! "Curves" ∨ name = b! "Patches" then [] else warningLine name) ++ later := by
  have hb' : EndHead b := by
    cases b with
    | nil => exact Or.inl rfl
    | cons c r => exact Or.inr ⟨c, r, rfl, hb c rfl⟩
  have e : b! "$" ++ name ++ Spaced lead words ++ b! "$End" ++ name ++ b = (36 :: name) ++ (lead ++ flat words ++ endTag name ++ b) := by
    simp [Spaced, flat, endTag, List.flatMap_def]
  have hl : lineAt (gs ((36 :: name) ++ (lead ++ flat words ++ endTag name ++ b))) = if name = b! "Curves" ∨ name = b! "Patches" then [] else warningLine name := by
    have := lineAt_word (w := []) (b := lead ++ flat words ++ endTag name ++ b) (tag_word hname) (Or.inr (by
      have := wsHead_append (b := flat words ++ endTag name ++ b) (Sep.head ⟨hlead.1, hlead.2⟩)
      simpa using this)) Ws.nil
    rw [List.nil_append] at this
    rw [this]
    have hiff : name ∈ knownSections true ↔ name = b! "Curves" ∨ name = b! "Patches" := by
      have h9 : name ∉ knownSections false := fun h => hunknown (by
        unfold knownSections at h ⊢
        rw [if_neg (by decide), List.append_nil] at h
        exact List.mem_append_left _ h)
      unfold knownSections at h9 ⊢
      rw [if_neg (by decide), List.append_nil] at h9
      rw [if_pos rfl, List.mem_append]
      simp only [h9, false_or, List.mem_cons, List.not_mem_nil, or_false]
    unfold unknownName
    simp only [hiff]
    split
    · rfl
    · unfold lines; rw [List.flatMap_cons, List.flatMap_nil, List.append_nil]
  refine ⟨_, warnings_ext ha b, ?_⟩
  rw [warnings_ext ha, e, said_round rfl
    (loadRound_skip hname (loadSection_unknown cfg hunknown spec) hlead (ps := words)
      (fun q hq => ⟨(hwords q hq).1, (hwords q hq).2.1, (hwords q hq).2.2⟩) hb'), said_rest, hl, List.append_assoc]

/-- **C77** Words between sections add nothing. -/
theorem C77_between (cfg : Cfg) {a b lead : Bytes} {spec : MshSpec} {words : List (Bytes × Bytes)} (ha : Boundary cfg a spec) (hlead : Blank lead)
    (hwords : ∀ q ∈ words, Word q.1 ∧ q.1.head? ≠ some 36 ∧ Blank q.2 ∧ q.2 ≠ []) :
    warnings cfg (a ++ (Spaced lead words ++ b)) = warnings cfg (a ++ b) := by
  have e : Spaced lead words ++ b = lead ++ flat words ++ b := by simp [Spaced, flat, List.flatMap_def]
  rw [warnings_ext ha, warnings_ext ha, e, said_words words lead b hlead hwords]

/-- A spline section in a file for the build without the extension. -/
example : ∃ later, warnings demoCfg (hdr41 ++ b! "\n$Faces $EndFaces") = warnings demoCfg hdr41 ++ later ∧
    warnings demoCfg (hdr41 ++ (b! "$" ++ b! "Curves" ++ Spaced (b! "\n") [(b! "1", b! "\n")] ++ b! "$End" ++ b! "Curves" ++ b! "\n$Faces $EndFaces")) =
      warnings demoCfg hdr41 ++ [] ++ later :=
  C77_insert demoCfg boundary_hdr41 (by decide) (by decide) ⟨(by unfold Blank; decide), by decide⟩
    (by simp only [List.mem_cons, List.not_mem_nil, or_false]
        rintro q rfl
        exact ⟨⟨by decide, by decide⟩, by decide, by unfold Blank; decide, by decide⟩)
    (by decide)

/-! ## Files by any program -/

/-- **C77** A text file of version 4.1 as in C69: one line for each section no build knows. -/
theorem C77_text41 (cfg : Cfg) (parts : List Part) (hfit : ∀ p ∈ parts, p.Fits cfg)
    (honce : parts.Pairwise fun p q => p.name = q.name → p.Repeats)
    (hroom : (meshOf parts).nodeData.length ≤ cfg.maxCount ∧ (meshOf parts).elementData.length ≤ cfg.maxCount ∧
      (meshOf parts).elementNodeData.length ≤ cfg.maxCount)
    (file : Bytes) (h : TextFile parts file) : warnings cfg file = (parts.flatMap Part.unknown).flatMap warningLine := by
  obtain ⟨lead, words, rfl, hl, hw, hs, hi⟩ := h
  obtain ⟨h1, h2⟩ := rounds_parts parts (s := {}) rfl rfl hfit (fun p _ => by cases p <;> first | trivial | rfl) honce ⟨hroom.1, hroom.2.1, hroom.2.2⟩
  rw [warnings_said, spaced_flat, h1.said (heads := parts.map Part.head) (forall₂_map parts Part.first_items)
    (fun t ht => by obtain ⟨p, hp, rfl⟩ := List.mem_map.mp ht; exact Part.head_word (hfit p hp)) hl hw hs (by rw [← List.flatMap_def]; exact hi),
    flatMap_heads fun p hp => Part.head_unknown (hfit p hp)]
  rfl

/-- **C77** A binary file of version 4.1 as in C71. -/
theorem C77_binary41 (cfg : Cfg) (parts : List Part) (hfit : ∀ p ∈ parts, p.Fits cfg) (hsmall : ∀ p ∈ parts, p.SmallTags)
    (honce : parts.Pairwise fun p q => p.name = q.name → p.Repeats)
    (hhead : ∃ lead rest, parts = lead ++ .format :: rest ∧ ∀ p ∈ lead, p.AlwaysText)
    (hroom : (meshOf parts).nodeData.length ≤ cfg.maxCount ∧ (meshOf parts).elementData.length ≤ cfg.maxCount ∧
      (meshOf parts).elementNodeData.length ≤ cfg.maxCount)
    (file : Bytes) (h : BinaryFile parts file) : warnings cfg file = (parts.flatMap Part.unknown).flatMap warningLine := by
  obtain ⟨gap, bytes, trail, hw, ht, rfl⟩ := h
  have he := addB_fold parts {} {} rfl
  rw [addB_format parts {} (Or.inr (by obtain ⟨lead, rest, rfl, -⟩ := hhead; simp))] at he
  have he : binaryMeshOf parts = parts.foldl (fun s p => p.addB s) {} := he
  obtain ⟨h1, h2⟩ := rounds_binary parts (s := {}) rfl (Or.inr hhead) hfit hsmall (fun p _ => by cases p <;> first | trivial | rfl) honce
    (by rw [← he]; exact ⟨hroom.1, hroom.2.1, hroom.2.2⟩)
  rw [warnings_said, h1.said (heads := parts.map Part.head) (forall₂_map parts Part.first_pieces)
    (fun t ht => by obtain ⟨p, hp, rfl⟩ := List.mem_map.mp ht; exact Part.head_word (hfit p hp)) (by rw [← List.flatMap_def]; exact hw) ht,
    flatMap_heads fun p hp => Part.head_unknown (hfit p hp)]
  rfl

/-- **C77** A text file of version 2.2 as in C70. -/
theorem C77_text22 (cfg : Cfg) (parts : List Part22) (hfit : ∀ p ∈ parts, p.Fits cfg)
    (honce : parts.Pairwise fun p q => p.name = q.name → p.Repeats)
    (hhead : ∃ lead d rest, parts = lead ++ .format d :: rest ∧ ∀ p ∈ lead, ¬ p.NeedsFormat)
    (hf : Fits22 cfg (nodesIn parts) ((elementsIn parts).map FileElem.elem))
    (hroom : (restOf parts).nodeData.length ≤ cfg.maxCount ∧ (restOf parts).elementData.length ≤ cfg.maxCount ∧
      (restOf parts).elementNodeData.length ≤ cfg.maxCount)
    (file : Bytes) (h : TextFile22 parts file) : warnings cfg file = (parts.flatMap Part22.unknown).flatMap warningLine := by
  obtain ⟨lead, words, rfl, hl, hw, hs, hi⟩ := h
  have h2 := hf.two
  have hraw := raw_fold parts {} {} {} {} hfit honce
  have e0 : MshSpec.withMesh {} {} {} {} = {} := rfl
  rw [e0] at hraw
  obtain ⟨h1, hv⟩ := rounds_parts22 (by omega) parts (s := {}) (Or.inr hhead) rfl hfit
    (fun p _ => by
      cases p with
      | common p => cases p <;> first | trivial | rfl
      | nodes ns => rfl
      | elements fs => exact ⟨rfl, rfl⟩
      | format d => trivial) honce (by rw [hraw]; exact ⟨hroom.1, hroom.2.1, hroom.2.2⟩) hf.coords (by rw [elemEntries_eq]; exact hf.entries)
  rw [warnings_said, spaced_flat, h1.said (heads := parts.map Part22.head) (forall₂_map parts Part22.first_items)
    (fun t ht => by obtain ⟨p, hp, rfl⟩ := List.mem_map.mp ht; exact Part22.head_word (hfit p hp)) hl hw hs (by rw [← List.flatMap_def]; exact hi),
    flatMap_heads fun p hp => Part22.head_unknown (hfit p hp)]
  rfl

/-- **C77** A binary file of version 2.2 as in C72. -/
theorem C77_binary22 (cfg : Cfg) (parts : List BinaryPart22) (hfit : ∀ p ∈ parts, p.Fits cfg)
    (honce : (parts.map BinaryPart22.asText).Pairwise fun p q => p.name = q.name → p.Repeats)
    (hhead : ∃ lead d rest, parts = lead ++ .format d :: rest ∧ ∀ p ∈ lead, p.AlwaysText)
    (hf : Fits22 cfg (nodesIn (parts.map BinaryPart22.asText)) ((elementsIn (parts.map BinaryPart22.asText)).map FileElem.elem))
    (hroom : (restOf (parts.map BinaryPart22.asText)).nodeData.length ≤ cfg.maxCount ∧ (restOf (parts.map BinaryPart22.asText)).elementData.length ≤ cfg.maxCount ∧
      (restOf (parts.map BinaryPart22.asText)).elementNodeData.length ≤ cfg.maxCount)
    (file : Bytes) (h : BinaryFile22 parts file) : warnings cfg file = (parts.flatMap fun p => p.asText.unknown).flatMap warningLine := by
  obtain ⟨gap, bytes, trail, hw, ht, rfl⟩ := h
  have h2 := hf.two
  have hfitT : ∀ p ∈ parts.map BinaryPart22.asText, p.Fits cfg := by
    intro p hp
    obtain ⟨q, hq, rfl⟩ := List.mem_map.mp hp
    exact (hfit q hq).asText
  have hraw := raw_fold (parts.map BinaryPart22.asText) {} {} {} {} hfitT honce
  have e0 : MshSpec.withMesh {} {} {} {} = {} := rfl
  rw [e0] at hraw
  have hm := rawB_fold parts {} {} rfl
  have hform := rawB_format parts {} {} (Or.inr (by
    obtain ⟨lead, d, rest, e, _⟩ := hhead
    exact ⟨d, by simp [e]⟩)) hfit
  rw [hform, hraw] at hm
  obtain ⟨h1, hv, _⟩ := rounds_binary22 (by omega) parts (s := {}) (Or.inr hhead) hfit
    (fun p _ => by
      cases p with
      | common p => cases p <;> first | trivial | rfl
      | nodes ns => rfl
      | elements fs => exact ⟨rfl, rfl⟩
      | format d => trivial) honce (by rw [← hm]; exact ⟨hroom.1, hroom.2.1, hroom.2.2⟩) hf.coords (by rw [elemEntries_eq]; exact hf.entries)
  rw [warnings_said, h1.said (heads := parts.map fun p => p.asText.head) (forall₂_map parts BinaryPart22.first_pieces)
    (fun t ht => by obtain ⟨p, hp, rfl⟩ := List.mem_map.mp ht; exact Part22.head_word (hfit p hp).asText) (by rw [← List.flatMap_def]; exact hw) ht,
    flatMap_heads (unknown := fun p => p.asText.unknown) fun p hp => Part22.head_unknown (hfit p hp).asText]
  rfl

/-- The text file of C69. -/
example : warnings demoDebug demoText = b! "Warning: skipping section \"$Comments\"\n" := by
  rw [C77_text41 demoDebug demoParts demoParts_fits (by simp [demoParts, Part.name, Part.Repeats]) (by decide) demoText demoText_textFile]
  decide

/-! ## Files MshIO has written -/

/-- **C77** Loading what MshIO has saved writes nothing: binary version 4.1, as in C01. -/
theorem C77_saved_binary41 (cfg : Cfg) (s : MshSpec) (hfmt : s.meshFormat = ⟨b! "4.1", 1, 8⟩) (hs : s.Ok)
    (hf : s.Fits cfg) (hreal : ∀ x ∈ s.realTags, Printable cfg.fmt x) (hw : cfg.nanospline = true → Word s.nanosplineVersion) :
    warnings cfg (saveMsh cfg s).1 = [] :=
  (sls_msh41 cfg (rd := reread cfg.fmt) s (by rw [hfmt]) (by rw [hfmt]) (by rw [hfmt]) hs hf hw fun x hx => (hreal x hx).dtok).quiet rfl

/-- **C77** Text version 4.1, as in C02. -/
theorem C77_saved_ascii41 (cfg : Cfg) (s : MshSpec) (hfmt : s.meshFormat = ⟨b! "4.1", 0, 8⟩) (hs : s.Ok)
    (hf : s.Fits cfg) (hd : ∀ x ∈ s.doubles, Printable cfg.fmt x)
    (hpar : cfg.asserts = true → ∀ b ∈ s.nodes.entityBlocks, 0 ≤ b.parametric.toInt ∧ b.parametric.toInt ≤ 3)
    (hw : cfg.nanospline = true → Word s.nanosplineVersion) : warnings cfg (saveMsh cfg s).1 = [] :=
  (slt_msh41 cfg (rd := reread cfg.fmt) s (by rw [hfmt]) (by rw [hfmt]) (by rw [hfmt]) hs hf hpar hw fun x hx => (hd x hx).dtok).quiet rfl

/-- **C77** Binary version 2.2, as in C03. -/
theorem C77_saved_binary22 (cfg : Cfg) (s : MshSpec) {d : Int32} (hfmt : s.meshFormat = ⟨b! "2.2", 1, d⟩) (hs : s.Ok) (hc : s.Counted)
    (hf : s.Fits cfg) (hblk : ∀ b ∈ s.elements.entityBlocks, 0 < b.numElementsInBlock.toNat ∧ b.numElementsInBlock.toNat < 2 ^ 31)
    (hreal : ∀ x ∈ s.realTags, Printable cfg.fmt x) (hfit : Fits22 cfg (s.nodes22 wrap32 id) (s.elems22 wrap32))
    (hw : cfg.nanospline = true → Word s.nanosplineVersion) : warnings cfg (saveMsh cfg s).1 = [] := by
  have h2 := hfit.two
  exact (sls_msh22 cfg (rd := reread cfg.fmt) s (by rw [hfmt]) (by rw [hfmt]) hs hf hc hblk hw
    (fun x hx => (hreal x hx).dtok) hfit.coords22 (by omega) hfit.entries22).quiet rfl

/-- **C77** Text version 2.2, as in C04. -/
theorem C77_saved_ascii22 (cfg : Cfg) (s : MshSpec) {d : Int32} (hfmt : s.meshFormat = ⟨b! "2.2", 0, d⟩) (hs : s.Ok) (hc : s.Counted)
    (hf : s.Fits cfg) (hetag : ∀ b ∈ s.elements.entityBlocks, ∀ t ∈ b.data, t.toNat < 2 ^ 31)
    (hd : ∀ x ∈ s.doubles22, Printable cfg.fmt x) (hfit : Fits22 cfg s.nodes.list s.elements.list)
    (hw : cfg.nanospline = true → Word s.nanosplineVersion) : warnings cfg (saveMsh cfg s).1 = [] := by
  have h2 := hfit.two
  exact (slt_msh22 cfg (rd := reread cfg.fmt) s (by rw [hfmt]) (by rw [hfmt]) hs hf hc hetag hw
    (fun x hx => (hd x hx).dtok) hfit.coords (by omega) hfit.entries).quiet rfl

/-- **C77** The text file a build with the extension saves loads in the build without it, where the splines are lost (C39), and this writes nothing either. -/
theorem C77_extension_silent (cfg : Cfg) (hx : cfg.nanospline = true) (s : MshSpec) (hfmt : s.meshFormat = ⟨b! "4.1", 0, 8⟩)
    (hs : s.Ok) (hf : s.Fits cfg) (hd : ∀ x ∈ s.bare.doubles, Printable cfg.fmt x)
    (hpar : cfg.asserts = true → ∀ b ∈ s.nodes.entityBlocks, 0 ≤ b.parametric.toInt ∧ b.parametric.toInt ≤ 3)
    (hw : Word s.nanosplineVersion) : warnings { cfg with nanospline := false } (saveMsh cfg s).1 = [] := by
  have h1 : SLT cfg.noExt _ (saveMsh cfg.noExt s.bare) {} (s.bare.convert false id (reread cfg.fmt) (reread cfg.fmt)) :=
    slt_msh41 cfg.noExt s.bare (by show s.meshFormat.version = _; rw [hfmt]) (by show s.meshFormat.fileType = _; rw [hfmt])
      (by show s.meshFormat.dataSize = _; rw [hfmt]) hs.bare hf.bare hpar (fun h => by cases h) fun x hx => (hd x hx).dtok
  have e : saveMsh cfg.noExt s.bare = saveMsh cfg.noExt s := rfl
  rw [e] at h1
  exact (slt_ext hx (by rw [hfmt]) hs hf hw h1).quiet rfl

/-- The mesh of C01 with a curve and a patch. -/
example : warnings demoExt (saveMsh demoExt (demoNano ⟨b! "4.1", 1, 8⟩ dNaN)).1 = [] :=
  C77_saved_binary41 demoExt _ rfl (demoNano_ok _ _) (demoNano_fits (by decide) _ _) (fun x hx => (demo_reals _ _ x hx).1) (fun _ => word_10)

/-- The mesh of C39, loaded without the extension. -/
example : warnings demoDebug (saveMsh demoExt (demoNano ⟨b! "4.1", 0, 8⟩ dPi)).1 = [] := by decide +kernel

/-! ## C78: truncated files -/

/-- **C78** A truncated file causes the first of the lines the whole file causes, and at most one more, about the unknown name that is left when the cut goes through a word; that word is the
end of what is left. -/
theorem C78_cut (cfg : Cfg) (pre rest : Bytes) : ∃ told untold extra : List Bytes,
    warnings cfg (pre ++ rest) = (told ++ untold).flatMap warningLine ∧ warnings cfg pre = (told ++ extra).flatMap warningLine ∧
      (extra = [] ∨ ∃ n, extra = [n] ∧ n ∉ knownSections true ∧ (∀ c ∈ n, isSpace c = false) ∧ b! "$" ++ n <:+ pre) := by
  obtain ⟨told, untold, extra, h1, h2, h3⟩ := said_trunc cfg _ {} pre rest false le_rfl
  refine ⟨told, untold, extra, by rw [warnings_said]; exact h1, by rw [warnings_said]; exact h2, ?_⟩
  rcases h3 with h3 | ⟨n, h3, h4⟩
  · exact Or.inl h3
  · exact Or.inr ⟨n, h3, h4.unknown, h4.clean, h4.last⟩

/-- **C78** If the cut is behind white space there is no such line. -/
theorem C78_between_words (cfg : Cfg) (pre rest : Bytes) (c : UInt8) (hc : pre.getLast? = some c) (hs : isSpace c = true) :
    warnings cfg pre <+: warnings cfg (pre ++ rest) := by
  obtain ⟨told, untold, extra, h1, h2, h3⟩ := C78_cut cfg pre rest
  rcases h3 with rfl | ⟨n, -, -, hn, q, h4⟩
  · rw [h1, h2, List.append_nil, List.flatMap_append]
    exact List.prefix_append _ _
  · exfalso
    have hl : (36 :: n).getLast? = some c := by
      rw [← h4, List.getLast?_append] at hc
      rcases List.getLast?_isSome (l := 36 :: n) with h
      cases e : (36 :: n).getLast? with
      | none => simp at e
      | some d => rw [show b! "$" ++ n = 36 :: n from rfl, e] at hc; simpa using hc
    have hm : c ∈ 36 :: n := List.mem_of_getLast? hl
    rcases List.mem_cons.mp hm with rfl | hm
    · exact absurd hs (by decide)
    · rw [hn c hm] at hs; cases hs

/-- **C78** A truncated copy of a file that loads silently, for instance of one that MshIO has saved (C77), causes at most one line. -/
theorem C78_silent (cfg : Cfg) (pre rest : Bytes) (h : warnings cfg (pre ++ rest) = []) :
    warnings cfg pre = [] ∨ ∃ n, n ∉ knownSections true ∧ b! "$" ++ n <:+ pre ∧ warnings cfg pre = warningLine n := by
  obtain ⟨told, untold, extra, h1, h2, h3⟩ := C78_cut cfg pre rest
  have ht : told = [] := by
    cases told with
    | nil => rfl
    | cons n told =>
      rw [h] at h1
      have := congrArg List.length h1
      simp [warningLine] at this
  subst ht
  rw [h2]
  rcases h3 with rfl | ⟨n, rfl, hk, -, hn⟩
  · exact Or.inl rfl
  · refine Or.inr ⟨n, hk, hn, ?_⟩
    rw [List.nil_append, List.flatMap_cons, List.flatMap_nil, List.append_nil]

/-- A silent file cut in the middle of `$Nodes`. -/
example : warnings demoCfg (hdr41 ++ b! "$Nod" ++ b! "es\n0 0 0 0\n$EndNodes\n") = [] ∧ warnings demoCfg (hdr41 ++ b! "$Nod") = b! "Warning: skipping section \"$Nod\"\n" := by
  decide +kernel

/-- A cut behind white space. -/
example : warnings demoCfg (b! "$Faces 1 ") <+: warnings demoCfg (b! "$Faces 1 " ++ b! "$EndFaces $Edges") :=
  C78_between_words demoCfg _ _ 32 rfl rfl

end MshIO
