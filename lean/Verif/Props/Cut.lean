import Verif.Spec.Cut
import Verif.Proofs.CutSaved
import Verif.Props.Reject
import Verif.Props.Demo22

/-!
# C55: files cut short

A copy that was interrupted, a disk that was full: the file ends early.  In builds with assertions, if such a file loads at all, then up to the section it was cut
in it holds what the whole file holds, and that section is either missing or complete; this excludes the sections whose readers do not look at the state of the
stream (`uncheckedSections`).  In builds without assertions there is no such guarantee.
-/

namespace MshIO

/-- **C55.** In a build with assertions, let the file `p` load, and let it not end in one of the unchecked sections.  Then, whatever bytes `b` were cut off: reading the
cut file and reading the whole file, the main loop arrives at the same contents `spec` at the start of the same section, and what is made of the cut file (`v`, before
version 2.2 is converted) is either `spec`, or what the loop over the whole file holds one section later. -/
theorem C55_cut (cfg : Cfg) (hA : cfg.asserts = true) {p : Bytes} {t : MshSpec} (h : loadMsh cfg p = .ok t)
    (hu : ∀ name f, EndsIn cfg p name f → name ∉ uncheckedSections cfg.nanospline f) :
    ∃ spec a v, Arrives cfg (Stream.ofBytes p) (spec, ⟨a, false, false⟩) ∧ loadPostProcess cfg v = .ok t ∧ ∀ b,
      Arrives cfg (Stream.ofBytes (p ++ b)) (spec, ⟨a ++ b, false, false⟩) ∧
      (v = spec ∨ ∃ st, MainIter cfg (spec, ⟨a ++ b, false, false⟩) (v, st)) :=
  load_cut hA h hu

/-- **C55**, files saved as version 4.1 text: the file is the format section followed by sections `L`; whatever begins with the format section and is cut anywhere
after it loads, if at all, as if the file had been cut between two sections. -/
theorem C55_saved_text (cfg : Cfg) (hA : cfg.asserts = true) (hext : cfg.nanospline = false) (s : MshSpec) (hfmt : s.meshFormat = ⟨b! "4.1", 0, 8⟩)
    (hs : s.Ok) (hf : s.Fits cfg) (hd : ∀ x ∈ s.doubles, Printable cfg.fmt x)
    (hpar : ∀ b ∈ s.nodes.entityBlocks, 0 ≤ b.parametric.toInt ∧ b.parametric.toInt ≤ 3) :
    ∃ L whole, saveMsh cfg s = (hdr41 ++ firstSections L.length L, .ok ()) ∧ Chain cfg {} L whole ∧
      ∀ p t, p <+: firstSections L.length L → loadMsh cfg (hdr41 ++ p) = .ok t →
        ∃ k ≤ L.length, loadMsh cfg (hdr41 ++ firstSections k L) = .ok t ∧ firstSections (k - 1) L <+: p ∧
          (k < L.length → ¬ firstSections (k + 1) L <+: p) := by
  have hv : s.meshFormat.version = b! "4.1" := by rw [hfmt]
  have ht : s.meshFormat.fileType = 0 := by rw [hfmt]
  have hdt : ∀ x ∈ s.doubles, DTok cfg.fmt (reread cfg.fmt) x := fun x hx => (hd x hx).dtok
  obtain ⟨⟨ps, h1, h2, h3⟩, -, hl⟩ := slt_msh41_rest cfg s hv ht hs hf (fun _ => hpar) (fun d h => hdt d (mem_doubles.mpr (Or.inl h)))
    (fun b hb d h => hdt d (mem_doubles.mpr (Or.inr (Or.inl (List.mem_flatMap.mpr ⟨b, hb, h⟩)))))
    (slt_tail cfg s _ rfl ht (hs.tail hf fun h => by rw [hext] at h; cases h) (s.mid41_fresh _)
      (fun x h => hdt x (mem_doubles.mpr (Or.inr (Or.inr (Or.inl h)))))
      (fun d hdm e he x hx => hdt x (mem_doubles.mpr (Or.inr (Or.inr (Or.inr (Or.inl
        (List.mem_flatMap.mpr ⟨d, hdm, List.mem_flatMap.mpr ⟨e, he, hx⟩⟩)))))))
      (fun h => by rw [hext] at h; cases h) (fun h => by rw [hext] at h; cases h))
  have hlk := hl ps h1 fun q hq => (h2 q hq).2.sep
  rw [hext] at hlk
  obtain ⟨L, hc, hL, hck⟩ := hlk.checked (safe_rest _ s)
  have e0 : ({ meshFormat := s.meshFormat } : MshSpec) = {} := by rw [hfmt]
  rw [e0] at hc
  have hh : Linked cfg (openToks s) {} hdr41 { meshFormat := s.meshFormat } :=
    ((slt_meshFormat cfg {} s.meshFormat (Or.inr hv) ht (by rw [hfmt]; intro _; rfl)).2.2
      [(b! "$MeshFormat", [10]), (b! "4.1", [32]), (b! "0", [32]), (b! "8", [10]), (b! "$EndMeshFormat", [10])]
      (by rw [hfmt]; decide) (by simp [one_nl.sep, one_sp.sep])).cast (by decide)
  rw [e0] at hh
  refine ⟨L, _, ?_, hc, fun p t hp h => saved_cut hA hext hh rfl hc hck p t hp h⟩
  rw [saveMsh_eq, firstSections_all, hL]
  exact Writes.bind (by rw [hfmt]; rfl) h3

/-- The format section of a binary file as it is saved. -/
def savedHdr41b : Bytes := b! "$MeshFormat\n4.1 1 8\n" ++ [1, 0, 0, 0] ++ b! "$EndMeshFormat\n"

/-- **C55**, files saved as version 4.1 binary. -/
theorem C55_saved_binary (cfg : Cfg) (hA : cfg.asserts = true) (hext : cfg.nanospline = false) (s : MshSpec) (hfmt : s.meshFormat = ⟨b! "4.1", 1, 8⟩)
    (hs : s.Ok) (hf : s.Fits cfg) (hd : ∀ x ∈ s.realTags, Printable cfg.fmt x) :
    ∃ L whole, saveMsh cfg s = (savedHdr41b ++ firstSections L.length L, .ok ()) ∧ Chain cfg { meshFormat := s.meshFormat } L whole ∧
      ∀ p t, p <+: firstSections L.length L → loadMsh cfg (savedHdr41b ++ p) = .ok t →
        ∃ k ≤ L.length, loadMsh cfg (savedHdr41b ++ firstSections k L) = .ok t ∧ firstSections (k - 1) L <+: p ∧
          (k < L.length → ¬ firstSections (k + 1) L <+: p) := by
  have hv : s.meshFormat.version = b! "4.1" := by rw [hfmt]
  have ht : s.meshFormat.fileType = 1 := by rw [hfmt]
  obtain ⟨h3, -, hl⟩ := sls_msh41_rest cfg s hv ht hs hf
    (sls_tail cfg s _ rfl (by rw [ht]; decide) (Or.inl hv) (hs.tail hf fun h => by rw [hext] at h; cases h) (s.mid41_fresh id)
      fun x hx => (hd x hx).dtok)
  have hlk := hl (tight (restSecs41 s (tailSecs cfg s))) (by simp [tight, Function.comp_def]) fun q hq => by
    obtain ⟨a, -, rfl⟩ := List.mem_map.mp hq
    exact ⟨Ws.nil, one_nl.sep⟩
  obtain ⟨L, hc, hL, hck⟩ := hlk.checked (fun t ht name e => by
    obtain ⟨q, hq, rfl⟩ := List.mem_map.mp ht
    cases e
    exact safe_secs hext s q hq)
  have hh := (sls_meshFormat cfg {} s.meshFormat (Or.inr hv) ht (by rw [hfmt]; intro _; rfl)).2.2 (tight (openSecs s)) (by simp [tight, openSecs, Function.comp_def]) fun q hq => by
    obtain ⟨a, -, rfl⟩ := List.mem_map.mp hq
    exact ⟨Ws.nil, one_nl.sep⟩
  replace hh := hh.cast (b := savedHdr41b) (by unfold openSecs; rw [hfmt]; decide)
  refine ⟨L, _, ?_, hc, fun p t hp h => saved_cut hA hext hh hv hc hck p t hp h⟩
  rw [saveMsh_eq, firstSections_all, hL]
  exact Writes.bind (by rw [hfmt]; rfl) h3

/-! ## The limits -/

/-- The file `pre ++ sec`, `sec` being one section, cut after `n` bytes of `sec`, loads as something that is neither what `pre` holds nor what the whole file holds. -/
def Garbled (cfg : Cfg) (pre sec : Bytes) (n : Nat) : Prop :=
  ∃ cut whole before, loadMsh cfg (pre ++ sec.take n) = .ok cut ∧ loadMsh cfg (pre ++ sec) = .ok whole ∧ loadMsh cfg pre = .ok before ∧
    cut ≠ whole ∧ cut ≠ before

private def garbled? (cfg : Cfg) (pre sec : Bytes) (n : Nat) : Bool :=
  match loadMsh cfg (pre ++ sec.take n), loadMsh cfg (pre ++ sec), loadMsh cfg pre with
  | .ok a, .ok b, .ok c => decide (a ≠ b) && decide (a ≠ c)
  | _, _, _ => false

private theorem garbled_of {cfg : Cfg} {pre sec : Bytes} {n : Nat} (h : garbled? cfg pre sec n = true) : Garbled cfg pre sec n := by
  unfold garbled? at h
  split at h
  · rename_i a b c h1 h2 h3
    rw [Bool.and_eq_true, decide_eq_true_iff, decide_eq_true_iff] at h
    exact ⟨a, b, c, h1, h2, h3, h⟩
  · cases h

def cutNodes41 : Bytes := b! "$Nodes\n1 2 1 2\n2 1 0 2\n1\n2\n0 0 0\n1 2 3\n$EndNodes\n"
def cutNodes22 : Bytes := b! "$Nodes\n2\n1 0 0 0\n2 1 0 0\n$EndNodes\n"
def cutElements22 : Bytes := b! "$Elements\n2\n1 1 0 1 2\n2 1 0 2 1\n$EndElements\n"
def cutNodes22b : Bytes := b! "$Nodes\n2\n" ++ encI32 1 ++ encDouble dOne ++ encDouble dOne ++ encDouble dOne ++
  encI32 2 ++ encDouble dOne ++ encDouble dOne ++ encDouble dOne ++ b! "\n$EndNodes\n"
def cutElements22b : Bytes := b! "$Elements\n2\n" ++ encI32 1 ++ encI32 2 ++ encI32 0 ++ encI32 1 ++ encI32 1 ++ encI32 2 ++
  encI32 2 ++ encI32 2 ++ encI32 1 ++ b! "\n$EndElements\n"

/-- **C55**, the limits: assertions are needed. -/
theorem C55_release : Garbled demoCfg hdr41 cutNodes41 36 := garbled_of (by decide +kernel)

/-- **C55**, the limits: every name in `uncheckedSections` is there for a reason. -/
theorem C55_unchecked :
    Garbled demoDebug [] hdr22b 15 ∧
    Garbled demoDebug (hdr22 ++ cutNodes22) cutElements22 25 ∧
    Garbled demoDebug hdr22b cutNodes22b 60 ∧
    Garbled demoDebug (hdr22b ++ cutNodes22b) cutElements22b 40 ∧
    Garbled demoExt hdr41 (b! "$NanoSplineFormat\n2.0\n$EndNanoSplineFormat\n") 19 ∧
    Garbled demoExt hdr41 (b! "$Curves\n1\n1 1 1 1 2 0\n3.14159 1 1\n0.1\n1\n$EndCurves\n") 30 ∧
    Garbled demoExt hdr41 (b! "$Patches\n1\n1 1 1 1 1 1 0 1\n1 1 1 0.1\n1\n$EndPatches\n") 30 := by
  refine ⟨?_, ?_, ?_, ?_, ?_, ?_, ?_⟩ <;> exact garbled_of (by decide +kernel)

/-! ## Concrete cases -/

/-- A file that ends in the middle of `$EndNodes`: it loads, and the nodes are complete. -/
example : ∃ t, loadMsh demoDebug (hdr41 ++ cutNodes41.take 45) = .ok t ∧ t.nodes.numNodes = 2 ∧
    ∃ spec a v, Arrives demoDebug (Stream.ofBytes (hdr41 ++ cutNodes41.take 45)) (spec, ⟨a, false, false⟩) ∧ loadPostProcess demoDebug v = .ok t ∧ ∀ b,
      Arrives demoDebug (Stream.ofBytes (hdr41 ++ cutNodes41.take 45 ++ b)) (spec, ⟨a ++ b, false, false⟩) ∧
      (v = spec ∨ ∃ st, MainIter demoDebug (spec, ⟨a ++ b, false, false⟩) (v, st)) := by
  refine ⟨{ nodes := ⟨1, 2, 1, 2, [⟨2, 1, 0, 2, [1, 2], [⟨0⟩, ⟨0⟩, ⟨0⟩, dOne, ⟨0x4000000000000000⟩, ⟨0x4008000000000000⟩]⟩]⟩ }, by decide +kernel, rfl,
    C55_cut demoDebug rfl (by decide +kernel) fun name f h => ?_⟩
  obtain ⟨rfl, st, hi⟩ := endsIn_known h (x := ({}, ⟨b! "\n" ++ cutNodes41.take 45, false, false⟩))
    (y := ({ nodes := ⟨1, 2, 1, 2, [⟨2, 1, 0, 2, [1, 2], [⟨0⟩, ⟨0⟩, ⟨0⟩, dOne, ⟨0x4000000000000000⟩, ⟨0x4008000000000000⟩]⟩]⟩ }, ⟨[], true, false⟩))
    (by decide +kernel) rfl (by decide +kernel) rfl
  have e : inString [] ⟨b! "\n" ++ cutNodes41.take 45, false, false⟩ = .ok (b! "$Nodes", ⟨(cutNodes41.take 45).drop 6, false, false⟩) := by decide +kernel
  rw [e] at hi
  simp only [Outcome.ok.injEq, Prod.mk.injEq, List.cons.injEq, true_and] at hi
  rw [← hi.1]
  decide

/-- Saved files: names, entities, nodes, elements and data. -/
example : ∃ L whole, saveMsh demoDebug (demoSpec ⟨b! "4.1", 1, 8⟩ dNaN) = (savedHdr41b ++ firstSections L.length L, .ok ()) ∧
      Chain demoDebug { meshFormat := ⟨b! "4.1", 1, 8⟩ } L whole ∧
      ∀ p t, p <+: firstSections L.length L → loadMsh demoDebug (savedHdr41b ++ p) = .ok t →
        ∃ k ≤ L.length, loadMsh demoDebug (savedHdr41b ++ firstSections k L) = .ok t ∧ firstSections (k - 1) L <+: p ∧
          (k < L.length → ¬ firstSections (k + 1) L <+: p) :=
  C55_saved_binary demoDebug rfl rfl _ rfl (demoSpec_ok _ _) (demoSpec_fits (by decide) _ _) fun x hx => (demo_reals ⟨b! "4.1", 1, 8⟩ dNaN x hx).1

/-- The same as text, with π among the coordinates. -/
example : ∃ L whole, saveMsh demoDebug (demoSpec ⟨b! "4.1", 0, 8⟩ dPi) = (hdr41 ++ firstSections L.length L, .ok ()) ∧ Chain demoDebug {} L whole ∧
      ∀ p t, p <+: firstSections L.length L → loadMsh demoDebug (hdr41 ++ p) = .ok t →
        ∃ k ≤ L.length, loadMsh demoDebug (hdr41 ++ firstSections k L) = .ok t ∧ firstSections (k - 1) L <+: p ∧
          (k < L.length → ¬ firstSections (k + 1) L <+: p) := by
  refine C55_saved_text demoDebug rfl rfl _ rfl (demoSpec_ok _ _) (demoSpec_fits (by decide) _ _) (fun x hx => ?_) (fun b hb => ?_)
  · have : x = dOne ∨ x = dTenth ∨ x = dPi := by
      refine demo_doubles ⟨b! "4.1", 0, 8⟩ dPi x ?_
      rw [mem_doubles] at hx ⊢
      rcases hx with h | h | h | h | h | h
      · exact Or.inl h
      · exact Or.inr (Or.inl h)
      · exact Or.inr (Or.inr (Or.inl h))
      · exact Or.inr (Or.inr (Or.inr (Or.inl h)))
      · cases h
      · cases h
    rcases this with rfl | rfl | rfl <;> unfold Printable <;> decide +kernel
  · simp only [demoSpec, List.mem_cons, List.not_mem_nil, or_false] at hb
    rcases hb with rfl | rfl <;> exact ⟨by decide, by decide⟩

end MshIO
