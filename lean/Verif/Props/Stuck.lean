import Verif.Proofs.Unstuck
import Verif.Props.Termination
import Verif.Props.Undefined

/-!
# C20: in which sections loading gets stuck
-/

namespace MshIO

/-- **C20.** `load_msh` loops forever exactly if the main loop arrives at one of the sections in `stuckSections` whose reader leaves the stream failed before the end of
the file.  In particular binary nodes, elements and entities of version 4.1 never make it loop, and in a build with assertions and without the extension only the format
section and the elements of version 2.2 do. -/
theorem C20_sections (cfg : Cfg) (file : Bytes) :
    loadMsh cfg file = .hang ↔ ∃ spec st name st1 spec' st2, Arrives cfg (Stream.ofBytes file) (spec, st) ∧ st.eof = false ∧
      inString [] st = .ok (36 :: name, st1) ∧ name ∈ stuckSections cfg.asserts cfg.nanospline spec.meshFormat ∧
      loadSection cfg (36 :: name) spec st1 = .ok (spec', st2) ∧ st2.fail = true ∧ st2.eof = false := by
  constructor
  · intro hh
    by_contra hno
    refine C20_partial cfg file ?_ hh
    intro spec st r st1 spec' st2 ha h1 h2 hf
    by_contra he
    rw [Bool.not_eq_true] at he
    have t1 := (((tame_inString []).all st).2 _ _ h1).eof
    have t2 := (((tame_loadSection cfg (36 :: r) spec).all st1).2 _ _ h2).eof
    have hst : st.eof = false := by
      cases e : st.eof
      · rfl
      · rw [t2 (t1 e)] at he; cases he
    by_cases hn : r ∈ stuckSections cfg.asserts cfg.nanospline spec.meshFormat
    · exact hno ⟨spec, st, r, st1, spec', st2, ha, hst, h1, hn, h2, hf, he⟩
    · refine absurd ((section_flows hn).all st1 _ _ ?_ h2 hf) (by rw [he]; decide)
      -- the word `$…` was read, so the stream has not failed
      intro hf1
      exfalso
      unfold inString at h1
      split at h1
      · cases h1
      · simp only [Outcome.ok.injEq, Prod.mk.injEq] at h1
        rw [← h1.2] at hf1; cases hf1
  · rintro ⟨spec, st, name, st1, spec', st2, ha, hst, h1, -, h2, hf, he⟩
    exact (C20_hang_iff cfg _).2 ⟨spec, st, ha, hst, Or.inr ⟨name, st1, spec', st2, h1, h2, hf, he⟩⟩

/-- **C20**, every entry of `stuckSections` is there for a reason: a file that makes `load_msh` loop forever in that section. -/
theorem C20_sections_needed :
    -- any build, any format
    loadMsh demoDebug (b! "$MeshFormat\n4.1 x") = .hang ∧
    -- the extension, with assertions
    loadMsh demoExt (hdr41 ++ b! "$Curves x") = .hang ∧ loadMsh demoExt (hdr41 ++ b! "$Patches x") = .hang ∧
    -- version 2.2, with assertions
    loadMsh demoDebug (hdr22 ++ b! "$Elements x") = .hang ∧ loadMsh demoDebug (hdr22b ++ b! "$Elements x") = .hang ∧
    -- without assertions, any format
    (∀ h ∈ [hdr41, hdr41b, hdr22, hdr22b], ∀ n ∈ [b! "$PhysicalNames x", b! "$NodeData\n0 0 3 0 x", b! "$ElementData\n0 0 3 0 x",
      b! "$ElementNodeData\n0 0 3 0 x"], loadMsh demoCfg (h ++ n) = .hang) ∧
    -- without assertions
    loadMsh demoCfg (hdr22 ++ b! "$Nodes x") = .hang ∧ loadMsh demoCfg (hdr22b ++ b! "$Nodes x") = .hang ∧
    loadMsh demoCfg (hdr41 ++ b! "$Nodes x") = .hang ∧ loadMsh demoCfg (hdr41 ++ b! "$Elements x") = .hang ∧
    loadMsh demoCfg (hdr41 ++ b! "$Entities 0 0 0 x") = .hang := by
  decide +kernel

end MshIO
