import Verif.Proofs.Agree
import Verif.Props.Demo
import Verif.Props.Undefined
import Verif.Props.SaveEnds
import Verif.Props.Volume
import Verif.Props.White

/-!
# C61: assertions and memory only stop the program

Files for all users: what a debug build loads, a release build loads, to the same spec; what a machine with little memory loads, a machine with more memory loads.  The ways in
which doubles are printed when saving do not matter to loading.
-/

namespace MshIO

/-- C61, assertions: for every file, either an assertion of a debug build fails or the release build does the same thing, whether that is returning a spec, throwing, hanging or
undefined behaviour. -/
theorem C61_assertions (debug release : Cfg) (hd : debug.asserts = true) (hr : release.asserts = false) (hn : debug.nanospline = release.nanospline)
    (hm : debug.maxCount = release.maxCount) (file : Bytes) :
    loadMsh debug file = .abort ∨ loadMsh debug file = loadMsh release file := by
  rcases stops_load (a := true) (m := false) ⟨hn, Or.inr ⟨rfl, hr⟩, Or.inl hm⟩ (Stream.ofBytes file) with h | h | h
  · exact Or.inl h.2
  · cases h.1
  · exact Or.inr h

/-- C61, memory: for every file, either an allocation fails with little memory or the same happens with more memory. -/
theorem C61_memory (small large : Cfg) (ha : small.asserts = large.asserts) (hn : small.nanospline = large.nanospline) (hm : small.maxCount ≤ large.maxCount) (file : Bytes) :
    loadMsh small file = .throw .alloc ∨ loadMsh small file = loadMsh large file := by
  rcases stops_load (a := false) (m := true) ⟨hn, Or.inl ha, Or.inr ⟨rfl, hm⟩⟩ (Stream.ofBytes file) with h | h | h
  · cases h.1
  · exact Or.inl h.2
  · exact Or.inr h

/-- C61, format of doubles: how doubles are printed does not matter to loading. -/
theorem C61_format (c d : Cfg) (ha : c.asserts = d.asserts) (hn : c.nanospline = d.nanospline) (hm : c.maxCount = d.maxCount) (file : Bytes) :
    loadMsh c file = loadMsh d file := by
  rcases stops_load (a := false) (m := false) ⟨hn, Or.inl ha, Or.inl hm⟩ (Stream.ofBytes file) with h | h | h
  · cases h.1
  · cases h.1
  · exact h

/-- C61, all together: a file that loads in a debug build on a small machine loads to the same spec in a release build on a larger machine.  (The reverse is false, see below.) -/
theorem C61_loads (c d : Cfg) (hn : c.nanospline = d.nanospline) (ha : d.asserts = true → c.asserts = true) (hm : c.maxCount ≤ d.maxCount) {file : Bytes} {s : MshSpec}
    (h : loadMsh c file = .ok s) : loadMsh d file = .ok s := by
  have hb : Builds true true c d := by
    refine ⟨hn, ?_, Or.inr ⟨rfl, hm⟩⟩
    cases hd : d.asserts with
    | true => exact Or.inl (ha hd)
    | false => exact Or.inr ⟨rfl, rfl⟩
  rcases stops_load hb (Stream.ofBytes file) with e | e | e
  · rw [loadMsh, e.2] at h; cases h
  · rw [loadMsh, e.2] at h; cases h
  · rw [loadMsh, ← e]; exact h

/-- C61, saving: for every spec, a debug build writes the same bytes and ends the same way as the release build, or an assertion fails after it has written a part of them from the
start. -/
theorem C61_save (debug release : Cfg) (hd : debug.asserts = true) (hn : debug.nanospline = release.nanospline) (hf : debug.fmt = release.fmt) (s : MshSpec) :
    saveMsh debug s = saveMsh release s ∨ (saveMsh debug s).2 = .abort ∧ (saveMsh debug s).1 <+: (saveMsh release s).1 :=
  (underW_save hn hf (fun _ => hd) s).all

/-- C61, saving: memory does not matter. -/
theorem C61_save_memory (c d : Cfg) (ha : c.asserts = d.asserts) (hn : c.nanospline = d.nanospline) (hf : c.fmt = d.fmt) (s : MshSpec) : saveMsh c s = saveMsh d s := by
  rcases (underW_save hn hf (fun h => ha.trans h) s).all with h | ⟨h1, h2⟩
  · exact h
  · rcases (underW_save hn.symm hf.symm (fun h => ha.symm.trans h) s).all with h | ⟨h3, h4⟩
    · exact h.symm
    · exact Prod.ext (h2.eq_of_length_le h4.length_le) (h1.trans h3.symm)

/-! ## Cases -/

/-- Nodes whose second tag is not a number. -/
def badNodes : Bytes := hdr41 ++ b! "$Nodes\n1 2 1 2\n0 5 0 2\n1\nx\n$EndNodes\n"

/-- A file for which an assertion fails in a debug build; the release build does not return either (the stream stays failed). -/
example : loadMsh demoDebug badNodes = .abort ∧ loadMsh demoCfg badNodes = .hang := by decide +kernel

/-- A complete file on which the builds agree. -/
def goodNodes : Bytes := hdr41 ++ b! "$Nodes\n1 2 1 2\n0 5 0 2\n1\n2\n0 0 0\n1 2 3\n$EndNodes\n"

theorem goodNodes_loads (cfg : Cfg) (h : (match loadMsh cfg goodNodes with
    | .ok s => s.nodes.entityBlocks.length == 1
    | _ => false) = true) : ∃ s, loadMsh cfg goodNodes = .ok s := by
  cases e : loadMsh cfg goodNodes with
  | ok s => exact ⟨s, rfl⟩
  | _ => rw [e] at h; cases h

example : ∃ s, loadMsh demoDebug goodNodes = .ok s ∧ loadMsh demoCfg goodNodes = .ok s :=
  (goodNodes_loads demoDebug (by decide +kernel)).imp fun _ h => ⟨h, C61_loads demoDebug demoCfg rfl (fun h => by cases h) le_rfl h⟩

/-- A release build with memory for one node. -/
def demoTiny : Cfg := ⟨false, false, .general 6, 1, by decide⟩

/-- It cannot load that file, which a larger machine can. -/
example : loadMsh demoTiny goodNodes = .throw .alloc ∧ ∃ s, loadMsh demoCfg goodNodes = .ok s := ⟨by decide +kernel, goodNodes_loads _ (by decide +kernel)⟩

/-- **C61**, the reverse of `C61_loads` is false: the file whose name of `$Nodes` ends with carriage return and line feed loads in a release build, and stops a debug build. -/
theorem C61_reverse_false : ∃ file, (∃ s, loadMsh demoCfg file = .ok s) ∧ loadMsh demoDebug file = .abort :=
  ⟨_, C57_crlf.1.imp fun _ h => h.1, C57_crlf.2.2.1⟩

/-- Saving a curve with too few numbers: the debug build stops after a part of the file; the release build goes on, into undefined behaviour. -/
example : (saveMsh demoExt (shortCurve 0)).2 = .abort ∧ (saveMsh demoExt (shortCurve 0)).1 ≠ [] ∧ (saveMsh demoExtRelease (shortCurve 0)).2 = .ub := by decide +kernel

end MshIO
