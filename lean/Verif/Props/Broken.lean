import Verif.Proofs.BrokenLoop
import Verif.Props.Device

/-!
# C74: a read error is never mistaken for the end of the file, and mostly makes loading run forever

`Model/Broken.lean` is the loader on streams that may break.  `Broken.loadMsh cfg bytes` is `load_msh` on a file of which `bytes` can be read and then comes an error of the device.
-/

namespace MshIO

/-- On streams that do not break, the second model of the loader is the first one. -/
theorem C74_same (cfg : Cfg) (bytes : Bytes) (eof fail : Bool) : Broken.loadStream cfg ⟨bytes, eof, fail, false⟩ = loadStream cfg ⟨bytes, eof, fail⟩ := by
  unfold Broken.loadStream loadStream
  rcases (Broken.along_loadLoop cfg (bytes.length + 2) {}).run ⟨bytes, eof, fail⟩ trivial with ⟨a, s', h1, h2, _⟩ | ⟨e, h1, h2⟩ | ⟨h1, h2⟩ | ⟨h1, h2⟩ | ⟨h1, h2⟩ <;>
    · unfold Broken.emb at h2
      simp only at h1 h2 ⊢
      rw [h1, h2]

/-- `load_msh` never returns a mesh when the device fails, whatever arrived before. -/
theorem C74_never_returns (cfg : Cfg) (bytes : Bytes) (spec : MshSpec) : Broken.loadMsh cfg bytes ≠ .ok spec := by
  unfold Broken.loadMsh Broken.loadStream
  intro h
  cases e : Broken.loadLoop cfg (bytes.length + 2) {} ⟨bytes, false, false, true⟩ with
  | ok r => exact Broken.loadLoop_open cfg _ _ rfl rfl r e
  | throw x => simp only [e] at h; cases h
  | abort => simp only [e] at h; cases h
  | ub => simp only [e] at h; cases h
  | hang => simp only [e] at h; cases h

/-- Where the model says `hang`, the loops of the code go on for ever: any number of rounds beyond the number of bytes gives the same, in the main loop and in `forward_to`. -/
theorem C74_rounds (cfg : Cfg) (bytes flag : Bytes) (n : Nat) (hn : bytes.length + 2 ≤ n) (failed : Bool) :
    Broken.loadLoop cfg n {} ⟨bytes, false, failed, true⟩ = Broken.loadLoop cfg (bytes.length + 2) {} ⟨bytes, false, failed, true⟩ ∧
    Broken.forwardToFuel flag n [] ⟨bytes, false, failed, true⟩ = Broken.forwardTo flag ⟨bytes, false, failed, true⟩ :=
  ⟨Broken.loadLoop_enough cfg _ _ _ rfl rfl (show bytes.length < n by omega) (show bytes.length < bytes.length + 2 by omega),
   (Broken.forwardToFuel_enough _ _ rfl rfl (show bytes.length + 1 < n by omega) (show bytes.length + 1 < bytes.length + 2 by omega)).1⟩

/-- A directory: it can be opened, the first read fails, and the main loop never ends. -/
theorem C74_directory (cfg : Cfg) : Broken.loadMsh cfg [] = .hang ∧ ∀ n, Broken.loadLoop cfg n {} ⟨[], false, false, true⟩ = .hang := by
  have h : ∀ n, Broken.loadLoop cfg n {} ⟨[], false, false, true⟩ = .hang := by
    intro n
    cases n with
    | zero => rfl
    | succ n =>
      rw [Broken.loadLoop_succ, if_neg (by simp), Broken.bind_def]
      exact Broken.loadLoop_stuck cfg (s := ⟨[], false, true, true⟩) rfl rfl {} n
  refine ⟨?_, h⟩
  unfold Broken.loadMsh Broken.loadStream
  rw [h]

/-- A file that would load, except that an error comes where its end should be (after a last byte that is white space): loading never ends. -/
theorem C74_loadable (cfg : Cfg) (p : Bytes) (c : UInt8) (hc : isSpace c = true) (spec : MshSpec) (h : loadMsh cfg (p ++ [c]) = .ok spec) : Broken.loadMsh cfg (p ++ [c]) = .hang := by
  have ht := Broken.twin_loadLoop cfg ((p ++ [c]).length + 2) {} ⟨p ++ [c], false, false⟩ (.inr ⟨p, c, rfl, hc⟩) rfl
  unfold loadMsh loadStream Stream.ofBytes at h
  unfold Broken.loadMsh Broken.loadStream
  simp only at h ⊢
  change Broken.loadLoop cfg ((p ++ [c]).length + 2) {} ⟨p ++ [c], false, false, true⟩ = _ at ht
  rw [ht]
  cases e : MshIO.loadLoop cfg ((p ++ [c]).length + 2) {} ⟨p ++ [c], false, false⟩ <;> rw [e] at h <;> simp only at h <;> first | rfl | cases h

/-- What arrived before the error and ends in white space is read as ever: if the main loop of `load_msh` fails on a file of these bytes, it fails in the same way here, and if it
comes to the end of such a file, it never ends here. -/
theorem C74_exact (cfg : Cfg) (p : Bytes) (c : UInt8) (hc : isSpace c = true) : Broken.loadMsh cfg (p ++ [c]) =
    match loadLoop cfg ((p ++ [c]).length + 2) {} (Stream.ofBytes (p ++ [c])) with
    | .ok _ => .hang
    | .throw e => .throw e
    | .abort => .abort
    | .ub => .ub
    | .hang => .hang := by
  have ht := Broken.twin_loadLoop cfg ((p ++ [c]).length + 2) {} ⟨p ++ [c], false, false⟩ (.inr ⟨p, c, rfl, hc⟩) rfl
  unfold Stream.ofBytes Broken.loadMsh Broken.loadStream
  simp only
  change Broken.loadLoop cfg ((p ++ [c]).length + 2) {} ⟨p ++ [c], false, false, true⟩ = _ at ht
  rw [ht]
  cases e : MshIO.loadLoop cfg ((p ++ [c]).length + 2) {} ⟨p ++ [c], false, false⟩ <;> rfl

/-- In terms of `load_msh` itself: it ends as on a file of these bytes, or not at all. -/
theorem C74_as_read (cfg : Cfg) (p : Bytes) (c : UInt8) (hc : isSpace c = true) : Broken.loadMsh cfg (p ++ [c]) = .hang ∨ Broken.loadMsh cfg (p ++ [c]) = loadMsh cfg (p ++ [c]) := by
  rw [C74_exact cfg p c hc]
  unfold loadMsh loadStream
  change _ ∨ _ = match loadLoop cfg ((p ++ [c]).length + 2) {} (Stream.ofBytes (p ++ [c])) with
    | .ok (spec, _) => loadPostProcess cfg spec
    | .throw e => .throw e
    | .abort => .abort
    | .ub => .ub
    | .hang => .hang
  cases e : MshIO.loadLoop cfg ((p ++ [c]).length + 2) {} (Stream.ofBytes (p ++ [c])) <;> simp

/-! ## Cases -/

/-- A small file that loads. -/
def demoPoint : Bytes := b! "$MeshFormat\n4.1 0 8\n$EndMeshFormat\n$Nodes\n1 1 1 1\n0 1 0 1\n1\n0 0 0\n$EndNodes\n"

/-- It loads; with an error in place of its end, loading never ends. -/
example : loadMsh demoCfg demoPoint = .ok { nodes := ⟨1, 1, 1, 1, [⟨0, 1, 0, 1, [1], [.zero, .zero, .zero]⟩]⟩ } ∧ Broken.loadMsh demoCfg demoPoint = .hang :=
  have h : loadMsh demoCfg demoPoint = .ok { nodes := ⟨1, 1, 1, 1, [⟨0, 1, 0, 1, [1], [.zero, .zero, .zero]⟩]⟩ } := by decide +kernel
  ⟨h, C74_loadable demoCfg demoPoint.dropLast 10 rfl _ h⟩

/-- Other ends: an exception, an assertion, and undefined behaviour, where the number `1` arrived but not the byte after it; at the end of a file that number is read. -/
example : Broken.loadMsh demoCfg (b! "$MeshFormat\n3.0 0 8\n") = .throw .unsupportedFeature := by decide +kernel
example : Broken.loadMsh demoDebug (b! "$Nodes\n1 1 1 1\n0 1 0 1\n1\n0 0 0") = .abort := by decide +kernel
example : Broken.loadMsh demoCfg (b! "$PhysicalNames\n1") = .ub ∧ loadMsh demoCfg (b! "$PhysicalNames\n1") = .ok { physicalGroups := [⟨0, 0, []⟩] } := by decide +kernel

/-- A directory. -/
example : Broken.loadMsh demoDebug [] = .hang := (C74_directory _).1

/-- The second model at work on a stream that does not break. -/
example : Broken.loadStream demoCfg ⟨b! "$MeshFormat\n3.0 0 8\n", false, false, false⟩ = .throw .unsupportedFeature := by decide +kernel

end MshIO
