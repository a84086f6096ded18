import Verif.Proofs.Device
import Verif.Props.Cut

/-!
# C73: output that fails

`save_msh` never looks at its stream.  If the disk is full, the pipe closed or the stream bad from the start, it ends as if all had been written.
-/

namespace MshIO

/-- **C73** However little room the device has, `save_msh` on a file ends as it would with any room, and the file has the bytes that fit. -/
theorem C73_ends_the_same (cfg : Cfg) (s : MshSpec) (room : Nat) :
    Device.saveFile cfg true room s = ((saveMsh cfg s).2, (saveMsh cfg s).1.take room) := by
  unfold Device.saveFile
  rw [if_pos rfl, (Device.does_msh cfg s).run]
  unfold Device.Device.after Device.put
  by_cases h : (saveMsh cfg s).1.length ≤ room
  · simp [h, List.take_of_length_le]
  · simp [h]

/-- **C73** So a full disk goes unnoticed: `save_msh` returns normally and the file is not what it should be. -/
theorem C73_unnoticed (cfg : Cfg) (s : MshSpec) (file : Bytes) (h : saveMsh cfg s = (file, .ok ())) (room : Nat) (hr : room < file.length) :
    ∃ part, Device.saveFile cfg true room s = (.ok (), part) ∧ part.length = room ∧ part <+: file := by
  rw [C73_ends_the_same, h]
  exact ⟨_, rfl, by simp; omega, List.take_prefix _ _⟩

/-- **C73** With room for all of it, nothing is lost. -/
theorem C73_enough (cfg : Cfg) (s : MshSpec) (file : Bytes) (h : saveMsh cfg s = (file, .ok ())) (room : Nat) (hr : file.length ≤ room) :
    Device.saveFile cfg true room s = (.ok (), file) := by
  rw [C73_ends_the_same, h]
  simp only [List.take_of_length_le hr]

/-- **C73** A caller who passes a stream can find out: on a stream that was good, everything is on the device if and only if the stream is good afterwards. -/
theorem C73_stream_tells (cfg : Cfg) (s : MshSpec) (held : Bytes) (room : Nat) :
    ∃ d : Device.Device, Device.saveMsh cfg s ⟨held, room, false⟩ = ((saveMsh cfg s).2, d) ∧ (d.bad = false ↔ d.held = held ++ (saveMsh cfg s).1) := by
  refine ⟨_, (Device.does_msh cfg s).run _, ?_⟩
  unfold Device.Device.after Device.put
  by_cases h : (saveMsh cfg s).1.length ≤ room
  · simp [h]
  · simp only [Bool.false_eq_true, if_false, if_neg h, reduceCtorEq, false_iff]
    intro e
    have := congrArg List.length (List.append_cancel_left e)
    simp at this
    omega

/-- **C73** On a stream that was not good `save_msh` writes nothing and ends as on any other. -/
theorem C73_bad_stream (cfg : Cfg) (s : MshSpec) (held : Bytes) (room : Nat) :
    Device.saveMsh cfg s ⟨held, room, true⟩ = ((saveMsh cfg s).2, ⟨held, room, true⟩) := by
  rw [(Device.does_msh cfg s).run]
  rfl

/-- **C73** Text of version 4.1 in builds with assertions: what is left on a full disk, if it is at least the format section and loads at all, loads as if whole sections were missing
at the end; there are no half-read sections. -/
theorem C73_reload_text (cfg : Cfg) (hA : cfg.asserts = true) (hext : cfg.nanospline = false) (s : MshSpec) (hfmt : s.meshFormat = ⟨b! "4.1", 0, 8⟩)
    (hs : s.Ok) (hf : s.Fits cfg) (hd : ∀ x ∈ s.doubles, Printable cfg.fmt x)
    (hpar : ∀ b ∈ s.nodes.entityBlocks, 0 ≤ b.parametric.toInt ∧ b.parametric.toInt ≤ 3) :
    ∃ L whole, saveMsh cfg s = (hdr41 ++ firstSections L.length L, .ok ()) ∧ Chain cfg {} L whole ∧
      ∀ room t, hdr41.length ≤ room → loadMsh cfg (Device.saveFile cfg true room s).2 = .ok t →
        ∃ k ≤ L.length, loadMsh cfg (hdr41 ++ firstSections k L) = .ok t := by
  obtain ⟨L, whole, h1, h2, h3⟩ := C55_saved_text cfg hA hext s hfmt hs hf hd hpar
  refine ⟨L, whole, h1, h2, fun room t hr h => ?_⟩
  rw [C73_ends_the_same, h1] at h
  simp only [List.take_append, List.take_of_length_le hr] at h
  obtain ⟨k, hk, e, _⟩ := h3 _ t (List.take_prefix _ _) h
  exact ⟨k, hk, e⟩

/-- **C73** The same for binary files of version 4.1. -/
theorem C73_reload_binary (cfg : Cfg) (hA : cfg.asserts = true) (hext : cfg.nanospline = false) (s : MshSpec) (hfmt : s.meshFormat = ⟨b! "4.1", 1, 8⟩)
    (hs : s.Ok) (hf : s.Fits cfg) (hd : ∀ x ∈ s.realTags, Printable cfg.fmt x) :
    ∃ L whole, saveMsh cfg s = (savedHdr41b ++ firstSections L.length L, .ok ()) ∧ Chain cfg { meshFormat := s.meshFormat } L whole ∧
      ∀ room t, savedHdr41b.length ≤ room → loadMsh cfg (Device.saveFile cfg true room s).2 = .ok t →
        ∃ k ≤ L.length, loadMsh cfg (savedHdr41b ++ firstSections k L) = .ok t := by
  obtain ⟨L, whole, h1, h2, h3⟩ := C55_saved_binary cfg hA hext s hfmt hs hf hd
  refine ⟨L, whole, h1, h2, fun room t hr h => ?_⟩
  rw [C73_ends_the_same, h1] at h
  simp only [List.take_append, List.take_of_length_le hr] at h
  obtain ⟨k, hk, e, _⟩ := h3 _ t (List.take_prefix _ _) h
  exact ⟨k, hk, e⟩

/-! ## Concrete cases -/

/-- A mesh of one node with a value. -/
def demoFull : MshSpec := { nodes := ⟨1, 1, 1, 1, [⟨0, 1, 0, 1, [1], [dOne, dOne, dOne]⟩]⟩
                            nodeData := [⟨⟨[b! "t"], [], [0, 1, 1]⟩, [⟨1, 0, [dOne]⟩]⟩] }

/-- On a disk with room for 75 bytes `save_msh` returns normally, and so does `load_msh`, without the value. -/
example : ∃ part t, Device.saveFile demoDebug true 75 demoFull = (.ok (), part) ∧ loadMsh demoDebug part = .ok t ∧ t.nodes = demoFull.nodes ∧ t.nodeData = [] :=
  ⟨(saveMsh demoDebug demoFull).1.take 75, { demoFull with nodeData := [] }, by rw [C73_ends_the_same]; decide +kernel, by decide +kernel, rfl, rfl⟩

/-- There was not enough room. -/
example : 75 < (saveMsh demoDebug demoFull).1.length := by decide +kernel

/-- A file that cannot be opened is noticed. -/
example : Device.saveFile demoDebug false 75 demoFull = (.throw .runtimeError, []) := rfl

/-- The model of the stream at work. -/
example : Device.saveMsh demoDebug demoFull ⟨b! "#", 9, false⟩ = (.ok (), ⟨b! "#$MeshForm", 0, true⟩) := by decide +kernel

/-- What was left on the disk loads as if sections were missing. -/
example : ∃ L whole, saveMsh demoDebug (demoSpec ⟨b! "4.1", 1, 8⟩ dNaN) = (savedHdr41b ++ firstSections L.length L, .ok ()) ∧
      Chain demoDebug { meshFormat := ⟨b! "4.1", 1, 8⟩ } L whole ∧
      ∀ room t, savedHdr41b.length ≤ room → loadMsh demoDebug (Device.saveFile demoDebug true room (demoSpec ⟨b! "4.1", 1, 8⟩ dNaN)).2 = .ok t →
        ∃ k ≤ L.length, loadMsh demoDebug (savedHdr41b ++ firstSections k L) = .ok t :=
  C73_reload_binary demoDebug rfl rfl _ rfl (demoSpec_ok _ _) (demoSpec_fits (by decide) _ _) fun x hx => (demo_reals ⟨b! "4.1", 1, 8⟩ dNaN x hx).1

end MshIO
