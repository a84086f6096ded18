import Verif.Proofs.FormatMessage
import Verif.Props.Rejected

/-!
# C83: what `load_msh` says about a `$MeshFormat` section it rejects

`FormatComplaint` (one rule per message) is in `Spec/FormatMessage.lean`.
-/

namespace MshIO

/-- **C83** With the message left out, this model of `load_mesh_format` is the one `load_msh` is made of: it throws
for the same streams, and reads the same bytes. -/
theorem C83_same_outcome (f : MeshFormat) :
    (loadMeshFormat f >>= fun _ => pure ()) =
      (formatMessage f >>= fun o => match o with
        | some _ => Rd.throw .unsupportedFeature
        | none => pure () : Rd Unit) := by
  unfold loadMeshFormat formatMessage
  simp only [Rd.bind_assoc]
  congr 1; funext v
  split
  · rfl
  simp only [Rd.bind_assoc]
  congr 1; funext t
  congr 1; funext z
  split
  · rfl
  split
  · simp only [Rd.bind_assoc]
    congr 1; funext _
    congr 1; funext one
    split <;> rfl
  · rfl

/-- **C83** On a section whose bytes after the name are `r` (reading the name has noticed the end of the file if there
are none), the message is `m` exactly when `m` is the complaint about it. -/
theorem C83_message_iff (f : MeshFormat) (r m : Bytes) :
    (∃ st, formatMessage f ⟨r, r.isEmpty, false⟩ = .ok (some m, st)) ↔ FormatComplaint f (.on r) m := by
  show (∃ st, formatMessage f (payload r) = .ok (some m, st)) ↔ _
  rw [← throws_onMessage f m (.on r) (payload r) rfl]
  constructor
  · rintro ⟨st, h⟩
    rw [Rd.bind_ok h]
    exact (onMessage_some m m st).mpr rfl
  · intro h
    cases hf : formatMessage f (payload r) with
    | ok p =>
      obtain ⟨o, st⟩ := p
      rw [Rd.bind_ok hf] at h
      cases o with
      | none => exact absurd h (onMessage_none m st)
      | some m' => exact ⟨st, by rw [(onMessage_some m m' st).mp h]⟩
    | throw e =>
      have hw : WithinR [] false (formatMessage f) := by unfold formatMessage; within []
      have := hw.all (payload r)
      rw [hf] at this
      cases this
    | _ => rw [Rd.bind_def, hf] at h; cases h

/-- **C83** There is a complaint exactly about the sections that are rejected (C63). -/
theorem C83_rejected_iff (f : MeshFormat) (x : Place) : FormatRejected f x ↔ ∃ m, FormatComplaint f x m := by
  constructor
  · rintro ⟨w, y, h1, h | ⟨t, y1, z, y2, h2, h3, h⟩⟩
    · exact ⟨_, .version w y h1 h⟩
    · by_cases hv : w.getD f.version ∈ [b! "2.2", b! "4.1"]
      · by_cases hz : w.getD f.version = b! "4.1" ∧ z.getD f.dataSize ≠ 8
        · exact ⟨_, .size w y t y1 z y2 h1 h2 h3 hz.1 hz.2⟩
        · obtain ⟨ht, d, h4, h5⟩ := h.resolve_left hz
          exact ⟨_, .order w y t y1 z y2 d h1 h2 h3 hv (fun h => by by_contra h'; exact hz ⟨h, h'⟩) ht h4 h5⟩
      · exact ⟨_, .version w y h1 hv⟩
  · rintro ⟨m, h⟩
    cases h with
    | version w y h1 h => exact ⟨w, y, h1, Or.inl h⟩
    | size w y t y1 z y2 h1 h2 h3 h4 h5 => exact ⟨w, y, h1, Or.inr ⟨t, y1, z, y2, h2, h3, Or.inl ⟨h4, h5⟩⟩⟩
    | order w y t y1 z y2 d h1 h2 h3 hv h4 h5 h6 h7 => exact ⟨w, y, h1, Or.inr ⟨t, y1, z, y2, h2, h3, Or.inr ⟨h5, d, h6, h7⟩⟩⟩

/-- **C83** There is only one. -/
theorem C83_one_message (f : MeshFormat) (r m m' : Bytes) (h : FormatComplaint f (.on r) m) (h' : FormatComplaint f (.on r) m') : m = m' := by
  obtain ⟨st, h⟩ := (C83_message_iff f r m).mpr h
  obtain ⟨st', h'⟩ := (C83_message_iff f r m').mpr h'
  rw [h] at h'
  injection h' with h'
  injection h' with h' _
  exact Option.some.inj h'

/-- **C83** Whenever `load_msh` comes to a `$MeshFormat` section about which there is a complaint, it throws
`UnsupportedFeature`, and the text of the exception is the complaint. -/
theorem C83_file {cfg : Cfg} (hc57 : 57 ≤ cfg.maxCount) {file r m : Bytes} {s : MshSpec}
    (ha : ArrivesAt cfg file s (b! "$MeshFormat") r) (h : FormatComplaint s.meshFormat (.on r) m) :
    loadMsh cfg file = .throw .unsupportedFeature ∧ ∃ st, formatMessage s.meshFormat ⟨r, r.isEmpty, false⟩ = .ok (some m, st) :=
  ⟨(C63_rejected hc57 file (Or.inr rfl)).mpr ⟨s, _, r, ha, Or.inl ⟨rfl, rfl, (C83_rejected_iff _ _).mpr ⟨m, h⟩⟩⟩,
    (C83_message_iff _ _ _).mpr h⟩

/-! ### The hypotheses can be met -/

/-- The announced version is quoted, whatever it is and whatever follows. -/
example (r : Bytes) : ∃ st, formatMessage {} (payload (b! "\n4.10 " ++ r)) = .ok (some (b! "Unsupported MSH version: 4.10"), st) :=
  (C83_message_iff _ _ _).mpr (.version (some (b! "4.10")) (.on (32 :: r))
    (.word (lead := b! "\n") (c := 52) (w := b! ".10") (r' := 32 :: r) (by unfold Blank; decide) (by decide) (fun d h => by cases h; rfl)) (by decide))

/-- A complaint about the first section of a file. -/
example (r : Bytes) : loadMsh demoHundred (b! "$MeshFormat\n4.10 " ++ r) = .throw .unsupportedFeature :=
  (C83_file (m := b! "Unsupported MSH version: 4.10") (by decide) (s := {}) (r := b! "\n4.10 " ++ r) ⟨fun c h => by cases h; rfl, [], (fun _ h => by cases h), .refl⟩
    (.version (some (b! "4.10")) (.on (32 :: r))
      (.word (lead := b! "\n") (c := 52) (w := b! ".10") (r' := 32 :: r) (by unfold Blank; decide) (by decide) (fun d h => by cases h; rfl)) (by decide))).1

/-- Runs the model on a file. -/
theorem complaint_of_run {r m : Bytes}
    (h : (match formatMessage {} ⟨r, r.isEmpty, false⟩ with | .ok p => p.1 | _ => none) = some m) : FormatComplaint {} (.on r) m := by
  refine (C83_message_iff _ _ _).mp ?_
  cases e : formatMessage {} ⟨r, r.isEmpty, false⟩ with
  | ok p => rw [e] at h; exact ⟨p.2, congrArg Outcome.ok (Prod.ext h rfl)⟩
  | _ => rw [e] at h; cases h

/-- The other two messages. -/
example : FormatComplaint {} (.on (b! "\n4.1 0 4\n$EndMeshFormat"))
    (b! "MSH file (v4.1) requested data size of 4 bytes, which is different than `size_t` (8 bytes)") :=
  complaint_of_run (by decide +kernel)

example : FormatComplaint {} (.on (b! "\n2.2 1 4\n" ++ [0, 0, 0, 1])) (b! "MSH file (v2.2) is encoded with unsupported endianness!") :=
  complaint_of_run (by decide +kernel)

end MshIO
