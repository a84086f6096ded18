import Verif.Model.FormatMessage
import Verif.Spec.FormatMessage
import Verif.Proofs.RejectedSections
import Verif.Proofs.FormatWords

/-!
# Helper lemmas for C83
-/

namespace MshIO

/-- Throws if the message is `m`. -/
def onMessage (m : Bytes) (o : Option Bytes) : Rd Unit := if o = some m then Rd.throw .unsupportedFeature else pure ()

theorem onMessage_some (m m' : Bytes) (s : Stream) : onMessage m (some m') s = .throw .unsupportedFeature ↔ m = m' := by
  unfold onMessage
  by_cases h : m' = m
  · rw [if_pos (by rw [h])]; exact ⟨fun _ => h.symm, fun _ => rfl⟩
  · rw [if_neg (by simpa using h)]; exact ⟨(fun h => by cases h), fun h' => absurd h'.symm h⟩

theorem onMessage_none (m : Bytes) (s : Stream) : ¬ onMessage m none s = .throw .unsupportedFeature := by
  unfold onMessage
  rw [if_neg (by simp)]
  intro h; cases h

theorem sizeOfInt_ne_8 (z : Int32) : sizeOfInt z ≠ 8 ↔ z ≠ 8 := by
  refine not_congr ⟨fun h => ?_, fun h => by rw [h]; rfl⟩
  have h1 := toNat_sizeOfInt z
  have h2 : (sizeOfInt z).toNat = 8 := by rw [h]; rfl
  rw [h2] at h1
  have h3 := z.le_toInt
  apply Int32.toInt_inj.mp
  show z.toInt = 8
  split at h1 <;> omega

theorem throws_onMessage (f : MeshFormat) (m : Bytes) (x : Place) :
    ThrowsAt .unsupportedFeature (formatMessage f >>= onMessage m) x (FormatComplaint f x m) := by
  have e8 : decU64 8 = b! "8" := by decide +kernel
  unfold formatMessage
  rw [Rd.bind_assoc]
  refine (ThrowsAt.yields (inString_yields f.version) fun v y _ => (?_ : ThrowsAt _ _ y
    ((v ∉ [b! "2.2", b! "4.1"] ∧ m = b! "Unsupported MSH version: " ++ v) ∨ v ∈ [b! "2.2", b! "4.1"] ∧
    ∃ t y1 z y2, TakesInt y t y1 ∧ TakesInt y1 z y2 ∧ (v = b! "4.1" ∧ z.getD f.dataSize ≠ 8 ∧
          m = b! "MSH file (v4.1) requested data size of " ++ intText (z.getD f.dataSize).toInt ++
        b! " bytes, which is different than `size_t` (8 bytes)" ∨
        (v = b! "4.1" → z.getD f.dataSize = 8) ∧ t.getD f.fileType ≠ 0 ∧ (∃ d, DataPast y2 d ∧ Over d (encI32 0) ≠ encI32 1) ∧
          m = b! "MSH file (v" ++ v ++ b! ") is encoded with unsupported endianness!")))).iff ?_
  · by_cases hv : v ≠ b! "2.2" ∧ v ≠ b! "4.1"
    · rw [if_pos hv]
      have hv' : v ∉ [b! "2.2", b! "4.1"] := by simpa using hv
      refine fun s _ => (onMessage_some m _ s).trans ⟨fun h => Or.inl ⟨hv', h⟩, fun h => ?_⟩
      rcases h with h | h
      · exact h.2
      · exact absurd h.1 hv'
    have hv' : v ∈ [b! "2.2", b! "4.1"] := by
      by_contra h; exact hv (by simpa using h)
    rw [if_neg hv, Rd.bind_assoc]
    simp only [Rd.bind_assoc]
    refine (ThrowsAt.yields (inInt_yields f.fileType) fun t y1 _ => ThrowsAt.yields (inInt_yields f.dataSize) fun z y2 _ => (?_ : ThrowsAt _ _ y2
      (v = b! "4.1" ∧ z ≠ 8 ∧ m = b! "MSH file (v4.1) requested data size of " ++ intText z.toInt ++
        b! " bytes, which is different than `size_t` (8 bytes)" ∨
        (v = b! "4.1" → z = 8) ∧ t ≠ 0 ∧ (∃ d, DataPast y2 d ∧ Over d (encI32 0) ≠ encI32 1) ∧
          m = b! "MSH file (v" ++ v ++ b! ") is encoded with unsupported endianness!"))).iff ?_
    · simp only [sizeOfInt_ne_8]
      by_cases hz : v = b! "4.1" ∧ z ≠ 8
      · rw [if_pos hz]
        refine fun s _ => (onMessage_some m _ s).trans ?_
        have et : b! "MSH file (v4.1) requested data size of " ++ decI32 z ++ b! " bytes, which is different than `size_t` (" ++ decU64 8 ++ b! " bytes)" =
            b! "MSH file (v4.1) requested data size of " ++ intText z.toInt ++ b! " bytes, which is different than `size_t` (8 bytes)" := by
          rw [e8, decI32_eq]
          simp only [List.append_assoc, List.cons_append, List.nil_append]
        rw [et]
        refine ⟨fun h => Or.inl ⟨hz.1, hz.2, h⟩, fun h => ?_⟩
        rcases h with h | h
        · exact h.2.2
        · exact absurd (h.1 hz.1) hz.2
      rw [if_neg hz]
      have hz' : v = b! "4.1" → z = 8 := fun h => by by_contra h'; exact hz ⟨h, h'⟩
      by_cases ht : t ≠ 0
      · rw [if_pos ht]
        simp only [Rd.bind_assoc]
        by_cases hm : m = b! "MSH file (v" ++ v ++ b! ") is encoded with unsupported endianness!"
        · refine (ThrowsAt.one fun one s => ?_).iff ⟨fun h => Or.inr ⟨hz', ht, h, hm⟩, fun h => ?_⟩
          · by_cases h1 : one ≠ 1
            · rw [if_pos h1]; exact (onMessage_some m _ s).trans ⟨fun _ => h1, fun _ => hm⟩
            · rw [if_neg h1]; exact ⟨fun h => absurd h (onMessage_none m s), fun h => absurd h h1⟩
          · rcases h with h | h
            · exact absurd ⟨h.1, h.2.1⟩ hz
            · exact h.2.2.1
        · have hno : ∀ one : Int32, ((if one ≠ 1 then (pure (some (b! "MSH file (v" ++ v ++ b! ") is encoded with unsupported endianness!")) : Rd (Option Bytes))
              else pure none) >>= onMessage m) = pure () := by
            intro one
            split
            · show onMessage m _ = _
              unfold onMessage
              rw [if_neg fun h => hm (Option.some.inj h).symm]
            · rfl
          simp only [hno]
          refine (ThrowsAt.within (T := []) (ab := false) ?_ (by simp)).iff ⟨False.elim, fun h => ?_⟩
          · within []
          · rcases h with h | h
            · exact absurd ⟨h.1, h.2.1⟩ hz
            · exact hm h.2.2.2
      · rw [if_neg ht]
        refine fun s _ => ⟨fun h => absurd h (onMessage_none m s), fun h => ?_⟩
        rcases h with h | h
        · exact absurd ⟨h.1, h.2.1⟩ hz
        · exact absurd h.2.1 ht
    · constructor
      · rintro ⟨_, y1, ⟨t, h1, rfl⟩, _, y2, ⟨z, h2, rfl⟩, h⟩
        exact Or.inr ⟨hv', t, y1, z, y2, h1, h2, h⟩
      · rintro (h | ⟨_, t, y1, z, y2, h1, h2, h⟩)
        · exact absurd hv' h.1
        · exact ⟨_, y1, ⟨t, h1, rfl⟩, _, y2, ⟨z, h2, rfl⟩, h⟩
  · constructor
    · rintro ⟨_, y, ⟨w, h1, rfl⟩, h⟩
      rcases h with ⟨h, rfl⟩ | ⟨hv, t, y1, z, y2, h2, h3, ⟨h4, h5, rfl⟩ | ⟨h4, h5, ⟨d, h6, h7⟩, rfl⟩⟩
      · exact .version w y h1 h
      · exact .size w y t y1 z y2 h1 h2 h3 h4 h5
      · exact .order w y t y1 z y2 d h1 h2 h3 hv h4 h5 h6 h7
    · intro h
      cases h with
      | version w y h1 h => exact ⟨_, y, ⟨w, h1, rfl⟩, Or.inl ⟨h, rfl⟩⟩
      | size w y t y1 z y2 h1 h2 h3 h4 h5 =>
        exact ⟨_, y, ⟨w, h1, rfl⟩, Or.inr ⟨by simp [h4], t, y1, z, y2, h2, h3, Or.inl ⟨h4, h5, rfl⟩⟩⟩
      | order w y t y1 z y2 d h1 h2 h3 hv h4 h5 h6 h7 =>
        exact ⟨_, y, ⟨w, h1, rfl⟩, Or.inr ⟨hv, t, y1, z, y2, h2, h3, Or.inr ⟨h4, h5, ⟨d, h6, h7⟩, rfl⟩⟩⟩

end MshIO
