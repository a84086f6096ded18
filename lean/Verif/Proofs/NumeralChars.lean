import Verif.Model.Cfg
import Verif.Proofs.Num

/-!
# The characters of a numeral
-/

namespace MshIO

/-- A character that occurs in numerals. -/
def NumChar (c : UInt8) : Prop := isDigit c = true ∨ c = 43 ∨ c = 45 ∨ c = 46 ∨ c = 69 ∨ c = 101

theorem NumChar.not_space {c : UInt8} (h : NumChar c) : isSpace c = false := by
  rcases h with h | rfl | rfl | rfl | rfl | rfl
  · exact isSpace_of_isDigit h
  all_goals decide

theorem NumChar.not_dollar {c : UInt8} (h : NumChar c) : c ≠ 36 := by
  rcases h with h | rfl | rfl | rfl | rfl | rfl
  · rintro rfl; revert h; decide
  all_goals decide

theorem digitsText_digits (l : List (Fin 10)) : ∀ c ∈ digitsText l, isDigit c = true := by
  intro c hc
  obtain ⟨d, _, rfl⟩ := List.mem_map.mp hc
  exact isDigit_ofNat d.isLt

theorem signText_chars (s : Option Bool) : ∀ c ∈ signText s, NumChar c := by
  intro c hc
  match s with
  | none => cases hc
  | some true => rw [List.mem_singleton.mp hc]; exact Or.inr (Or.inr (Or.inl rfl))
  | some false => rw [List.mem_singleton.mp hc]; exact Or.inr (Or.inl rfl)

theorem Exponent.text_chars (e : Exponent) : ∀ c ∈ e.text, NumChar c := by
  intro c hc
  unfold Exponent.text at hc
  rcases List.mem_append.mp hc with hc | hc
  · rcases List.mem_append.mp hc with hc | hc
    · split at hc
      · rw [List.mem_singleton.mp hc]; simp [NumChar]
      · rw [List.mem_singleton.mp hc]; simp [NumChar]
    · exact signText_chars _ c hc
  · exact Or.inl (digitsText_digits _ c hc)

theorem Numeral.text_chars (n : Numeral) : ∀ c ∈ n.text, NumChar c := by
  intro c hc
  unfold Numeral.text at hc
  rcases List.mem_append.mp hc with hc | hc
  · rcases List.mem_append.mp hc with hc | hc
    · rcases List.mem_append.mp hc with hc | hc
      · exact signText_chars _ c hc
      · exact Or.inl (digitsText_digits _ c hc)
    · split at hc
      · cases hc
      · rcases List.mem_append.mp hc with hc | hc
        · rw [List.mem_singleton.mp hc]; simp [NumChar]
        · exact Or.inl (digitsText_digits _ c hc)
  · split at hc
    · cases hc
    · exact Exponent.text_chars _ c hc

theorem Numeral.text_ne_nil {n : Numeral} (h : n.Proper) : n.text ≠ [] := by
  obtain ⟨h, _⟩ := h
  unfold Numeral.text
  rcases h with h | h
  · obtain ⟨d, t, e⟩ := List.exists_cons_of_ne_nil h
    rw [e]
    simp [digitsText]
  · unfold Numeral.fracDigits at h
    cases hf : n.frac with
    | none => rw [hf] at h; exact absurd rfl h
    | some f => simp

/-- The text of a finite double. -/
theorem fmtDouble_numeral (p : Fmt) {d : Double} (hd : d.isFinite = true) : ∃ n : Numeral, n.Proper ∧ fmtDouble p d = n.text := by
  unfold fmtDouble
  rw [if_pos hd]
  exact p.numeral d hd

end MshIO
