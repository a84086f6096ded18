import Verif.Model.Formats

/-!
# Doubles through text: acceptance, accuracy, stability
-/

namespace MshIO

/-! ## Sign and magnitude -/

theorem Double.mag_lt (d : Double) : d.mag < 2 ^ 63 := Nat.mod_lt _ (by decide)

theorem Double.ofSignMag_self (d : Double) : Double.ofSignMag d.neg d.mag = d := by
  obtain ⟨b⟩ := d
  unfold Double.ofSignMag Double.neg Double.mag
  congr 1
  apply UInt64.toNat_inj.mp
  have hb := b.toNat_lt
  rw [ofNat_toNat_lt]
  · by_cases h : 2 ^ 63 ≤ b.toNat
    · simp only [h, decide_true, if_true]; omega
    · simp only [h, decide_false, Bool.false_eq_true, if_false]; omega
  · split <;> omega

theorem Double.neg_ofSignMag (s : Bool) {m : ℕ} (h : m < 2 ^ 63) : (Double.ofSignMag s m).neg = s := by
  unfold Double.ofSignMag Double.neg
  simp only
  rw [ofNat_toNat_lt (by split <;> omega)]
  cases s <;> simp <;> omega

theorem Double.mag_ofSignMag (s : Bool) {m : ℕ} (h : m < 2 ^ 63) : (Double.ofSignMag s m).mag = m := by
  unfold Double.ofSignMag Double.mag
  simp only
  rw [ofNat_toNat_lt (by split <;> omega)]
  cases s <;> simp <;> omega

/-! ## The number a text stands for -/

/-- The value (in units of `2^-1074`) of the `P`-digit text of `v`. -/
def textUnits (P v : ℕ) : ℚ :=
  if v = 0 then 0
  else decVal (max P 1) (sigDigits (max P 1) v).1 (sigDigits (max P 1) v).2 / 10 ^ 324 * 2 ^ 1074

theorem magOfDec_zero (e : ℤ) : magOfDec 0 e = 0 := by
  have h := isMag_magOfDec 0 e
  have h0 : IsMag 0 0 := by
    have := isMag_units 0
    simpa [Double.unitsOfMag] using this
  refine h.unique ?_
  simpa using h0

theorem fmtUnits_zero (P : ℕ) : fmtUnits P 0 = [48] := by
  unfold fmtUnits; rw [if_pos rfl]

/-- The text of a finite double is scanned as a whole, whatever the format. -/
theorem finite_text (P : Fmt) {d : Double} (hd : d.isFinite = true) : ∀ rest, Stop rest →
    (scanFloat (fmtDouble P d ++ rest)).rest = rest ∧
    convertFloat (scanFloat (fmtDouble P d ++ rest)) = convertFloat (scanFloat (fmtDouble P d)) := by
  intro rest hr
  obtain ⟨n, hn, e⟩ := fmtDouble_numeral P hd
  have h0 := scanFloat_numeral n hn (rest := []) (Or.inl rfl)
  rw [List.append_nil] at h0
  rw [e, scanFloat_numeral n hn hr, h0]
  exact ⟨rfl, rfl⟩

theorem fmtDouble_general (P : ℕ) {d : Double} (hd : d.isFinite = true) :
    fmtDouble (.general P) d = (if d.neg then [45] else []) ++ fmtUnits P d.units := by
  unfold fmtDouble; rw [if_pos hd]; rfl

/-- Scanning and converting the text of a finite double, default format. -/
theorem convert_text (P : ℕ) (d : Double) (hd : d.isFinite = true) :
    ∃ m, IsMag (textUnits P d.units) m ∧ (d.units = 0 → m = 0) ∧
      convertFloat (scanFloat (fmtDouble (.general P) d)) =
        if Double.infMag ≤ m then (Double.ofSignMag d.neg (Double.infMag - 1), true)
        else (Double.ofSignMag d.neg m, false) := by
  obtain ⟨n, hn, _, hs, ht, hsz, _⟩ := fmtGeneral_numeral P d
  have h0 := scanFloat_numeral n hn (rest := []) (Or.inl rfl)
  obtain ⟨m, hm, hc⟩ := convert_numeral n hn []
  have e : textUnits P d.units = n.size * 2 ^ 1074 := by
    unfold textUnits
    rw [hsz]
    split
    · rw [zero_mul]
    · rw [decVal_scaled]
  refine ⟨m, by rw [e]; exact hm, ?_, ?_⟩
  · intro hu
    rw [hsz, if_pos hu, zero_mul] at hm
    exact hm.unique (by simpa [Double.unitsOfMag] using isMag_units 0)
  · rw [List.append_nil] at h0
    rw [fmtDouble_general P hd, show (if d.neg then [45] else []) ++ fmtUnits P d.units = n.text from ht.symm, h0, hc, hs]
    cases d.neg <;> rfl

/-- Texts of non-finite doubles are rejected. -/
theorem convert_nonfinite (P : Fmt) (d : Double) (hd : d.isFinite = false) (rest : Bytes) :
    convertFloat (scanFloat (fmtDouble P d ++ rest)) = (Double.zero, true) ∧
    ∃ c r, (c = 105 ∨ c = 110) ∧ (scanFloat (fmtDouble P d ++ rest)).rest = c :: r := by
  have hf : fmtDouble P d = (if d.neg then [45] else []) ++
      (if d.mag = Double.infMag then b! "inf" else b! "nan") := by
    unfold fmtDouble; rw [if_neg (show ¬ d.isFinite = true by simp [hd])]
  rw [hf]
  cases d.neg <;> by_cases h : d.mag = Double.infMag <;> simp only [h, if_true, if_false] <;>
    exact ⟨rfl, _, _, by decide, rfl⟩

theorem Printable.finite {P : Fmt} {d : Double} (h : Printable P d) : d.isFinite = true := by
  by_contra hc
  have := (convert_nonfinite P d (by simpa using hc) []).1
  rw [List.append_nil] at this
  unfold Printable at h
  rw [this] at h
  cases h

/-- What `Printable` and `reread` mean: the text's nearest magnitude is in range. -/
theorem Printable.out {P : ℕ} {d : Double} (h : Printable (.general P) d) :
    IsMag (textUnits P d.units) (reread (.general P) d).mag ∧ (reread (.general P) d).mag < Double.infMag ∧
    (reread (.general P) d).neg = d.neg := by
  obtain ⟨m, hm, _, ht⟩ := convert_text P d h.finite
  have := ht
  unfold Printable at h
  unfold reread
  rw [this] at h ⊢
  by_cases hi : Double.infMag ≤ m
  · rw [if_pos hi] at h; cases h
  · rw [if_neg hi]
    have hlt : m < 2 ^ 63 := lt_of_lt_of_le (not_le.mp hi) (by decide)
    simp only [Double.mag_ofSignMag _ hlt, Double.neg_ofSignMag _ hlt]
    exact ⟨hm, not_le.mp hi, trivial⟩

theorem printable_iff {P : ℕ} {d : Double} (hf : d.isFinite = true) {m : ℕ}
    (hm : IsMag (textUnits P d.units) m) :
    (Printable (.general P) d ↔ m < Double.infMag) ∧ (m < Double.infMag → reread (.general P) d = Double.ofSignMag d.neg m) := by
  obtain ⟨m', hm', _, ht⟩ := convert_text P d hf
  have e := hm'.unique hm
  subst e
  have := ht
  unfold Printable reread
  rw [this]
  by_cases hi : Double.infMag ≤ m'
  · rw [if_pos hi]; simp; omega
  · rw [if_neg hi]; simp; omega

theorem fmtDouble_cons (P : Fmt) (d : Double) (hd : d.isFinite = true) :
    ∃ c t, fmtDouble P d = c :: t ∧ isSpace c = false := by
  obtain ⟨h1, h2⟩ := fmtDouble_word P d
  obtain ⟨c, t, e⟩ := List.exists_cons_of_ne_nil h1
  exact ⟨c, t, e, h2 c (by rw [e]; simp)⟩

theorem Printable.dtok {P : Fmt} {d : Double} (h : Printable P d) : DTok P (reread P) d := by
  intro old w rest hw hr
  obtain ⟨hrest, hconv⟩ := finite_text P h.finite rest (Or.inr hr)
  obtain ⟨c, t, e, hc⟩ := fmtDouble_cons P d h.finite
  have hs : sentry (gs (w ++ fmtDouble P d ++ rest)) = (true, gs (fmtDouble P d ++ rest)) := by
    rw [e, List.append_assoc]; exact sentry_gs hw hc
  have hx : extractDouble (gs (w ++ fmtDouble P d ++ rest)) = .ok (some (reread P d), gs rest) := by
    unfold extractDouble
    rw [hs]
    simp only [hrest, hconv]
    have h2 : (convertFloat (scanFloat (fmtDouble P d))).2 = false := h
    rw [h2, hr.ne_nil]
    rfl
  unfold inDouble
  rw [Rd.bind_ok hx]
  rfl

end MshIO
