import Verif.Proofs.Numeral
import Verif.Proofs.DblAcc
import Verif.Props.Doubles
import Verif.Spec.Sections

/-!
# Properties C48–C50: which number a text stands for, and which text a number has

The conversions between numbers and text belong to the C++ standard library, but what MshIO reads and writes depends
on them.  C48 says what reading a numeral gives, C49 what is printed in the default format, C50 what a stream with
`std::fixed` or `std::scientific` prints and which precision is lost.  The specification (`Spec/Numeral.lean`) is about
rational numbers and does not mention the algorithms of the model.
-/

namespace MshIO

/-! ## C48: reading -/

/-- The text ends there or white space follows. -/
private theorem stop_of {rest : Bytes} (h : ∀ c ∈ rest.head?, isSpace c = true) : Stop rest := by
  cases rest with
  | nil => exact Or.inl rfl
  | cons c r => exact Or.inr ⟨c, r, rfl, h c rfl⟩

private theorem sign_eq (n : Numeral) : n.value = (if n.sign == some true then -1 else 1) * n.size := by
  unfold Numeral.value
  match n.sign with
  | none => simp [signValue]
  | some true => simp [signValue]
  | some false => simp [signValue]

private theorem read_numeral (n : Numeral) (hn : n.Proper) (old : Double) {w rest : Bytes} (hw : Blank w) (hr : Stop rest) :
    inDouble old (gs (w ++ n.text ++ rest)) =
      .ok ((convertFloat (n.scan rest)).1, ⟨rest, rest.isEmpty, (convertFloat (n.scan rest)).2⟩) := by
  obtain ⟨c, t, e⟩ := List.exists_cons_of_ne_nil (n.text_ne_nil hn)
  have hc : isSpace c = false := (n.text_chars c (by rw [e]; simp)).not_space
  have hs : sentry (gs (w ++ n.text ++ rest)) = (true, gs (n.text ++ rest)) := by
    rw [e, List.append_assoc]; exact sentry_gs hw hc
  have hx : extractDouble (gs (w ++ n.text ++ rest)) =
      .ok (some (convertFloat (n.scan rest)).1, ⟨rest, rest.isEmpty, (convertFloat (n.scan rest)).2⟩) := by
    unfold extractDouble
    rw [hs]
    simp only [gs, scanFloat_numeral n hn hr]
    rfl
  unfold inDouble
  rw [Rd.bind_ok hx]
  rfl

private theorem convert_near (n : Numeral) (hn : n.Proper) (rest : Bytes) :
    (InRange n.value → (convertFloat (n.scan rest)).2 = false ∧ Nearest n.value (convertFloat (n.scan rest)).1 ∧
      (convertFloat (n.scan rest)).1.neg = (n.sign == some true)) ∧
    (¬ InRange n.value → convertFloat (n.scan rest) = (if n.sign == some true then minDouble else maxDouble, true)) := by
  obtain ⟨m, hm, hc⟩ := convert_numeral n hn rest
  have hm' : IsMag (|n.value| * 2 ^ 1074) m := by rw [n.abs_value]; exact hm
  have hlt := mag_lt_iff hm'
  have hinf : Double.infMag < 2 ^ 63 := by decide
  constructor
  · intro hq
    have h := hlt.mpr hq
    rw [hc, if_neg (by omega)]
    refine ⟨rfl, ?_, Double.neg_ofSignMag _ (by omega)⟩
    rw [sign_eq]
    exact nearest_of_isMag n.size_nonneg hm h _
  · intro hq
    have h : ¬ m < Double.infMag := fun hh => hq (hlt.mp hh)
    rw [hc, if_pos (by omega)]
    cases n.sign == some true <;> rfl

/-- **C48** Reading a decimal numeral gives the double nearest to the number it stands for, with its sign (so `-0` is
negative zero), whatever was stored before; nothing behind the numeral is consumed. -/
theorem C48_number_read (n : Numeral) (hn : n.Proper) (hq : InRange n.value) (old : Double) (w rest : Bytes) (hw : Blank w)
    (hr : ∀ c ∈ rest.head?, isSpace c = true) :
    ∃ d, inDouble old (gs (w ++ n.text ++ rest)) = .ok (d, ⟨rest, rest.isEmpty, false⟩) ∧
      Nearest n.value d ∧ d.neg = (n.sign == some true) := by
  obtain ⟨h1, h2, h3⟩ := (convert_near n hn rest).1 hq
  exact ⟨_, by rw [read_numeral n hn old hw (stop_of hr), h1], h2, h3⟩

/-- A numeral of a number that is too large fails; the greatest or least double is stored. -/
theorem C48_overflow (n : Numeral) (hn : n.Proper) (hq : ¬ InRange n.value) (old : Double) (w rest : Bytes) (hw : Blank w)
    (hr : ∀ c ∈ rest.head?, isSpace c = true) :
    inDouble old (gs (w ++ n.text ++ rest)) =
      .ok (if n.sign == some true then minDouble else maxDouble, ⟨rest, rest.isEmpty, true⟩) := by
  rw [read_numeral n hn old hw (stop_of hr), (convert_near n hn rest).2 hq]

/-- The nearest double is unique up to the sign of zero, so C48 determines what is read. -/
theorem C48_nearest_unique (q : ℚ) (hq : InRange q) (d e : Double) (hd : Nearest q d) (he : Nearest q e)
    (hs : d.neg = e.neg) : d = e := by
  have hv := hd.unique hq he
  have h := congrArg abs hv
  rw [Double.abs_val, Double.abs_val, div_left_inj' (pow_ne_zero _ (by norm_num))] at h
  have hm : d.mag = e.mag := units_inj (by exact_mod_cast h)
  rw [← d.ofSignMag_self, ← e.ofSignMag_self, hs, hm]

/-- A double is its own nearest double: a numeral of its exact value is read as it. -/
theorem C48_exact (d : Double) (hf : d.isFinite = true) : Nearest d.val d ∧ InRange d.val := by
  have hm : IsMag (|d.val| * 2 ^ 1074) d.mag := by
    rw [d.abs_val, div_mul_cancel₀ _ (pow_ne_zero _ (by norm_num))]
    exact isMag_units d.mag
  have hlt : d.mag < Double.infMag := by simpa [Double.isFinite] using hf
  refine ⟨?_, (mag_lt_iff hm).mp hlt⟩
  have := nearest_of_isMag (abs_nonneg d.val) hm hlt d.neg
  rw [d.ofSignMag_self] at this
  have e : (if d.neg then -1 else 1) * |d.val| = d.val := by
    rw [d.abs_val]; unfold Double.val; rw [mul_div_assoc]
  rwa [e] at this

/-- What a double is worth, in the words of IEEE 754: for an exponent field `E` other than zero and a fraction field `f`
it is `±(1 + f / 2^52) * 2^(E - 1023)`. -/
theorem C48_normal_value (d : Double) (h : d.mag / 2 ^ 52 ≠ 0) :
    d.val = (if d.neg then -1 else 1) * (1 + (d.mag % 2 ^ 52 : ℕ) / 2 ^ 52) * 2 ^ ((d.mag / 2 ^ 52 : ℕ) - 1023 : ℤ) := by
  unfold Double.val Double.units Double.unitsOfMag
  rw [if_neg h]
  obtain ⟨k, hk⟩ : ∃ k, d.mag / 2 ^ 52 = k + 1 := ⟨d.mag / 2 ^ 52 - 1, by omega⟩
  rw [hk, Nat.add_sub_cancel]
  generalize d.mag % 2 ^ 52 = f
  have e : (2 : ℚ) ^ (((k + 1 : ℕ) : ℤ) - 1023) = 2 ^ 52 * 2 ^ k / 2 ^ 1074 := by
    rw [← pow_add, ← zpow_natCast, ← zpow_natCast (2 : ℚ) 1074, ← zpow_sub₀ (by norm_num)]
    congr 1
    push_cast
    ring
  rw [e, Nat.cast_mul, Nat.cast_add, Nat.cast_pow, Nat.cast_pow, Nat.cast_ofNat]
  generalize (2 : ℚ) ^ 1074 = T
  have h52 : (2 : ℚ) ^ 52 ≠ 0 := by positivity
  field_simp
  ring

/-- For an exponent field zero it is `±f * 2^-1074`. -/
theorem C48_subnormal_value (d : Double) (h : d.mag / 2 ^ 52 = 0) :
    d.val = (if d.neg then -1 else 1) * (d.mag % 2 ^ 52 : ℕ) / 2 ^ 1074 := by
  unfold Double.val Double.units Double.unitsOfMag
  rw [if_pos h]

private theorem reread_numeral {P : Fmt} {d : Double} (hf : d.isFinite = true) {n : Numeral} (hn : n.Proper)
    (e : P.print d = n.text) : (Printable P d ↔ InRange n.value) ∧
      (Printable P d → Nearest n.value (reread P d) ∧ (reread P d).neg = (n.sign == some true)) ∧
      convertFloat (scanFloat (fmtDouble P d)) = convertFloat (n.scan []) := by
  have ht : fmtDouble P d = n.text := by unfold fmtDouble; rw [if_pos hf, e]
  have hs := scanFloat_numeral n hn (rest := []) (Or.inl rfl)
  rw [List.append_nil] at hs
  obtain ⟨h1, h2⟩ := convert_near n hn []
  have hP : Printable P d ↔ (convertFloat (n.scan [])).2 = false := by unfold Printable; rw [ht, hs]
  have hR : reread P d = (convertFloat (n.scan [])).1 := by unfold reread; rw [ht, hs]
  have hiff : Printable P d ↔ InRange n.value := by
    rw [hP]
    constructor
    · intro h
      by_contra hq
      rw [h2 hq] at h
      cases h
    · exact fun hq => (h1 hq).1
  refine ⟨hiff, fun h => ?_, by rw [ht, hs]⟩
  rw [hR]
  exact (h1 (hiff.mp h)).2

/-- What comes back from printing and reading is the double nearest to the number printed, in every format. -/
theorem C48_reread (P : Fmt) (d : Double) (hf : d.isFinite = true) :
    ∃ n : Numeral, n.Proper ∧ P.print d = n.text ∧ (Printable P d ↔ InRange n.value) ∧
      (Printable P d → Nearest n.value (reread P d) ∧ (reread P d).neg = (n.sign == some true)) := by
  obtain ⟨n, hn, e⟩ := P.numeral d hf
  obtain ⟨h1, h2, _⟩ := reread_numeral hf hn e
  exact ⟨n, hn, e, h1, h2⟩

/-! Integers -/

private theorem read_size (s : Option Bool) (l : List (Fin 10)) (hl : l ≠ []) (old : UInt64) {w rest : Bytes} (hw : Blank w)
    (hr : ∀ c ∈ rest.head?, isDigit c = false) :
    inSize old (gs (w ++ (signText s ++ digitsText l ++ rest))) =
      .ok ((convertU64 (s == some true) (digitsText l)).1, ⟨rest, rest.isEmpty, (convertU64 (s == some true) (digitsText l)).2⟩) := by
  obtain ⟨h1, c, t, e, hc⟩ := read_digits s l hl hr
  have hs : sentry (gs (w ++ (signText s ++ digitsText l ++ rest))) = (true, gs (signText s ++ digitsText l ++ rest)) := by
    rw [e]; exact sentry_gs hw hc
  have hx : extractSize (gs (w ++ (signText s ++ digitsText l ++ rest))) =
      .ok (some (convertU64 (s == some true) (digitsText l)).1,
        ⟨rest, rest.isEmpty, (convertU64 (s == some true) (digitsText l)).2⟩) := by
    unfold extractSize
    rw [hs]
    simp only [gs, h1]
  unfold inSize
  rw [Rd.bind_ok hx]
  rfl

private theorem read_int (s : Option Bool) (l : List (Fin 10)) (hl : l ≠ []) (old : Int32) {w rest : Bytes} (hw : Blank w)
    (hr : ∀ c ∈ rest.head?, isDigit c = false) :
    inInt old (gs (w ++ (signText s ++ digitsText l ++ rest))) =
      .ok ((convertI32 (s == some true) (digitsText l)).1, ⟨rest, rest.isEmpty, (convertI32 (s == some true) (digitsText l)).2⟩) := by
  obtain ⟨h1, c, t, e, hc⟩ := read_digits s l hl hr
  have hs : sentry (gs (w ++ (signText s ++ digitsText l ++ rest))) = (true, gs (signText s ++ digitsText l ++ rest)) := by
    rw [e]; exact sentry_gs hw hc
  have hx : extractInt (gs (w ++ (signText s ++ digitsText l ++ rest))) =
      .ok (some (convertI32 (s == some true) (digitsText l)).1,
        ⟨rest, rest.isEmpty, (convertI32 (s == some true) (digitsText l)).2⟩) := by
    unfold extractInt
    rw [hs]
    simp only [gs, h1]
  unfold inInt
  rw [Rd.bind_ok hx]
  rfl

private theorem sign_int (s : Option Bool) (v : ℕ) :
    (if (s == some true) = true then -(v : ℤ) else (v : ℤ)) = signValue s * (v : ℤ) := by
  match s with
  | none => simp [signValue]
  | some true => simp [signValue]
  | some false => simp [signValue]

private theorem digits_nonempty {l : List (Fin 10)} (h : l ≠ []) : (digitsText l).isEmpty = false := by
  rw [digitsText_isEmpty]; cases l <;> simp_all

/-- **C48** Reading the digits of a number below `2^64` into a `size_t`, leading zeros and a `+` allowed, gives the
number; nothing behind the digits is consumed. -/
theorem C48_size_read (s : Option Bool) (hs : s ≠ some true) (l : List (Fin 10)) (hl : l ≠ []) (hv : digitsValue l < 2 ^ 64)
    (old : UInt64) (w rest : Bytes) (hw : Blank w) (hr : ∀ c ∈ rest.head?, isDigit c = false) :
    ∃ x, inSize old (gs (w ++ (signText s ++ digitsText l ++ rest))) = .ok (x, ⟨rest, rest.isEmpty, false⟩) ∧
      x.toNat = digitsValue l := by
  have hb : (s == some true) = false := by simpa using hs
  refine ⟨UInt64.ofNat (digitsValue l), ?_, ofNat_toNat_lt hv⟩
  rw [read_size s l hl old hw hr, hb]
  unfold convertU64
  rw [digits_nonempty hl, natOfDigits_digitsText]
  simp only [Bool.false_eq_true, if_false]
  rw [if_neg (by omega)]

/-- A minus sign does not fail: the number is negated modulo `2^64`. -/
theorem C48_size_minus (l : List (Fin 10)) (hl : l ≠ []) (hv : digitsValue l < 2 ^ 64)
    (old : UInt64) (w rest : Bytes) (hw : Blank w) (hr : ∀ c ∈ rest.head?, isDigit c = false) :
    ∃ x, inSize old (gs (w ++ (b! "-" ++ digitsText l ++ rest))) = .ok (x, ⟨rest, rest.isEmpty, false⟩) ∧
      x.toNat = (2 ^ 64 - digitsValue l) % 2 ^ 64 := by
  refine ⟨0 - UInt64.ofNat (digitsValue l), ?_, ?_⟩
  · rw [show (b! "-" : Bytes) = signText (some true) from rfl, read_size (some true) l hl old hw hr]
    unfold convertU64
    rw [digits_nonempty hl, natOfDigits_digitsText]
    simp only [Bool.false_eq_true, if_false]
    rw [if_neg (by omega)]
    rfl
  · rw [UInt64.toNat_sub, ofNat_toNat_lt hv]
    rfl

/-- A number that does not fit into 64 bits fails. -/
theorem C48_size_overflow (s : Option Bool) (l : List (Fin 10)) (hv : 2 ^ 64 ≤ digitsValue l)
    (old : UInt64) (w rest : Bytes) (hw : Blank w) (hr : ∀ c ∈ rest.head?, isDigit c = false) :
    inSize old (gs (w ++ (signText s ++ digitsText l ++ rest))) = .ok (UInt64.ofNat (2 ^ 64 - 1), ⟨rest, rest.isEmpty, true⟩) := by
  have hl : l ≠ [] := by rintro rfl; simp [digitsValue] at hv
  rw [read_size s l hl old hw hr]
  unfold convertU64
  rw [digits_nonempty hl, natOfDigits_digitsText]
  simp only [Bool.false_eq_true, if_false]
  rw [if_pos hv]

/-- **C48** Reading the digits of a number into an `int`. -/
theorem C48_int_read (s : Option Bool) (l : List (Fin 10)) (hl : l ≠ []) (h1 : -(2 ^ 31) ≤ signValue s * (digitsValue l : ℤ))
    (h2 : signValue s * (digitsValue l : ℤ) < 2 ^ 31)
    (old : Int32) (w rest : Bytes) (hw : Blank w) (hr : ∀ c ∈ rest.head?, isDigit c = false) :
    ∃ x, inInt old (gs (w ++ (signText s ++ digitsText l ++ rest))) = .ok (x, ⟨rest, rest.isEmpty, false⟩) ∧
      x.toInt = signValue s * (digitsValue l : ℤ) := by
  refine ⟨Int32.ofInt (signValue s * (digitsValue l : ℤ)), ?_, Int32.toInt_ofInt_of_le (by simpa using h1) (by simpa using h2)⟩
  rw [read_int s l hl old hw hr]
  unfold convertI32
  rw [digits_nonempty hl, natOfDigits_digitsText]
  have e := sign_int s (digitsValue l)
  simp only [Bool.false_eq_true, if_false, e]
  rw [if_neg (by omega), if_neg (by omega)]

/-- A number outside the range of `int` fails. -/
theorem C48_int_overflow (s : Option Bool) (l : List (Fin 10))
    (h : signValue s * (digitsValue l : ℤ) < -(2 ^ 31) ∨ 2 ^ 31 ≤ signValue s * (digitsValue l : ℤ))
    (old : Int32) (w rest : Bytes) (hw : Blank w) (hr : ∀ c ∈ rest.head?, isDigit c = false) :
    ∃ x, inInt old (gs (w ++ (signText s ++ digitsText l ++ rest))) = .ok (x, ⟨rest, rest.isEmpty, true⟩) := by
  have hl : l ≠ [] := by rintro rfl; simp [digitsValue] at h
  rw [read_int s l hl old hw hr]
  unfold convertI32
  rw [digits_nonempty hl, natOfDigits_digitsText]
  have e := sign_int s (digitsValue l)
  simp only [Bool.false_eq_true, if_false, e]
  rcases h with h | h
  · rw [if_pos h]; exact ⟨_, rfl⟩
  · rw [if_neg (by omega), if_pos h]; exact ⟨_, rfl⟩

/-- The text of a `size_t`: its digits, no superfluous zero. -/
theorem C48_size_written (x : UInt64) : ∃ l, decU64 x = digitsText l ∧ TidyInt l ∧ digitsValue l = x.toNat := by
  obtain ⟨l, h1, h2, h3⟩ := decNat_tidy x.toNat
  exact ⟨l, h1, h3, h2⟩

/-- The text of an `int`. -/
theorem C48_int_written (x : Int32) : ∃ (s : Option Bool) (l : List (Fin 10)), decI32 x = signText s ++ digitsText l ∧ TidyInt l ∧
    s ≠ some false ∧ (s = some true ↔ x.toInt < 0) ∧ signValue s * (digitsValue l : ℤ) = x.toInt := by
  obtain ⟨l, h1, h2, h3⟩ := decNat_tidy x.toInt.natAbs
  unfold decI32
  by_cases hx : x.toInt < 0
  · refine ⟨some true, l, by rw [if_pos hx, h1]; rfl, h3, by simp, by simp [hx], ?_⟩
    rw [h2]; simp only [signValue]; omega
  · refine ⟨none, l, by rw [if_neg hx, h1]; rfl, h3, by simp, by simp [hx], ?_⟩
    rw [h2]; simp only [signValue]; omega

/-! ## C49: printing -/

private theorem abs_val_scaled {p : ℕ} (d : Double) {D L : ℕ} (h : IsSig p (scaled d.units) D L) (hp : 1 ≤ p) :
    NearestDecimal p |d.val| D ((L : ℤ) - 324 - (p - 1 : ℕ)) := by
  have := h.nearestDecimal hp 324
  rw [d.abs_val]
  have e : scaled d.units / 10 ^ 324 = (d.units : ℚ) / 2 ^ 1074 := by
    obtain ⟨c, hc, _, hcs, s1, _⟩ := exists_scale
    rw [s1 d.units, scale_val hc hcs]
  rwa [e] at this

private theorem val_zero_iff (d : Double) : d.val = 0 ↔ d.units = 0 := by
  rw [← abs_eq_zero, d.abs_val, div_eq_zero_iff]
  constructor
  · rintro (h | h)
    · exact_mod_cast h
    · exact absurd h (pow_ne_zero _ (by norm_num))
  · intro h; left; rw [h]; rfl

/-- **C49** A finite double is printed in the default format of a stream with precision `P` as the nearest decimal of
`P` digits, without superfluous zeros, with an exponent if that is needed. -/
theorem C49_general_printed (P : Nat) (d : Double) (hf : d.isFinite = true) : PrintsGeneral P d (fmtDouble (.general P) d) := by
  obtain ⟨n, _, h2, h3, h4, h5, h6⟩ := fmtGeneral_numeral P d
  have hp : 1 ≤ max P 1 := by omega
  refine ⟨n, ?_, h3, h2, fun h0 => ?_, fun h0 => ?_⟩
  · unfold fmtDouble; rw [if_pos hf, h4]; rfl
  · have hu := (val_zero_iff d).mp h0
    exact ⟨by rw [h5, if_pos hu], h6.mpr (Or.inl hu)⟩
  · have hu : d.units ≠ 0 := fun h => h0 ((val_zero_iff d).mpr h)
    refine ⟨(sigDigits (max P 1) d.units).1, ((sigDigits (max P 1) d.units).2 : ℤ) - 324,
      abs_val_scaled d (isSig_sigDigits hp (Nat.pos_of_ne_zero hu)) hp, by rw [h5, if_neg hu], ?_⟩
    rw [h6]
    simp [hu]

/-- That determines the text completely. -/
theorem C49_general_unique (P : Nat) (d : Double) (t t' : Bytes) (h : PrintsGeneral P d t) (h' : PrintsGeneral P d t') : t = t' := by
  obtain ⟨n, rfl, s1, t1, z1, v1⟩ := h
  obtain ⟨m, rfl, s2, t2, z2, v2⟩ := h'
  by_cases h0 : d.val = 0
  · obtain ⟨a1, a2⟩ := z1 h0
    obtain ⟨b1, b2⟩ := z2 h0
    rw [t1.inj t2 (by rw [s1, s2]) (by rw [a1, b1]) (by simp [a2, b2])]
  · obtain ⟨D, X, a1, a2, a3⟩ := v1 h0
    obtain ⟨D', X', b1, b2, b3⟩ := v2 h0
    obtain ⟨rfl, hx⟩ := a1.unique (by omega) b1
    have hX : X = X' := by omega
    subst hX
    rw [t1.inj t2 (by rw [s1, s2]) (by rw [a2, b2]) (by rw [a3, b3])]

/-! ## C50: `std::fixed` and `std::scientific` -/

private theorem fixed_near (P : ℕ) (d : Double) :
    IsRne (|d.val| * 10 ^ P) (rne (d.units * 10 ^ P) (2 ^ 1074)) := by
  have h := isRne_rne (d.units * 10 ^ P) (Nat.two_pow_pos 1074)
  have e : ((d.units * 10 ^ P : ℕ) : ℚ) / ((2 ^ 1074 : ℕ) : ℚ) = |d.val| * 10 ^ P := by
    rw [d.abs_val, Nat.cast_mul, Nat.cast_pow, Nat.cast_pow, Nat.cast_ofNat, Nat.cast_ofNat]
    generalize (2 : ℚ) ^ 1074 = T
    ring
  rwa [e] at h

/-- Distances in multiples of `10^-P`. -/
private theorem dist_scale (P M : ℕ) (v : ℚ) : |(M : ℚ) / 10 ^ P - v| = |(M : ℚ) - v * 10 ^ P| / 10 ^ P := by
  have hp : (0 : ℚ) < 10 ^ P := by positivity
  rw [eq_div_iff hp.ne', ← abs_of_pos hp, ← abs_mul, abs_of_pos hp]
  congr 1
  rw [sub_mul, div_mul_cancel₀ _ hp.ne']

/-- **C50** With `std::fixed` a finite double is printed as the nearest multiple of `10^-P`, with exactly `P` digits
after the point. -/
theorem C50_fixed_printed (P : Nat) (d : Double) (hf : d.isFinite = true) : PrintsFixed P d (fmtDouble (.fixed P) d) := by
  obtain ⟨n, _, h2, h3, h4, h5, h6, h7⟩ := fmtFixed_numeral P d
  have hr := fixed_near P d
  have hp : (0 : ℚ) < 10 ^ P := by positivity
  refine ⟨n, _, ?_, h3, h4, h5, h6, h7, fun M => ?_, fun M hM he => ?_⟩
  · unfold fmtDouble; rw [if_pos hf, h2]; rfl
  · rw [dist_scale, dist_scale]
    exact div_le_div_of_nonneg_right (hr.closest M) hp.le
  · rw [dist_scale, dist_scale, div_left_inj' hp.ne'] at he
    exact (hr.tie hM he).1

/-- That determines the text completely. -/
theorem C50_fixed_unique (P : Nat) (d : Double) (t t' : Bytes) (h : PrintsFixed P d t) (h' : PrintsFixed P d t') : t = t' := by
  obtain ⟨n, N, rfl, s1, i1, p1, e1, v1, c1, t1⟩ := h
  obtain ⟨m, M, rfl, s2, i2, p2, e2, v2, c2, t2⟩ := h'
  have hp : (0 : ℚ) < 10 ^ P := by positivity
  have hNM : N = M := by
    by_contra hne
    have hd := le_antisymm (c1 M) (c2 N)
    have a := t1 M (fun h => hne h.symm) hd.symm
    have b := t2 N hne hd
    have hc := c1 ((N + M) / 2)
    have h2 : 2 * ((N + M) / 2) = N + M := by omega
    have h2' : (2 : ℚ) * (((N + M) / 2 : ℕ) : ℚ) = N + M := by exact_mod_cast h2
    have hm := mid_closer (a := (N : ℚ) / 10 ^ P) (b := M / 10 ^ P)
      (fun h => hne (by rw [div_left_inj' hp.ne'] at h; exact_mod_cast h)) hd
    rw [show (((N + M) / 2 : ℕ) : ℚ) = (N + M) / 2 by linarith,
      show ((N : ℚ) + M) / 2 / 10 ^ P = (N / 10 ^ P + M / 10 ^ P) / 2 by ring] at hc
    exact absurd hc (not_le.mpr hm)
  have hpow : ∀ {n : Numeral}, n.exp = none → n.size = digitsValue n.int + digitsValue n.fracDigits / 10 ^ n.fracDigits.length := by
    intro n h
    unfold Numeral.size Numeral.power
    rw [h]; simp
  have hv : n.size = m.size := by rw [v1, v2, hNM]
  rw [hpow e1, hpow e2] at hv
  obtain ⟨a, b⟩ := parts_inj (frac_bounds _).1 (frac_bounds _).2 (frac_bounds _).1 (frac_bounds _).2 hv
  have hint := i1.inj i2 a
  have hfrac : n.frac = m.frac := by
    unfold PlacesOf at p1 p2
    by_cases hP : P = 0
    · rw [if_pos hP] at p1 p2; rw [p1, p2]
    · rw [if_neg hP] at p1 p2
      obtain ⟨f, hf, hfl⟩ := p1
      obtain ⟨g, hg, hgl⟩ := p2
      unfold Numeral.fracDigits at b
      rw [hf, hg, Option.getD_some, Option.getD_some, hfl, hgl, div_left_inj' hp.ne'] at b
      rw [hf, hg, digitsValue_inj (a := f) (b := g) (by rw [hfl, hgl]) (by exact_mod_cast b)]
  congr 1
  cases n; cases m; simp_all

/-- The greatest double. -/
private theorem abs_val_le (d : Double) (hf : d.isFinite = true) : |d.val| ≤ (2 ^ 53 - 1) * 2 ^ 971 := by
  have hlt : d.mag < Double.infMag := by simpa [Double.isFinite] using hf
  have u1 : Double.unitsOfMag (Double.infMag - 1) = (2 ^ 53 - 1) * 2 ^ 2045 := by
    rw [show Double.infMag - 1 = 2045 * 2 ^ 52 + (2 ^ 53 - 1) from rfl]
    exact unitsOfMag_add (by omega) (by omega)
  have hu : d.units ≤ (2 ^ 53 - 1) * 2 ^ 2045 := by
    rw [← u1]; exact units_le_iff.mpr (by omega)
  have hu' : (d.units : ℚ) ≤ ((2 ^ 53 - 1 : ℕ) : ℚ) * ((2 ^ 2045 : ℕ) : ℚ) := by
    rw [← Nat.cast_mul]; exact Nat.cast_le.mpr hu
  rw [Nat.cast_pow, Nat.cast_ofNat] at hu'
  rw [d.abs_val, div_le_iff₀ (pow_pos (by norm_num) _), mul_assoc, ← pow_add]
  refine hu'.trans (le_of_eq ?_)
  norm_num

private theorem inRange_near {q v : ℚ} (hv : |v| ≤ (2 ^ 53 - 1) * 2 ^ 971) (h : |q - v| ≤ 1 / 2) : InRange q := by
  unfold InRange
  have h1 : |q| ≤ |v| + 1 / 2 := by
    have := abs_add_le (q - v) v
    rw [sub_add_cancel] at this
    linarith
  have e1 : (2 : ℚ) ^ 971 = 2 * 2 ^ 970 := by rw [← pow_succ']
  have e2 : (2 : ℚ) ^ 1024 = 2 ^ 54 * 2 ^ 970 := by rw [← pow_add]
  have h3 : (1 : ℚ) ≤ 2 ^ 970 := one_le_pow₀ (by norm_num)
  rw [e1] at hv
  rw [e2]
  clear e1 e2
  generalize (2 : ℚ) ^ 970 = A at *
  norm_num at hv ⊢
  linarith

private theorem printed_value {n : Numeral} {d : Double} (h : n.sign = printedSign d) :
    n.value = (if d.neg then -1 else 1) * n.size ∧ (n.sign == some true) = d.neg := by
  unfold Numeral.value
  rw [h]
  unfold printedSign
  cases d.neg <;> simp [signValue]

private theorem val_sign (d : Double) : d.val = (if d.neg then -1 else 1) * |d.val| := by
  rw [d.abs_val]; unfold Double.val; rw [mul_div_assoc]

private theorem signed_dist (s : Bool) (a b : ℚ) : |(if s then -1 else 1) * a - (if s then -1 else 1) * b| = |a - b| := by
  cases s
  · simp
  · simp only [if_true]
    rw [← mul_sub, abs_mul]; simp

/-- **C50** Every finite double that is printed with `std::fixed` is readable, keeps its sign, and comes back within
`10^-P`. -/
theorem C50_fixed_error (P : Nat) (d : Double) (hf : d.isFinite = true) :
    Printable (.fixed P) d ∧ (reread (.fixed P) d).neg = d.neg ∧ |(reread (.fixed P) d).val - d.val| ≤ 1 / 10 ^ P := by
  obtain ⟨n, hn, h2, h3, h4, h5, h6, h7⟩ := fmtFixed_numeral P d
  obtain ⟨hiff, hR, _⟩ := reread_numeral (P := .fixed P) hf hn h2.symm
  obtain ⟨hv, hs⟩ := printed_value h3
  have hp : (1 : ℚ) ≤ 10 ^ P := one_le_pow₀ (by norm_num)
  have hp0 : (0 : ℚ) < 10 ^ P := by linarith
  have hd : |n.value - d.val| ≤ 1 / 10 ^ P / 2 := by
    rw [hv, val_sign d, signed_dist, h7, dist_scale, div_right_comm]
    exact div_le_div_of_nonneg_right (fixed_near P d).near hp0.le
  have h1 : (1 : ℚ) / 10 ^ P ≤ 1 := by rw [div_le_one hp0]; exact hp
  have hP := hiff.mpr (inRange_near (abs_val_le d hf) (hd.trans (by linarith)))
  obtain ⟨hN, hneg⟩ := hR hP
  refine ⟨hP, by rw [hneg, hs], ?_⟩
  have hc := hN.closest d hf
  rw [abs_sub_comm d.val] at hc
  calc |(reread (.fixed P) d).val - d.val|
      ≤ |(reread (.fixed P) d).val - n.value| + |n.value - d.val| := abs_sub_le _ _ _
    _ ≤ 1 / 10 ^ P := by linarith

/-- **C50** A multiple of `10^-P` that is a double, an integer for example, comes back unchanged. -/
theorem C50_fixed_exact (P : Nat) (d : Double) (hf : d.isFinite = true) (N : Nat) (h : |d.val| * 10 ^ P = N) :
    Printable (.fixed P) d ∧ reread (.fixed P) d = d := by
  obtain ⟨n, hn, h2, h3, h4, h5, h6, h7⟩ := fmtFixed_numeral P d
  obtain ⟨hiff, hR, _⟩ := reread_numeral (P := .fixed P) hf hn h2.symm
  obtain ⟨hv, hs⟩ := printed_value h3
  have hp0 : (0 : ℚ) < 10 ^ P := by positivity
  have hN : rne (d.units * 10 ^ P) (2 ^ 1074) = N := by
    have := fixed_near P d
    rw [h] at this
    exact this.unique (isRne_nat N)
  have e : n.value = d.val := by
    rw [hv, val_sign d, h7, hN, ← h, mul_div_cancel_right₀ _ hp0.ne']
  obtain ⟨x1, x2⟩ := C48_exact d hf
  rw [e] at hiff hR
  have hP := hiff.mpr x2
  obtain ⟨y1, y2⟩ := hR hP
  exact ⟨hP, C48_nearest_unique d.val x2 _ _ y1 x1 (by rw [y2, hs])⟩

/-- No precision makes `std::fixed` lossless for small numbers: `10^-7` is printed as zero with six places. -/
theorem C50_fixed_counterexample : ∃ d : Double, d.isFinite = true ∧ fmtDouble (.general 6) d = b! "1e-07" ∧
    fmtDouble (.fixed 6) d = b! "0.000000" ∧ reread (.fixed 6) d = Double.zero ∧ reread (.fixed 17) ⟨1⟩ = Double.zero :=
  ⟨⟨0x3E7AD7F29ABCAF48⟩, by decide +kernel, by decide +kernel, by decide +kernel, by unfold reread; decide +kernel,
    by unfold reread; decide +kernel⟩

/-- **C50** With `std::scientific` a finite double is printed as the nearest decimal of `P + 1` digits. -/
theorem C50_scientific_printed (P : Nat) (d : Double) (hf : d.isFinite = true) :
    PrintsScientific P d (fmtDouble (.scientific P) d) := by
  obtain ⟨n, _, h2, h3, h4, h5, h6, h7, h8⟩ := fmtScientific_numeral P d
  refine ⟨n, ?_, h3, h4, h5, h6, fun h0 => h7 ((val_zero_iff d).mp h0), fun h0 => ?_⟩
  · unfold fmtDouble; rw [if_pos hf, h2]; rfl
  · have hu : d.units ≠ 0 := fun h => h0 ((val_zero_iff d).mpr h)
    obtain ⟨a, b⟩ := h8 hu
    have hp : 1 ≤ P + 1 := by omega
    exact ⟨a, _, _, abs_val_scaled d (isSig_sigDigits hp (Nat.pos_of_ne_zero hu)) hp, b⟩

/-- That determines the text completely. -/
theorem C50_scientific_unique (P : Nat) (d : Double) (t t' : Bytes) (h : PrintsScientific P d t) (h' : PrintsScientific P d t') :
    t = t' := by
  obtain ⟨n, rfl, s1, l1, p1, ⟨e, he, te⟩, z1, v1⟩ := h
  obtain ⟨m, rfl, s2, l2, p2, ⟨f, hf, tf⟩, z2, v2⟩ := h'
  have fl : ∀ {n : Numeral}, PlacesOf P n.frac → n.fracDigits.length = P := by
    intro n h
    unfold PlacesOf at h
    unfold Numeral.fracDigits
    by_cases hP : P = 0
    · rw [if_pos hP] at h; rw [h, hP]; rfl
    · rw [if_neg hP] at h; obtain ⟨l, hl, hll⟩ := h; rw [hl]; exact hll
  have key : (digitsValue n.int + digitsValue n.fracDigits / 10 ^ n.fracDigits.length : ℚ) =
      digitsValue m.int + digitsValue m.fracDigits / 10 ^ m.fracDigits.length ∧ n.power = m.power := by
    by_cases h0 : d.val = 0
    · obtain ⟨a1, a2⟩ := z1 h0
      obtain ⟨b1, b2⟩ := z2 h0
      refine ⟨?_, by rw [a2, b2]⟩
      unfold Numeral.size at a1 b1
      rw [a2, zpow_zero, mul_one] at a1
      rw [b2, zpow_zero, mul_one] at b1
      rw [a1, b1]
    · obtain ⟨i1, D, x, a1, a2⟩ := v1 h0
      obtain ⟨i2, D', x', b1, b2⟩ := v2 h0
      obtain ⟨rfl, rfl⟩ := a1.unique (by omega) b1
      have hv : n.size = m.size := by rw [a2, b2]
      obtain ⟨m1, m2⟩ := mantissa_bounds l1 i1
      obtain ⟨m3, m4⟩ := mantissa_bounds l2 i2
      exact mantissa_inj m1 m2 m3 m4 hv
  obtain ⟨hM, hx⟩ := key
  obtain ⟨a, b⟩ := parts_inj (frac_bounds _).1 (frac_bounds _).2 (frac_bounds _).1 (frac_bounds _).2 hM
  have hint : n.int = m.int := digitsValue_inj (by rw [l1, l2]) a
  have hexp : e = f := by
    unfold Numeral.power at hx
    rw [he, hf] at hx
    exact te.inj tf hx
  have hp : (0 : ℚ) < 10 ^ P := by positivity
  have hfd : n.fracDigits = m.fracDigits := by
    rw [fl p1, fl p2, div_left_inj' hp.ne'] at b
    exact digitsValue_inj (by rw [fl p1, fl p2]) (by exact_mod_cast b)
  have hfrac : n.frac = m.frac := by
    unfold PlacesOf at p1 p2
    by_cases hP : P = 0
    · rw [if_pos hP] at p1 p2; rw [p1, p2]
    · rw [if_neg hP] at p1 p2
      obtain ⟨l, hl, _⟩ := p1
      obtain ⟨g, hg, _⟩ := p2
      unfold Numeral.fracDigits at hfd
      rw [hl, hg] at hfd ⊢
      exact congrArg some hfd
  subst hexp
  congr 1
  cases n; cases m; simp_all

/-- Numerals of the same number are read alike. -/
private theorem convert_congr {n m : Numeral} (hn : n.Proper) (hm : m.Proper) (hs : (n.sign == some true) = (m.sign == some true))
    (hv : n.size = m.size) : convertFloat (n.scan []) = convertFloat (m.scan []) := by
  obtain ⟨a, ha, ea⟩ := convert_numeral n hn []
  obtain ⟨b, hb, eb⟩ := convert_numeral m hm []
  rw [hv] at ha
  rw [ea, eb, ha.unique hb, hs]

/-- **C50** What comes back from `std::scientific` with precision `P` is what comes back from the default format with
precision `P + 1`, so C05 to C08 hold for it with one digit more. -/
theorem C50_scientific_reread (P : Nat) (d : Double) (hf : d.isFinite = true) :
    (Printable (.scientific P) d ↔ Printable (.general (P + 1)) d) ∧ reread (.scientific P) d = reread (.general (P + 1)) d := by
  obtain ⟨n, hn, h2, h3, h4, h5, h6, h7, h8⟩ := fmtScientific_numeral P d
  obtain ⟨m, hm, g2, g3, g4, g5, g6⟩ := fmtGeneral_numeral (P + 1) d
  obtain ⟨_, _, e1⟩ := reread_numeral (P := .scientific P) hf hn h2.symm
  obtain ⟨_, _, e2⟩ := reread_numeral (P := .general (P + 1)) hf hm g4.symm
  have hv : n.size = m.size := by
    rw [g5]
    by_cases hu : d.units = 0
    · rw [if_pos hu, (h7 hu).1]
    · rw [if_neg hu, (h8 hu).2, show max (P + 1) 1 = P + 1 by omega, Nat.add_sub_cancel]
  have hs : (n.sign == some true) = (m.sign == some true) := by rw [h3, g3]; rfl
  have e := convert_congr hn hm hs hv
  unfold Printable reread
  rw [e1, e2, e]
  exact ⟨Iff.rfl, rfl⟩

/-- Precision 16 is enough for `std::scientific`. -/
theorem C50_scientific_lossless (P : Nat) (hP : 16 ≤ P) : (Fmt.scientific P).Lossless := by
  intro d hf
  obtain ⟨h1, h2⟩ := C50_scientific_reread P d hf
  obtain ⟨g1, g2⟩ := C07_lossless (P + 1) (by omega) d hf
  exact ⟨h1.mpr g1, by rw [h2, g2]⟩

/-- Precision 15 is not. -/
theorem C50_scientific_fifteen : ∃ d : Double, d.isFinite = true ∧ reread (.scientific 15) d ≠ d :=
  ⟨⟨0x3FF91B752265B1F5⟩, by decide +kernel, by unfold reread; decide +kernel⟩

/-! ## Concrete cases -/

/-- `-01.50E+1`. -/
def demoNumeral : Numeral := ⟨some true, [0, 1], some [5, 0], some ⟨true, some false, [1]⟩⟩

theorem demoNumeral_value : demoNumeral.value = -15 := by
  norm_num [Numeral.value, Numeral.size, Numeral.power, Numeral.fracDigits, demoNumeral, digitsValue, signValue]

/-- C48: `-01.50E+1` is read as the double -15. -/
example : demoNumeral.text = b! "-01.50E+1" ∧ demoNumeral.Proper ∧ InRange demoNumeral.value ∧
    inDouble Double.zero (gs (b! " \n" ++ demoNumeral.text ++ b! "\n7")) = .ok (⟨0xC02E000000000000⟩, gs (b! "\n7")) ∧
    (⟨0xC02E000000000000⟩ : Double).val = -15 := by
  refine ⟨by decide +kernel, ⟨by decide, ?_⟩, ?_, by decide +kernel, ?_⟩
  · intro e he; cases he; simp
  · rw [demoNumeral_value]
    refine inRange_near (v := -15) ?_ (by norm_num)
    have h3 : (1 : ℚ) ≤ 2 ^ 971 := one_le_pow₀ (by norm_num)
    generalize (2 : ℚ) ^ 971 = A at h3 ⊢
    norm_num
    linarith
  · rw [C48_normal_value _ (by decide)]
    have h1 : (⟨0xC02E000000000000⟩ : Double).neg = true := by decide
    have h2 : (⟨0xC02E000000000000⟩ : Double).mag / 2 ^ 52 = 1026 := by decide
    have h3 : (⟨0xC02E000000000000⟩ : Double).mag % 2 ^ 52 = 7 * 2 ^ 49 := by decide
    rw [h1, h2, h3]
    norm_num

/-- C48: numbers that are too large, integers with a sign and leading zeros, and what is left behind them. -/
example : inDouble Double.zero (gs (b! "-1e400\n")) = .ok (minDouble, ⟨b! "\n", false, true⟩) ∧
    inSize 0 (gs (b! " +0071.5")) = .ok (71, gs (b! ".5")) ∧
    inSize 0 (gs (b! "-1 ")) = .ok (UInt64.ofNat (2 ^ 64 - 1), gs (b! " ")) ∧
    inSize 0 (gs (b! "18446744073709551616")) = .ok (UInt64.ofNat (2 ^ 64 - 1), ⟨[], true, true⟩) ∧
    inInt 0 (gs (b! "-2147483648\n")) = .ok (Int32.ofInt (-(2 ^ 31)), gs (b! "\n")) ∧
    inInt 0 (gs (b! "2147483648\n")) = .ok (Int32.ofInt (2 ^ 31 - 1), ⟨b! "\n", false, true⟩) := by
  refine ⟨?_, ?_, ?_, ?_, ?_, ?_⟩ <;> decide +kernel

/-- C49, C50: one tenth and minus a million. -/
example : fmtDouble (.general 6) ⟨0x3FB999999999999A⟩ = b! "0.1" ∧
    fmtDouble (.general 17) ⟨0x3FB999999999999A⟩ = b! "0.10000000000000001" ∧
    fmtDouble (.fixed 3) ⟨0x3FB999999999999A⟩ = b! "0.100" ∧
    fmtDouble (.scientific 3) ⟨0x3FB999999999999A⟩ = b! "1.000e-01" ∧
    fmtDouble (.general 6) ⟨0xC12E848000000000⟩ = b! "-1e+06" ∧
    fmtDouble (.fixed 0) ⟨0xC12E848000000000⟩ = b! "-1000000" ∧
    fmtDouble (.scientific 0) ⟨0xC12E848000000000⟩ = b! "-1e+06" := by
  refine ⟨?_, ?_, ?_, ?_, ?_, ?_, ?_⟩ <;> decide +kernel

end MshIO
