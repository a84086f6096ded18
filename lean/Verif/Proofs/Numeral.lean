import Verif.Proofs.NumeralScan
import Verif.Proofs.DblVal

/-!
# Reading a numeral
-/

namespace MshIO

/-! ## Nearest doubles -/

/-- A tie is broken to the even side. -/
theorem IsMag.tie {x : ℚ} {m c : ℕ} (h : IsMag x m) (hc : c ≠ m)
    (he : |(Double.unitsOfMag c : ℚ) - x| = |(Double.unitsOfMag m : ℚ) - x|) :
    m % 2 = 0 ∧ (m = c + 1 ∨ c = m + 1) := by
  have hne : (Double.unitsOfMag c : ℚ) ≠ Double.unitsOfMag m := by
    intro hh; exact hc (units_inj (by exact_mod_cast hh))
  -- `x` is in the middle
  have hmid : (Double.unitsOfMag c : ℚ) + Double.unitsOfMag m = 2 * x := by
    rcases abs_eq_abs.mp he with hh | hh
    · exact absurd (by linarith) hne
    · linarith
  obtain ⟨k, r, hm, hr, hx1, hx2⟩ := h.ex
  obtain ⟨b1, b2⟩ := IsMag.r_bounds hr hx1 hx2
  have hu : Double.unitsOfMag m = r * 2 ^ k := by rw [hm, unitsOfMag_add b1 b2]
  have hp : (0 : ℚ) < 2 ^ k := by positivity
  have hpar : r % 2 = 0 → m % 2 = 0 := by
    intro hr2
    rw [hm, show (2 : ℕ) ^ 52 = 2 * 2 ^ 51 from rfl]
    omega
  rcases Nat.lt_or_gt_of_ne hc with hlt | hgt
  · -- candidate below: it is the predecessor
    have hcm : c = m - 1 := by
      by_contra hcc
      have h1 := units_lt (a := c) (b := m - 1) (by omega)
      have h2 := units_lt (a := m - 1) (b := m) (by omega)
      have h3 := h.nearest (m - 1)
      have h1' : (Double.unitsOfMag c : ℚ) < Double.unitsOfMag (m - 1) := by exact_mod_cast h1
      have h2' : (Double.unitsOfMag (m - 1) : ℚ) < Double.unitsOfMag m := by exact_mod_cast h2
      rw [abs_of_pos (a := (Double.unitsOfMag m : ℚ) - x) (by linarith)] at h3
      rcases abs_cases ((Double.unitsOfMag (m - 1) : ℚ) - x) with ⟨a, _⟩ | ⟨a, _⟩ <;> linarith
    have hxlt : x < Double.unitsOfMag m := by
      have h1 := units_lt hlt
      have h1' : (Double.unitsOfMag c : ℚ) < Double.unitsOfMag m := by exact_mod_cast h1
      linarith
    have hr1 : k = 0 ∨ 2 ^ 52 < r := by
      rcases hx2 with h0 | h0
      · exact Or.inl h0
      · right
        rw [hu] at hxlt
        have : (2 : ℚ) ^ 52 * 2 ^ k < r * 2 ^ k := by
          push_cast at hxlt
          rw [← pow_add]; linarith
        have := lt_of_mul_lt_mul_right this hp.le
        exact_mod_cast this
    have hr0 : 1 ≤ r := by
      by_contra h0
      have : r = 0 := by omega
      rcases hr1 with hk | hk
      · subst hk; omega
      · omega
    have hcu : Double.unitsOfMag c = (r - 1) * 2 ^ k := by
      rw [hcm, hm, show k * 2 ^ 52 + r - 1 = k * 2 ^ 52 + (r - 1) by omega, unitsOfMag_add (by omega) (by omega)]
    rw [hcu, hu] at hmid
    push_cast [hr0] at hmid
    refine ⟨hpar (hr.tieDown ?_), Or.inl (by omega)⟩
    rw [div_eq_iff hp.ne']
    linarith
  · have hcm : c = m + 1 := by
      by_contra hcc
      have h1 := units_lt (a := m + 1) (b := c) (by omega)
      have h2 := units_lt (a := m) (b := m + 1) (by omega)
      have h3 := h.nearest (m + 1)
      have h1' : (Double.unitsOfMag (m + 1) : ℚ) < Double.unitsOfMag c := by exact_mod_cast h1
      have h2' : (Double.unitsOfMag m : ℚ) < Double.unitsOfMag (m + 1) := by exact_mod_cast h2
      rw [abs_of_neg (a := (Double.unitsOfMag m : ℚ) - x) (by linarith)] at h3
      rcases abs_cases ((Double.unitsOfMag (m + 1) : ℚ) - x) with ⟨a, _⟩ | ⟨a, _⟩ <;> linarith
    have hxgt : (Double.unitsOfMag m : ℚ) < x := by
      have h1 := units_lt hgt
      have h1' : (Double.unitsOfMag m : ℚ) < Double.unitsOfMag c := by exact_mod_cast h1
      linarith
    have hr1 : r < 2 ^ 53 := by
      by_contra h0
      have : r = 2 ^ 53 := by omega
      rw [hu, this, Nat.cast_mul, Nat.cast_pow, Nat.cast_pow, Nat.cast_ofNat, ← pow_add] at hxgt
      linarith
    have hcu : Double.unitsOfMag c = (r + 1) * 2 ^ k := by
      rw [hcm, hm, Nat.add_assoc, unitsOfMag_add (by omega) (by omega)]
    rw [hcu, hu] at hmid
    push_cast at hmid
    refine ⟨hpar (hr.tieUp ?_), Or.inr (by omega)⟩
    rw [div_eq_iff hp.ne']
    linarith

theorem Double.bits_even {d : Double} (h : d.mag % 2 = 0) : d.bits.toNat % 2 = 0 := by
  unfold Double.mag at h; omega

/-- Distance of a double of the same sign. -/
theorem dist_same {a : ℚ} {s : Bool} {e : Double} (he : e.neg = s) :
    |e.val - (if s then -1 else 1) * a| = |(e.units : ℚ) - a * 2 ^ 1074| / 2 ^ 1074 := by
  have hT : (0 : ℚ) < 2 ^ 1074 := pow_pos (by norm_num) _
  unfold Double.val
  rw [he]
  generalize ((2 : ℚ) ^ 1074) = T at hT
  have h1 : ((if s = true then -1 else 1) * (e.units : ℚ) / T - (if s = true then (-1 : ℚ) else 1) * a) =
      (if s = true then -1 else 1) * (((e.units : ℚ) - a * T) / T) := by
    cases s <;> simp <;> field_simp <;> ring
  have h2 : |if s = true then (-1 : ℚ) else 1| = 1 := by cases s <;> simp
  rw [h1, abs_mul, h2, one_mul, abs_div, abs_of_pos hT]

/-- Distance of a double of the other sign. -/
theorem dist_opp {a : ℚ} (ha : 0 ≤ a) {s : Bool} {e : Double} (he : e.neg ≠ s) :
    |e.val - (if s then -1 else 1) * a| = ((e.units : ℚ) + a * 2 ^ 1074) / 2 ^ 1074 := by
  have hT : (0 : ℚ) < 2 ^ 1074 := pow_pos (by norm_num) _
  have he' : e.neg = !s := by cases h : e.neg <;> cases hh : s <;> simp_all
  unfold Double.val
  rw [he']
  generalize ((2 : ℚ) ^ 1074) = T at hT
  have h1 : ((if (!s) = true then -1 else 1) * (e.units : ℚ) / T - (if s = true then (-1 : ℚ) else 1) * a) =
      (if s = true then 1 else -1) * (((e.units : ℚ) + a * T) / T) := by
    cases s <;> simp <;> field_simp <;> ring
  have h3 : |if s = true then (1 : ℚ) else -1| = 1 := by cases s <;> simp
  rw [h1, abs_mul, h3, one_mul, abs_of_nonneg (by positivity)]

/-- A rounded magnitude with the sign of the number is the nearest double. -/
theorem nearest_of_isMag {a : ℚ} (ha : 0 ≤ a) {m : ℕ} (hm : IsMag (a * 2 ^ 1074) m) (hlt : m < Double.infMag)
    (s : Bool) : Nearest ((if s then -1 else 1) * a) (Double.ofSignMag s m) := by
  have hinf : Double.infMag < 2 ^ 63 := by decide
  have e1 := Double.mag_ofSignMag s (m := m) (by omega)
  have e2 := Double.neg_ofSignMag s (m := m) (by omega)
  set d := Double.ofSignMag s m with hd
  have hu : d.units = Double.unitsOfMag m := by unfold Double.units; rw [e1]
  have hT : (0 : ℚ) < 2 ^ 1074 := pow_pos (by norm_num) _
  have same := fun e => dist_same (a := a) (s := s) (e := e)
  have opp := fun e => dist_opp ha (s := s) (e := e)
  have hd0 := same d e2
  rw [hu] at hd0
  have hq0 : 0 ≤ a * 2 ^ 1074 := by positivity
  have hzero := hm.nearest 0
  rw [show Double.unitsOfMag 0 = 0 from rfl, Nat.cast_zero, zero_sub, abs_neg, abs_of_nonneg hq0] at hzero
  refine ⟨?_, ?_, ?_⟩
  · unfold Double.isFinite; rw [e1]; simpa using hlt
  · intro e _
    rw [hd0]
    by_cases he : e.neg = s
    · rw [same e he]
      exact div_le_div_of_nonneg_right (hm.nearest e.mag) hT.le
    · rw [opp e he]
      refine div_le_div_of_nonneg_right (hzero.trans ?_) hT.le
      have : (0 : ℚ) ≤ e.units := Nat.cast_nonneg _
      linarith
  · intro e _ hne heq
    apply Double.bits_even
    rw [e1]
    rw [hd0] at heq
    by_cases he : e.neg = s
    · rw [same e he, div_left_inj' hT.ne'] at heq
      refine (hm.tie (c := e.mag) ?_ heq).1
      intro hmag
      apply hne
      unfold Double.val Double.units
      rw [he, e2, e1, hmag]
    · rw [opp e he, div_left_inj' hT.ne'] at heq
      have h0 : (0 : ℚ) ≤ e.units := Nat.cast_nonneg _
      have he0 : e.units = 0 := by
        have : (e.units : ℚ) ≤ 0 := by linarith
        have : e.units ≤ 0 := by exact_mod_cast this
        omega
      refine (hm.tie (c := 0) ?_ ?_).1
      · intro hm0
        apply hne
        unfold Double.val
        rw [he0, hu, ← hm0, show Double.unitsOfMag 0 = 0 from rfl]
        simp
      · rw [show Double.unitsOfMag 0 = 0 from rfl, Nat.cast_zero, zero_sub, abs_neg, abs_of_nonneg hq0, ← heq, he0]
        simp

/-! ## The range -/

theorem infMag_split : Double.infMag = 2045 * 2 ^ 52 + 2 ^ 53 := by decide

theorem isMag_half : IsMag (2 ^ 2098 - 2 ^ 2044) Double.infMag := by
  refine ⟨⟨2045, 2 ^ 53, infMag_split, ?_, ?_, Or.inr ?_⟩⟩
  · have h : ((2 : ℚ) ^ 2098 - 2 ^ 2044) / 2 ^ 2045 = ((2 ^ 53 : ℕ) : ℚ) - 1 / 2 := by
      have a : (2 : ℚ) ^ 2098 = 2 ^ 53 * 2 ^ 2045 := by rw [← pow_add]
      have b : (2 : ℚ) ^ 2044 = 1 / 2 * 2 ^ 2045 := by rw [pow_succ' 2 2044, ← mul_assoc]; norm_num
      rw [a, b, ← sub_mul, mul_div_cancel_right₀ _ (pow_ne_zero _ (by norm_num))]
      push_cast
      rfl
    rw [h]
    exact ⟨by linarith, le_rfl, fun hh => by linarith, fun _ => by decide⟩
  · show (2 : ℚ) ^ 2098 - 2 ^ 2044 < 2 ^ 2098
    exact sub_lt_self _ (pow_pos (by norm_num) _)
  · show (2 : ℚ) ^ 2097 ≤ 2 ^ 2098 - 2 ^ 2044
    have a : (2 : ℚ) ^ 2098 = 2 ^ 2097 + 2 ^ 2097 := by rw [pow_succ 2 2097, mul_two]
    have b : (2 : ℚ) ^ 2044 ≤ 2 ^ 2097 := pow_le_pow_right₀ (by norm_num) (by norm_num)
    rw [a, add_sub_assoc]
    exact le_add_of_nonneg_right (sub_nonneg.mpr b)

theorem mag_lt_iff {q : ℚ} {m : ℕ} (hm : IsMag (|q| * 2 ^ 1074) m) : m < Double.infMag ↔ InRange q := by
  unfold InRange
  have hT : (0 : ℚ) < 2 ^ 1074 := pow_pos (by norm_num) _
  have e : ((2 : ℚ) ^ 1024 - 2 ^ 970) * 2 ^ 1074 = 2 ^ 2098 - 2 ^ 2044 := by
    rw [sub_mul, ← pow_add, ← pow_add]
  rw [← mul_lt_mul_iff_left₀ hT, e]
  constructor
  · intro h
    by_contra hc
    have := isMag_half.mono hm (not_lt.mp hc)
    omega
  · intro h
    have h2 : m ≤ Double.infMag - 1 := by
      refine hm.le_of_lt_mid ?_
      have u1 : Double.unitsOfMag (Double.infMag - 1) = (2 ^ 53 - 1) * 2 ^ 2045 := by
        rw [infMag_split, show 2045 * 2 ^ 52 + 2 ^ 53 - 1 = 2045 * 2 ^ 52 + (2 ^ 53 - 1) from rfl]
        exact unitsOfMag_add (by decide) (by decide)
      have u2 : Double.unitsOfMag (Double.infMag - 1 + 1) = 2 ^ 53 * 2 ^ 2045 := by
        rw [show Double.infMag - 1 + 1 = 2045 * 2 ^ 52 + 2 ^ 53 from rfl]
        exact unitsOfMag_add (by decide) (by decide)
      rw [u1, u2]
      have a : (2 : ℚ) ^ 2098 = 2 ^ 53 * 2 ^ 2045 := by rw [← pow_add]
      have b : (2 : ℚ) ^ 2044 = 1 / 2 * 2 ^ 2045 := by rw [pow_succ' 2 2044, ← mul_assoc]; norm_num
      rw [a, b] at h
      refine lt_of_lt_of_le h (le_of_eq ?_)
      rw [Nat.cast_mul, Nat.cast_mul, Nat.cast_pow, Nat.cast_ofNat]
      generalize (2 : ℚ) ^ 2045 = A
      rw [Nat.cast_sub (by decide), Nat.cast_pow, Nat.cast_ofNat, Nat.cast_one]
      ring
    have : 0 < Double.infMag := by decide
    omega

theorem exists_isMag_rat {a : ℚ} (ha : 0 ≤ a) : ∃ m, IsMag (a * 2 ^ 1074) m := by
  have h := isMag_magOfRat a.num.natAbs (den := a.den) a.den_pos
  have e : ((a.num.natAbs : ℕ) : ℚ) / a.den = a := by
    rw [← Int.cast_natCast (R := ℚ) a.num.natAbs,
      Int.natAbs_of_nonneg (Rat.num_nonneg.mpr ha), Rat.num_div_den]
  rw [e] at h
  exact ⟨_, h⟩

theorem Nearest.val_eq {a : ℚ} (ha : 0 ≤ a) {m : ℕ} (hm : IsMag (a * 2 ^ 1074) m) (hlt : m < Double.infMag)
    {s : Bool} {d : Double} (hd : Nearest ((if s then -1 else 1) * a) d) : d.val = (Double.ofSignMag s m).val := by
  have hn := nearest_of_isMag ha hm hlt s
  have hinf : Double.infMag < 2 ^ 63 := by decide
  have e1 := Double.mag_ofSignMag s (m := m) (by omega)
  have e2 := Double.neg_ofSignMag s (m := m) (by omega)
  by_contra hne
  have heq := le_antisymm (hd.closest _ hn.finite) (hn.closest _ hd.finite)
  have p1 := hd.even _ hn.finite (fun h => hne h.symm) heq.symm
  have hT : (0 : ℚ) < 2 ^ 1074 := pow_pos (by norm_num) _
  have hu : (Double.ofSignMag s m).units = Double.unitsOfMag m := by unfold Double.units; rw [e1]
  have pm : d.mag % 2 = 0 := by unfold Double.mag; omega
  rw [dist_same e2, hu] at heq
  have key : ∀ c, c % 2 = 0 → c ≠ m → |(Double.unitsOfMag c : ℚ) - a * 2 ^ 1074| = |(Double.unitsOfMag m : ℚ) - a * 2 ^ 1074| →
      False := by
    intro c hc hcm he
    obtain ⟨h1, h2⟩ := hm.tie hcm he
    omega
  by_cases hs : d.neg = s
  · rw [dist_same hs, div_left_inj' hT.ne'] at heq
    refine key d.mag pm (fun hmag => hne ?_) heq
    unfold Double.val Double.units
    rw [hs, e2, e1, hmag]
  · rw [dist_opp ha hs, div_left_inj' hT.ne'] at heq
    have hq0 : 0 ≤ a * 2 ^ 1074 := by positivity
    have hzero := hm.nearest 0
    rw [show Double.unitsOfMag 0 = 0 from rfl, Nat.cast_zero, zero_sub, abs_neg, abs_of_nonneg hq0] at hzero
    have h0 : (0 : ℚ) ≤ d.units := Nat.cast_nonneg _
    have he0 : d.units = 0 := by
      have : (d.units : ℚ) ≤ 0 := by linarith
      have : d.units ≤ 0 := by exact_mod_cast this
      omega
    refine key 0 rfl (fun hm0 => hne ?_) ?_
    · unfold Double.val
      rw [he0, hu, ← hm0, show Double.unitsOfMag 0 = 0 from rfl]
      simp
    · rw [show Double.unitsOfMag 0 = 0 from rfl, Nat.cast_zero, zero_sub, abs_neg, abs_of_nonneg hq0, ← heq, he0]
      simp

/-- The nearest double to a number in range is unique up to the sign of zero. -/
theorem Nearest.unique {q : ℚ} (hq : InRange q) {d e : Double} (hd : Nearest q d) (he : Nearest q e) : d.val = e.val := by
  obtain ⟨m, hm⟩ := exists_isMag_rat (abs_nonneg q)
  have hlt := (mag_lt_iff hm).mpr hq
  obtain ⟨s, hs⟩ : ∃ s : Bool, q = (if s then -1 else 1) * |q| := by
    rcases abs_cases q with ⟨h, _⟩ | ⟨h, _⟩
    · exact ⟨false, by simp [h]⟩
    · exact ⟨true, by simp [h]⟩
  have gen : ∀ x, Nearest q x → x.val = (Double.ofSignMag s m).val := by
    intro x hx
    rw [hs] at hx
    exact hx.val_eq (abs_nonneg q) hm hlt
  rw [gen d hd, gen e he]

end MshIO
