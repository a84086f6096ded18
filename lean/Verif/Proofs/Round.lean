import Mathlib.Algebra.Order.Archimedean.Basic
import Mathlib.Data.Rat.Floor
import Mathlib.Tactic.Linarith
import Mathlib.Tactic.FieldSimp
import Mathlib.Tactic.Positivity
import Mathlib.Tactic.NormNum
import Mathlib.Tactic.Ring
import Verif.Model.Dbl

/-!
# Rounding: `rne`, `magOfRat`, `sigDigits`
-/

namespace MshIO

/-! ## Nearest integer -/

/-- `n` is the integer nearest to `x`, ties to even. -/
structure IsRne (x : ℚ) (n : ℕ) : Prop where
  up : x ≤ n + 1 / 2
  down : (n : ℚ) - 1 / 2 ≤ x
  tieUp : x = n + 1 / 2 → n % 2 = 0
  tieDown : x = (n : ℚ) - 1 / 2 → n % 2 = 0

theorem isRne_rne (a : ℕ) {b : ℕ} (hb : 0 < b) : IsRne ((a : ℚ) / b) (rne a b) := by
  have hbq : (0 : ℚ) < b := by exact_mod_cast hb
  have hdiv : (a : ℚ) = b * (a / b : ℕ) + (a % b : ℕ) := by exact_mod_cast (Nat.div_add_mod a b).symm
  have hx : (a : ℚ) / b = (a / b : ℕ) + ((a % b : ℕ) : ℚ) / b := by
    rw [eq_comm, ← sub_eq_zero]; field_simp; linarith
  have hlt : ((a % b : ℕ) : ℚ) < b := by exact_mod_cast Nat.mod_lt a hb
  set q := a / b
  set r := a % b
  have hr0 : (0 : ℚ) ≤ (r : ℚ) / b := by positivity
  have hr1 : (r : ℚ) / b < 1 := (div_lt_one hbq).mpr hlt
  rw [hx]
  unfold rne
  show IsRne _ (if 2 * r < b then q else if b < 2 * r then q + 1 else if q % 2 = 0 then q else q + 1)
  by_cases h1 : 2 * r < b
  · have : (r : ℚ) / b < 1 / 2 := by
      rw [div_lt_div_iff₀ hbq (by norm_num)]; have : (2 * r : ℚ) < b := by exact_mod_cast h1
      linarith
    rw [if_pos h1]
    exact ⟨by linarith, by linarith, fun h => by linarith, fun h => by linarith⟩
  · rw [if_neg h1]
    by_cases h2 : b < 2 * r
    · have : 1 / 2 < (r : ℚ) / b := by
        rw [div_lt_div_iff₀ (by norm_num) hbq]; have : (b : ℚ) < 2 * r := by exact_mod_cast h2
        linarith
      rw [if_pos h2]
      refine ⟨by push_cast; linarith, by push_cast; linarith, fun h => ?_, fun h => ?_⟩ <;>
        (push_cast at h; linarith)
    · have : (r : ℚ) / b = 1 / 2 := by
        rw [div_eq_div_iff hbq.ne' (by norm_num)]
        have : 2 * r = b := by omega
        have : (2 * r : ℚ) = b := by exact_mod_cast this
        linarith
      rw [if_neg h2]
      by_cases h3 : q % 2 = 0
      · rw [if_pos h3]; exact ⟨by linarith, by linarith, fun _ => h3, fun _ => h3⟩
      · rw [if_neg h3]
        exact ⟨by push_cast; linarith, by push_cast; linarith, fun _ => by omega, fun _ => by omega⟩

theorem IsRne.mono {x y : ℚ} {n m : ℕ} (hn : IsRne x n) (hm : IsRne y m) (h : x ≤ y) : n ≤ m := by
  by_contra hlt
  have h1 : (m : ℚ) + 1 ≤ n := by exact_mod_cast (by omega : m + 1 ≤ n)
  have e1 := hn.down
  have e2 := hm.up
  have ex : x = (n : ℚ) - 1 / 2 := by linarith
  have ey : y = (m : ℚ) + 1 / 2 := by linarith
  have p1 := hn.tieDown ex
  have p2 := hm.tieUp ey
  have : (n : ℚ) = m + 1 := by linarith
  have : n = m + 1 := by exact_mod_cast this
  omega

theorem IsRne.unique {x : ℚ} {n m : ℕ} (hn : IsRne x n) (hm : IsRne x m) : n = m :=
  le_antisymm (hn.mono hm le_rfl) (hm.mono hn le_rfl)

theorem isRne_nat (n : ℕ) : IsRne n n :=
  ⟨by linarith, by linarith, fun h => by linarith, fun h => by linarith⟩

theorem isRne_of_lt {x : ℚ} {n : ℕ} (h1 : x < n + 1 / 2) (h2 : (n : ℚ) - 1 / 2 < x) : IsRne x n :=
  ⟨h1.le, h2.le, fun h => by linarith, fun h => by linarith⟩

/-! ## Magnitudes of doubles -/

/-- `m` are the magnitude bits of the double nearest to `x * 2^-1074`: the binade of `x` has spacing
`2^k`. -/
structure IsMag (x : ℚ) (m : ℕ) : Prop where
  ex : ∃ k r, m = k * 2 ^ 52 + r ∧ IsRne (x / 2 ^ k) r ∧ x < 2 ^ (53 + k) ∧ (k = 0 ∨ (2 : ℚ) ^ (52 + k) ≤ x)

theorem isMag_magOfRat (num : ℕ) {den : ℕ} (hd : 0 < den) :
    IsMag ((num : ℚ) / den * 2 ^ 1074) (magOfRat num den) := by
  have hdq : (0 : ℚ) < den := by exact_mod_cast hd
  refine ⟨⟨Nat.log2 (num * 2 ^ 1074 / den) - 52, _, rfl, ?_, ?_, ?_⟩⟩
  · have := isRne_rne (num * 2 ^ 1074) (b := den * 2 ^ (Nat.log2 (num * 2 ^ 1074 / den) - 52)) (by positivity)
    convert this using 1
    push_cast
    field_simp
  all_goals
    have hx : (num : ℚ) / den * 2 ^ 1074 = ((num * 2 ^ 1074 : ℕ) : ℚ) / den := by
      push_cast; field_simp
    rw [hx]
    set N := num * 2 ^ 1074
  · set q := N / den with hq
    have h1 : N < (q + 1) * den := by
      rw [hq, Nat.mul_comm]; exact Nat.lt_mul_div_succ N hd
    have h2 : q + 1 ≤ 2 ^ (53 + (Nat.log2 q - 52)) := by
      by_cases h0 : q = 0
      · rw [h0]; exact Nat.one_le_two_pow
      · have := (Nat.log2_lt h0 (k := Nat.log2 q + 1)).mp (by omega)
        calc q + 1 ≤ 2 ^ (Nat.log2 q + 1) := this
          _ ≤ _ := Nat.pow_le_pow_right (by norm_num) (by omega)
    rw [div_lt_iff₀ hdq]
    have : N < 2 ^ (53 + (Nat.log2 q - 52)) * den := lt_of_lt_of_le h1 (Nat.mul_le_mul_right _ h2)
    exact_mod_cast this
  · set q := N / den with hq
    by_cases hk : Nat.log2 q - 52 = 0
    · exact Or.inl hk
    · right
      have h0 : q ≠ 0 := by intro h; rw [h] at hk; simp at hk
      have h1 := Nat.log2_self_le h0
      have h2 : 52 + (Nat.log2 q - 52) = Nat.log2 q := by omega
      rw [h2, le_div_iff₀ hdq]
      have : 2 ^ Nat.log2 q * den ≤ N :=
        le_trans (Nat.mul_le_mul_right _ h1) (by rw [hq]; exact Nat.div_mul_le_self N den)
      exact_mod_cast this

theorem IsMag.r_bounds {x : ℚ} {k r : ℕ} (h : IsRne (x / 2 ^ k) r) (h1 : x < 2 ^ (53 + k))
    (h2 : k = 0 ∨ (2 : ℚ) ^ (52 + k) ≤ x) : r ≤ 2 ^ 53 ∧ (k = 0 ∨ 2 ^ 52 ≤ r) := by
  have hp : (0 : ℚ) < 2 ^ k := by positivity
  constructor
  · refine h.mono (m := 2 ^ 53) (y := ((2 ^ 53 : ℕ) : ℚ)) (isRne_nat _) ?_
    rw [div_le_iff₀ hp]; push_cast
    rw [pow_add] at h1; exact h1.le
  · rcases h2 with h2 | h2
    · exact Or.inl h2
    · right
      refine (isRne_nat (2 ^ 52)).mono h ?_
      rw [le_div_iff₀ hp]; push_cast
      rw [pow_add] at h2; exact h2

theorem IsMag.mono {x y : ℚ} {m n : ℕ} (hm : IsMag x m) (hn : IsMag y n) (h : x ≤ y) : m ≤ n := by
  obtain ⟨k, r, rfl, hr, hx1, hx2⟩ := hm
  obtain ⟨l, s, rfl, hs, hy1, hy2⟩ := hn
  obtain ⟨b1, b2⟩ := IsMag.r_bounds hr hx1 hx2
  obtain ⟨c1, c2⟩ := IsMag.r_bounds hs hy1 hy2
  rcases lt_trichotomy k l with hkl | hkl | hkl
  · have : 2 ^ 52 ≤ s := by rcases c2 with c2 | c2 <;> omega
    have : (k + 1) * 2 ^ 52 ≤ l * 2 ^ 52 := Nat.mul_le_mul_right _ hkl
    omega
  · subst hkl
    have := hr.mono hs (by gcongr)
    omega
  · exfalso
    rcases hx2 with h0 | hx2
    · omega
    · have : (2 : ℚ) ^ (53 + l) ≤ 2 ^ (52 + k) := pow_le_pow_right₀ (by norm_num) (by omega)
      linarith

theorem IsMag.unique {x : ℚ} {m n : ℕ} (hm : IsMag x m) (hn : IsMag x n) : m = n :=
  le_antisymm (hm.mono hn le_rfl) (hn.mono hm le_rfl)

/-- Spacing exponent of the binade above magnitude `b`. -/
def binade (b : ℕ) : ℕ := b / 2 ^ 52 - 1

theorem unitsOfMag_eq (b : ℕ) : Double.unitsOfMag b = (b - binade b * 2 ^ 52) * 2 ^ binade b := by
  unfold Double.unitsOfMag binade
  by_cases h : b / 2 ^ 52 = 0
  · rw [if_pos h, h]; simp; omega
  · rw [if_neg h]
    congr 1
    omega

theorem unitsOfMag_add {k r : ℕ} (h1 : r ≤ 2 ^ 53) (h2 : k = 0 ∨ 2 ^ 52 ≤ r) :
    Double.unitsOfMag (k * 2 ^ 52 + r) = r * 2 ^ k := by
  unfold Double.unitsOfMag
  by_cases hr : r < 2 ^ 52
  · have hk : k = 0 := by omega
    subst hk
    rw [if_pos (by omega)]; simp; omega
  · by_cases h53 : r = 2 ^ 53
    · subst h53
      have e1 : (k * 2 ^ 52 + 2 ^ 53) / 2 ^ 52 = k + 2 := by omega
      have e2 : (k * 2 ^ 52 + 2 ^ 53) % 2 ^ 52 = 0 := by omega
      rw [e1, e2, if_neg (by omega)]
      have : k + 2 - 1 = k + 1 := by omega
      rw [this, pow_succ]; ring
    · have e1 : (k * 2 ^ 52 + r) / 2 ^ 52 = k + 1 := by omega
      have e2 : (k * 2 ^ 52 + r) % 2 ^ 52 = r - 2 ^ 52 := by omega
      rw [e1, e2, if_neg (by omega)]
      congr 1; omega

theorem mag_split (b : ℕ) : ∃ k r, b = k * 2 ^ 52 + r ∧ k = binade b ∧ r < 2 ^ 53 ∧ (k = 0 ∨ 2 ^ 52 ≤ r) := by
  refine ⟨binade b, b - binade b * 2 ^ 52, ?_, rfl, ?_, ?_⟩ <;> unfold binade <;> omega

theorem units_succ (b : ℕ) : Double.unitsOfMag (b + 1) = Double.unitsOfMag b + 2 ^ binade b := by
  obtain ⟨k, r, e, hk, h1, h2⟩ := mag_split b
  rw [← hk, e, unitsOfMag_add h1.le h2, Nat.add_assoc, unitsOfMag_add (by omega) (by omega)]
  ring

theorem units_lt {a b : ℕ} (h : a < b) : Double.unitsOfMag a < Double.unitsOfMag b := by
  induction b with
  | zero => omega
  | succ b ih =>
    rw [units_succ]
    have hp : 0 < 2 ^ binade b := Nat.two_pow_pos _
    rcases Nat.lt_succ_iff_lt_or_eq.mp h with h | h
    · have := ih h; omega
    · subst h; omega

theorem units_le_iff {a b : ℕ} : Double.unitsOfMag a ≤ Double.unitsOfMag b ↔ a ≤ b := by
  constructor
  · intro h; by_contra hc; have := units_lt (a := b) (b := a) (by omega); omega
  · intro h; rcases Nat.eq_or_lt_of_le h with h | h
    · rw [h]
    · exact (units_lt h).le

theorem units_inj {a b : ℕ} (h : Double.unitsOfMag a = Double.unitsOfMag b) : a = b :=
  le_antisymm (units_le_iff.mp h.le) (units_le_iff.mp h.ge)

/-- A representable number is its own nearest double. -/
theorem isMag_units (b : ℕ) : IsMag (Double.unitsOfMag b) b := by
  obtain ⟨k, r, e, hk, h1, h2⟩ := mag_split b
  refine ⟨⟨k, r, e, ?_, ?_, ?_⟩⟩
  · rw [e, unitsOfMag_add h1.le h2]
    push_cast
    rw [mul_div_assoc, div_self (by positivity), mul_one]
    exact isRne_nat r
  · rw [e, unitsOfMag_add h1.le h2, pow_add]
    have : r * 2 ^ k < 2 ^ 53 * 2 ^ k := Nat.mul_lt_mul_of_pos_right h1 (Nat.two_pow_pos k)
    exact_mod_cast this
  · rcases h2 with h2 | h2
    · exact Or.inl h2
    · right
      rw [e, unitsOfMag_add h1.le (Or.inr h2), pow_add]
      have : 2 ^ 52 * 2 ^ k ≤ r * 2 ^ k := Nat.mul_le_mul_right _ h2
      exact_mod_cast this

/-- The binade used for rounding `x` is the one of the representable number below `x`. -/
theorem IsMag.err {x : ℚ} {m b : ℕ} (h : IsMag x m) (h1 : (Double.unitsOfMag b : ℚ) ≤ x)
    (h2 : x < (Double.unitsOfMag (b + 1) : ℚ)) :
    (Double.unitsOfMag m : ℚ) - x ≤ 2 ^ binade b / 2 ∧ x - Double.unitsOfMag m ≤ 2 ^ binade b / 2 := by
  obtain ⟨k, r, rfl, hr, hx1, hx2⟩ := h
  obtain ⟨b1, b2⟩ := IsMag.r_bounds hr hx1 hx2
  rw [unitsOfMag_add b1 b2]
  obtain ⟨l, s, e, hl, c1, c2⟩ := mag_split b
  have hkl : k = l := by
    rw [e, unitsOfMag_add c1.le c2] at h1
    rw [e, Nat.add_assoc, unitsOfMag_add (by omega) (by omega)] at h2
    push_cast at h1 h2
    have hs1 : (s : ℚ) + 1 ≤ 2 ^ 53 := by exact_mod_cast c1
    have hpl : (0 : ℚ) < 2 ^ l := by positivity
    have hpk : (0 : ℚ) < 2 ^ k := by positivity
    rcases lt_trichotomy k l with hkl | hkl | hkl
    · exfalso
      have : 2 ^ 52 ≤ s := by omega
      have hs : (2 : ℚ) ^ 52 ≤ s := by exact_mod_cast this
      have : (2 : ℚ) ^ (53 + k) ≤ 2 ^ (52 + l) := pow_le_pow_right₀ (by norm_num) (by omega)
      rw [pow_add _ 52 l] at this
      nlinarith
    · exact hkl
    · exfalso
      rcases hx2 with h0 | hx2
      · omega
      · have : (2 : ℚ) ^ (53 + l) ≤ 2 ^ (52 + k) := pow_le_pow_right₀ (by norm_num) (by omega)
        rw [pow_add _ 53 l] at this
        nlinarith
  rw [← hl, ← hkl]
  have hp : (0 : ℚ) < 2 ^ k := by positivity
  have e1 := hr.up
  have e2 := hr.down
  rw [div_le_iff₀ hp] at e1
  rw [le_div_iff₀ hp] at e2
  push_cast
  constructor <;> nlinarith

theorem exists_floor_mag (x : ℚ) (hx : 0 ≤ x) : ∃ b, (Double.unitsOfMag b : ℚ) ≤ x ∧
    x < (Double.unitsOfMag (b + 1) : ℚ) := by
  have hub : ∀ b, b ≤ Double.unitsOfMag b := by
    intro b
    induction b with
    | zero => exact Nat.zero_le _
    | succ b ih => rw [units_succ]; have : 0 < 2 ^ binade b := Nat.two_pow_pos _; omega
  obtain ⟨n, hn⟩ := exists_nat_gt x
  have hex : ∃ b, x < (Double.unitsOfMag (b + 1) : ℚ) := ⟨n, lt_of_lt_of_le hn (by
    have := hub (n + 1); exact_mod_cast (by omega : n ≤ Double.unitsOfMag (n + 1)))⟩
  classical
  refine ⟨Nat.find hex, ?_, Nat.find_spec hex⟩
  cases hf : Nat.find hex with
  | zero => simp [Double.unitsOfMag]; exact hx
  | succ b =>
    have := Nat.find_min hex (m := b) (by omega)
    exact not_lt.mp this

/-- Below the midpoint of two neighbours the lower one (or something smaller) is chosen. -/
theorem IsMag.le_of_lt_mid {x : ℚ} {m b : ℕ} (h : IsMag x m)
    (hx : x < ((Double.unitsOfMag b : ℚ) + Double.unitsOfMag (b + 1)) / 2) : m ≤ b := by
  have hb : (Double.unitsOfMag (b + 1) : ℚ) = Double.unitsOfMag b + 2 ^ binade b := by
    rw [units_succ]; push_cast; ring
  have hp : (0 : ℚ) < 2 ^ binade b := by positivity
  by_cases h1 : (Double.unitsOfMag b : ℚ) ≤ x
  · by_contra hc
    have e := (h.err h1 (by linarith)).1
    have : Double.unitsOfMag (b + 1) ≤ Double.unitsOfMag m := units_le_iff.mpr (by omega)
    have : (Double.unitsOfMag (b + 1) : ℚ) ≤ Double.unitsOfMag m := by exact_mod_cast this
    linarith
  · exact h.mono (isMag_units b) (not_le.mp h1).le

/-- Above the midpoint of two neighbours the upper one (or something larger) is chosen. -/
theorem IsMag.gt_of_mid_lt {x : ℚ} {m b : ℕ} (h : IsMag x m)
    (hx : ((Double.unitsOfMag b : ℚ) + Double.unitsOfMag (b + 1)) / 2 < x) : b + 1 ≤ m := by
  have hb : (Double.unitsOfMag (b + 1) : ℚ) = Double.unitsOfMag b + 2 ^ binade b := by
    rw [units_succ]; push_cast; ring
  have hp : (0 : ℚ) < 2 ^ binade b := by positivity
  by_cases h1 : x < (Double.unitsOfMag (b + 1) : ℚ)
  · by_contra hc
    have e := (h.err (by linarith) h1).2
    have : Double.unitsOfMag m ≤ Double.unitsOfMag b := units_le_iff.mpr (by omega)
    have : (Double.unitsOfMag m : ℚ) ≤ Double.unitsOfMag b := by exact_mod_cast this
    linarith
  · exact (isMag_units (b + 1)).mono h (not_lt.mp h1)

/-- The result is a nearest magnitude. -/
theorem IsMag.nearest {x : ℚ} {m : ℕ} (h : IsMag x m) (c : ℕ) :
    |(Double.unitsOfMag m : ℚ) - x| ≤ |(Double.unitsOfMag c : ℚ) - x| := by
  rcases lt_trichotomy c m with hc | hc | hc
  · -- smaller candidate
    obtain ⟨m', rfl⟩ : ∃ m', m = m' + 1 := ⟨m - 1, by omega⟩
    have hmid : ((Double.unitsOfMag m' : ℚ) + Double.unitsOfMag (m' + 1)) / 2 ≤ x := by
      by_contra hh
      have := h.le_of_lt_mid (not_le.mp hh)
      omega
    have hle : (Double.unitsOfMag c : ℚ) ≤ Double.unitsOfMag m' := by
      exact_mod_cast units_le_iff.mpr (by omega : c ≤ m')
    have hlt : (Double.unitsOfMag m' : ℚ) < Double.unitsOfMag (m' + 1) := by
      exact_mod_cast units_lt (by omega)
    rw [abs_le]
    have : |(Double.unitsOfMag c : ℚ) - x| = x - Double.unitsOfMag c := by
      rw [abs_of_nonpos (by linarith)]; ring
    rw [this]
    constructor <;> linarith
  · rw [hc]
  · have hmid : x ≤ ((Double.unitsOfMag m : ℚ) + Double.unitsOfMag (m + 1)) / 2 := by
      by_contra hh
      have := h.gt_of_mid_lt (not_le.mp hh)
      omega
    have hle : (Double.unitsOfMag (m + 1) : ℚ) ≤ Double.unitsOfMag c := by
      exact_mod_cast units_le_iff.mpr (by omega : m + 1 ≤ c)
    have hlt : (Double.unitsOfMag m : ℚ) < Double.unitsOfMag (m + 1) := by
      exact_mod_cast units_lt (by omega)
    rw [abs_le]
    have : |(Double.unitsOfMag c : ℚ) - x| = Double.unitsOfMag c - x := by
      rw [abs_of_nonneg (by linarith)]
    rw [this]
    constructor <;> linarith

end MshIO
