import Verif.Spec.Text
import Verif.Proofs.Binary22
import Verif.Proofs.Numeral
import Verif.Proofs.NumeralText
import Verif.Proofs.Quoted

/-!
# Reading from any text

The extractions of the model do what `Verif/Spec/Text.lean` says.
-/

namespace MshIO

/-- The stream is at the place. -/
def Cur : Place → Stream → Prop
  | .on r, st => st.rem = r ∧ st.fail = false ∧ (st.eof = true → r = [])
  | .stuck, st => st.fail = true ∧ st.eof = false
  | .ended, st => st.fail = true ∧ st.eof = true

/-- The stream is at the place and knows whether that is the end of the file. -/
def At : Place → Stream → Prop
  | .on r, st => st = payload r
  | .stuck, st => st.fail = true ∧ st.eof = false
  | .ended, st => st.fail = true ∧ st.eof = true

theorem At.cur {x : Place} {st : Stream} (h : At x st) : Cur x st := by
  cases x with
  | on r => cases h; exact ⟨rfl, rfl, List.isEmpty_iff.mp⟩
  | stuck => exact h
  | ended => exact h

theorem At.exists (x : Place) : ∃ st, At x st := by
  cases x with
  | on r => exact ⟨_, rfl⟩
  | stuck => exact ⟨⟨[], false, true⟩, rfl, rfl⟩
  | ended => exact ⟨⟨[], true, true⟩, rfl, rfl⟩

theorem Cur.unique {x y : Place} {st : Stream} (h : Cur x st) (h' : Cur y st) : x = y := by
  cases x <;> cases y <;> simp_all [Cur]

theorem fell_at {r : Bytes} {y : Place} (h : Place.Fell r y) : At y ⟨r, r.isEmpty, true⟩ := by
  cases h with
  | stuck => exact ⟨rfl, rfl⟩
  | ended => exact ⟨rfl, rfl⟩

theorem fell_exists (r : Bytes) : ∃ y, Place.Fell r y := by
  cases r with
  | nil => exact ⟨_, .ended⟩
  | cons c r => exact ⟨_, .stuck⟩

theorem blank_or (r : Bytes) : Blank r ∨ ∃ lead c t, r = lead ++ c :: t ∧ Blank lead ∧ isSpace c = false := by
  induction r with
  | nil => exact Or.inl fun _ h => by cases h
  | cons c r ih =>
    cases hc : isSpace c with
    | false => exact Or.inr ⟨[], c, r, rfl, (fun _ h => by cases h), hc⟩
    | true =>
      have cons : ∀ {l : Bytes}, Blank l → Blank (c :: l) := fun hl d hd => by
        rcases List.mem_cons.mp hd with rfl | hd
        · exact hc
        · exact hl d hd
      rcases ih with h | ⟨lead, d, t, rfl, hl, hd⟩
      · exact Or.inl (cons h)
      · exact Or.inr ⟨c :: lead, d, t, rfl, cons hl, hd⟩

/-! ## The sentry -/

theorem sentry_on {r lead : Bytes} {c : UInt8} {t : Bytes} {st : Stream} (h : Cur (.on r) st) (e : r = lead ++ c :: t) (hl : Blank lead)
    (hc : isSpace c = false) : sentry st = (true, gs (c :: t)) := by
  obtain ⟨rem, eof, fail⟩ := st
  obtain ⟨h1, h2, h3⟩ := h
  have h1 : rem = r := h1
  have h2 : fail = false := h2
  have h4 : eof = false := by
    cases he : eof with
    | false => rfl
    | true => have := h3 he; rw [this] at e; cases lead <;> cases e
  rw [h1, h2, h4, e]
  exact sentry_gs hl hc

theorem sentry_on_blank {r : Bytes} {st : Stream} (h : Cur (.on r) st) (hr : Blank r) : ∃ st', sentry st = (false, st') ∧ At .ended st' := by
  obtain ⟨rem, eof, fail⟩ := st
  obtain ⟨h1, h2, h3⟩ := h
  have h1 : rem = r := h1
  have h2 : fail = false := h2
  rw [h1, h2]
  unfold sentry
  cases eof with
  | false =>
    have e : r.dropWhile isSpace = [] := List.dropWhile_eq_nil_iff.mpr hr
    rw [if_pos (by rfl)]
    simp only [e]
    exact ⟨_, rfl, rfl, rfl⟩
  | true => exact ⟨_, rfl, rfl, rfl⟩

theorem sentry_stuck {st : Stream} (h : Cur .stuck st) : sentry st = (false, st) := by
  obtain ⟨rem, eof, fail⟩ := st
  obtain ⟨h1, h2⟩ := h
  have h1 : fail = true := h1
  have h2 : eof = false := h2
  rw [h1, h2]
  rfl

theorem sentry_ended {st : Stream} (h : Cur .ended st) : sentry st = (false, st) := by
  obtain ⟨rem, eof, fail⟩ := st
  obtain ⟨h1, h2⟩ := h
  have h1 : fail = true := h1
  have h2 : eof = true := h2
  rw [h1, h2]
  rfl

/-! ## Integers -/

theorem scanSign_none {t : Bytes} (h : ∀ c ∈ t.head?, c ≠ 45 ∧ c ≠ 43) : scanSign t = (false, t) := by
  unfold scanSign
  split
  · exact absurd rfl (h 45 rfl).1
  · exact absurd rfl (h 43 rfl).2
  · rfl

theorem scanSign_signText {s : Option Bool} {t : Bytes} (h : s = none → ∀ c ∈ t.head?, c ≠ 45 ∧ c ≠ 43) :
    scanSign (signText s ++ t) = (s == some true, t) := by
  match s with
  | none => exact scanSign_none (h rfl)
  | some true => rfl
  | some false => rfl

/-- What `StartsInt` leaves after white space. -/
theorem StartsInt.scan {r : Bytes} {s : Option Bool} {ds : List (Fin 10)} {r' : Bytes} (h : StartsInt r s ds r') :
    ∃ lead c t, r = lead ++ c :: t ∧ Blank lead ∧ isSpace c = false ∧ scanInt (c :: t) = (s == some true, digitsText ds, r') := by
  obtain ⟨lead, rfl, hl, hd, hn⟩ := h
  have hh : s = none → ∃ c ∈ (digitsText ds ++ r').head?, isSpace c = false ∧ c ≠ 45 ∧ c ≠ 43 := by
    intro hs
    cases ds with
    | nil =>
      obtain ⟨c, hc, h1, h2, h3⟩ := hn hs rfl
      exact ⟨c, hc, h1, (fun e => h3 (by rw [e])), fun e => h2 (by rw [e])⟩
    | cons d ds =>
      have := isDigit_ofNat d.isLt
      refine ⟨_, rfl, isSpace_of_isDigit this, digit_not_sign this⟩
  have hsc : scanInt (signText s ++ (digitsText ds ++ r')) = (s == some true, digitsText ds, r') := by
    unfold scanInt
    rw [scanSign_signText]
    · obtain ⟨t1, t2⟩ := takeWhile_digits (ds := digitsText ds) (rest := r') (digitsText_digits ds) (fun c r e => hd c (by rw [e]; rfl))
      simp only [t1, t2]
    · intro hs c hc
      obtain ⟨c', hc', _, h2⟩ := hh hs
      rw [hc] at hc'; cases hc'
      exact h2
  match s, hh, hsc with
  | some true, _, hsc => exact ⟨lead, 45, _, rfl, hl, by decide, hsc⟩
  | some false, _, hsc => exact ⟨lead, 43, _, rfl, hl, by decide, hsc⟩
  | none, hh, hsc =>
    obtain ⟨c, hc, h1, _⟩ := hh rfl
    generalize digitsText ds ++ r' = t at *
    cases t with
    | nil => cases hc
    | cons c' t => cases hc; exact ⟨lead, c, t, rfl, hl, h1, hsc⟩

theorem startsInt_exists {r : Bytes} (h : ¬ Blank r) : ∃ s ds r', StartsInt r s ds r' := by
  obtain ⟨lead, c, t, rfl, hl, hc⟩ := (blank_or r).resolve_left h
  have key : ∀ s u, c :: t = signText s ++ u → (s = none → ∃ d ∈ u.head?, isSpace d = false ∧ [d] ≠ b! "+" ∧ [d] ≠ b! "-") →
      ∃ s ds r', StartsInt (lead ++ c :: t) s ds r' := by
    intro s u e hu
    obtain ⟨ds, hds⟩ := exists_digits (ds := u.takeWhile isDigit) (fun c hc => (List.mem_takeWhile_imp hc))
    refine ⟨s, ds, u.dropWhile isDigit, lead, ?_, hl, ?_, ?_⟩
    · rw [← hds, List.takeWhile_append_dropWhile, e]
    · intro d hd
      have := List.head?_dropWhile_not isDigit u
      rw [hd] at this
      simpa using this
    · intro hs hn
      have : u.dropWhile isDigit = u := by
        have e2 := List.takeWhile_append_dropWhile (p := isDigit) (l := u)
        rw [hds, hn] at e2
        exact e2
      rw [this]
      exact hu hs
  by_cases h1 : c = 45
  · exact key (some true) t (by rw [h1]; rfl) (by simp)
  by_cases h2 : c = 43
  · exact key (some false) t (by rw [h2]; rfl) (by simp)
  exact key none (c :: t) rfl fun _ => ⟨c, rfl, hc, (fun e => h2 (by injection e)), fun e => h1 (by injection e)⟩

/-- An extraction with a result follows its specification. -/
structure Yields {α : Type} (m : Rd α) (R : Place → α → Place → Prop) : Prop where
  sound : ∀ {x v y st}, R x v y → Cur x st → ∃ st', m st = .ok (v, st') ∧ At y st'
  total : ∀ x, ∃ v y, R x v y

private theorem extractSize_of {st : Stream} {lead : Bytes} {c : UInt8} {t r : Bytes} {neg : Bool} {ds r' : Bytes} (h : Cur (.on r) st) (e : r = lead ++ c :: t) (hl : Blank lead)
    (hc : isSpace c = false) (hs : scanInt (c :: t) = (neg, ds, r')) :
    extractSize st = .ok (some (convertU64 neg ds).1, ⟨r', r'.isEmpty, (convertU64 neg ds).2⟩) := by
  unfold extractSize
  rw [sentry_on h e hl hc]
  simp only [hs]

private theorem extractInt_of {st : Stream} {lead : Bytes} {c : UInt8} {t r : Bytes} {neg : Bool} {ds r' : Bytes} (h : Cur (.on r) st) (e : r = lead ++ c :: t) (hl : Blank lead)
    (hc : isSpace c = false) (hs : scanInt (c :: t) = (neg, ds, r')) :
    extractInt st = .ok (some (convertI32 neg ds).1, ⟨r', r'.isEmpty, (convertI32 neg ds).2⟩) := by
  unfold extractInt
  rw [sentry_on h e hl hc]
  simp only [hs]

theorem digitsValue_nil : digitsValue [] = 0 := rfl

theorem convertU64_number {s : Option Bool} {ds : List (Fin 10)} (hd : ds ≠ []) (hv : digitsValue ds < 2 ^ 64) :
    convertU64 (s == some true) (digitsText ds) = (UInt64.ofInt (signValue s * digitsValue ds), false) := by
  unfold convertU64
  rw [digitsText_isEmpty, List.isEmpty_eq_false_iff.mpr hd, natOfDigits_digitsText, if_neg (by simp), if_neg (by omega)]
  have e : UInt64.ofInt (digitsValue ds : Int) = UInt64.ofNat (digitsValue ds) := by
    apply UInt64.toNat_inj.mp
    unfold UInt64.ofInt
    rw [UInt64.toNat_ofNat', UInt64.toNat_ofNat']
    omega
  match s with
  | none => simp [signValue, e]
  | some false => simp [signValue, e]
  | some true => simp [signValue, e]

theorem convertU64_large {neg : Bool} {ds : List (Fin 10)} (hv : 2 ^ 64 ≤ digitsValue ds) :
    convertU64 neg (digitsText ds) = (18446744073709551615, true) := by
  unfold convertU64
  have hd : ds ≠ [] := by rintro rfl; exact absurd hv (by decide)
  rw [digitsText_isEmpty, List.isEmpty_eq_false_iff.mpr hd, natOfDigits_digitsText, if_neg (by simp), if_pos (by omega)]
  rfl

theorem signValue_neg (s : Option Bool) (n : Nat) : (if (s == some true) = true then -(n : Int) else n) = signValue s * n := by
  match s with
  | none => simp [signValue]
  | some false => simp [signValue]
  | some true => simp [signValue]

theorem convertI32_cases {s : Option Bool} {ds : List (Fin 10)} (hd : ds ≠ []) : convertI32 (s == some true) (digitsText ds) =
    if signValue s * digitsValue ds < -(2 ^ 31) then (Int32.ofInt (-(2 ^ 31)), true)
    else if 2 ^ 31 ≤ signValue s * digitsValue ds then (Int32.ofInt (2 ^ 31 - 1), true) else (Int32.ofInt (signValue s * digitsValue ds), false) := by
  unfold convertI32
  rw [digitsText_isEmpty, List.isEmpty_eq_false_iff.mpr hd, natOfDigits_digitsText, if_neg (by simp)]
  simp only [signValue_neg]

theorem lost_size {st st' : Stream} (h : sentry st = (false, st')) : extractSize st = .ok (none, st') := by
  unfold extractSize; rw [h]

theorem lost_int {st st' : Stream} (h : sentry st = (false, st')) : extractInt st = .ok (none, st') := by
  unfold extractInt; rw [h]

theorem extractSize_yields : Yields extractSize TakesSize where
  sound := by
    intro x v y st h hc
    cases h with
    | @number r s ds r' hs hd hv =>
      obtain ⟨lead, c, t, e, hl, hc', hsc⟩ := hs.scan
      refine ⟨payload r', ?_, rfl⟩
      rw [extractSize_of hc e hl hc' hsc, convertU64_number hd hv]
      rfl
    | @large r s ds r' y hs hv hf =>
      obtain ⟨lead, c, t, e, hl, hc', hsc⟩ := hs.scan
      refine ⟨_, ?_, fell_at hf⟩
      rw [extractSize_of hc e hl hc' hsc, convertU64_large hv]
    | @word r s r' y hs hf =>
      obtain ⟨lead, c, t, e, hl, hc', hsc⟩ := hs.scan
      exact ⟨_, extractSize_of hc e hl hc' hsc, fell_at hf⟩
    | @blank r hb =>
      obtain ⟨st', h1, h2⟩ := sentry_on_blank hc hb
      exact ⟨st', lost_size h1, h2⟩
    | stuck => exact ⟨st, lost_size (sentry_stuck hc), hc⟩
    | ended => exact ⟨st, lost_size (sentry_ended hc), hc⟩
  total := by
    intro x
    cases x with
    | stuck => exact ⟨_, _, .stuck⟩
    | ended => exact ⟨_, _, .ended⟩
    | on r =>
      by_cases hb : Blank r
      · exact ⟨_, _, .blank hb⟩
      obtain ⟨s, ds, r', hs⟩ := startsInt_exists hb
      obtain ⟨y, hy⟩ := fell_exists r'
      by_cases hd : ds = []
      · subst hd; exact ⟨_, _, .word hs hy⟩
      by_cases hv : digitsValue ds < 2 ^ 64
      · exact ⟨_, _, .number hs hd hv⟩
      · exact ⟨_, _, .large hs (by omega) hy⟩

theorem extractInt_yields : Yields extractInt TakesInt where
  sound := by
    intro x v y st h hc
    cases h with
    | @number r s ds r' v hs hd hv =>
      obtain ⟨lead, c, t, e, hl, hc', hsc⟩ := hs.scan
      refine ⟨payload r', ?_, rfl⟩
      have h1 := v.le_toInt
      have h2 := v.toInt_lt
      rw [extractInt_of hc e hl hc' hsc, convertI32_cases hd, ← hv, if_neg (by omega), if_neg (by omega), Int32.ofInt_toInt]
      rfl
    | @small r s ds r' y hs hv hf =>
      obtain ⟨lead, c, t, e, hl, hc', hsc⟩ := hs.scan
      refine ⟨_, ?_, fell_at hf⟩
      have hd : ds ≠ [] := by rintro rfl; rw [digitsValue_nil] at hv; simp at hv
      rw [extractInt_of hc e hl hc' hsc, convertI32_cases hd, if_pos (by omega)]
      rfl
    | @large r s ds r' y hs hv hf =>
      obtain ⟨lead, c, t, e, hl, hc', hsc⟩ := hs.scan
      refine ⟨_, ?_, fell_at hf⟩
      have hd : ds ≠ [] := by rintro rfl; rw [digitsValue_nil] at hv; simp at hv
      rw [extractInt_of hc e hl hc' hsc, convertI32_cases hd, if_neg (by omega), if_pos (by omega)]
      rfl
    | @word r s r' y hs hf =>
      obtain ⟨lead, c, t, e, hl, hc', hsc⟩ := hs.scan
      exact ⟨_, extractInt_of hc e hl hc' hsc, fell_at hf⟩
    | @blank r hb =>
      obtain ⟨st', h1, h2⟩ := sentry_on_blank hc hb
      exact ⟨st', lost_int h1, h2⟩
    | stuck => exact ⟨st, lost_int (sentry_stuck hc), hc⟩
    | ended => exact ⟨st, lost_int (sentry_ended hc), hc⟩
  total := by
    intro x
    cases x with
    | stuck => exact ⟨_, _, .stuck⟩
    | ended => exact ⟨_, _, .ended⟩
    | on r =>
      by_cases hb : Blank r
      · exact ⟨_, _, .blank hb⟩
      obtain ⟨s, ds, r', hs⟩ := startsInt_exists hb
      obtain ⟨y, hy⟩ := fell_exists r'
      by_cases hd : ds = []
      · subst hd; exact ⟨_, _, .word hs hy⟩
      by_cases h1 : signValue s * digitsValue ds < -2 ^ 31
      · exact ⟨_, _, .small hs h1 hy⟩
      by_cases h2 : 2 ^ 31 ≤ signValue s * digitsValue ds
      · exact ⟨_, _, .large hs h2 hy⟩
      · exact ⟨_, _, .number (v := Int32.ofInt (signValue s * digitsValue ds)) hs hd (Int32.toInt_ofInt_of_le (by omega) (by omega))⟩

/-! ## Doubles -/

/-- No character of `r'` continues the numeral. -/
def Numeral.Stops (n : Numeral) (r' : Bytes) : Prop := ∀ c ∈ r'.head?, isDigit c = false ∧
  (n.exp = none → (n.frac = none → c ≠ 46) ∧ ((n.int ≠ [] ∨ n.fracDigits ≠ []) → c ≠ 101 ∧ c ≠ 69) ∧
    (n.sign = none → n.int = [] → n.frac = none → c ≠ 45 ∧ c ≠ 43)) ∧
  ∀ e ∈ n.exp, e.sign = none → e.digits = [] → c ≠ 45 ∧ c ≠ 43

theorem Numeral.expText_none {n : Numeral} (h : n.exp = none) : n.expText = [] := by unfold Numeral.expText; rw [h]

theorem Numeral.expText_some {n : Numeral} {e : Exponent} (h : n.exp = some e) :
    n.expText = (if e.upper then 69 else 101) :: (signText e.sign ++ digitsText e.digits) := by
  obtain ⟨u, s, ds⟩ := e
  unfold Numeral.expText Exponent.text
  rw [h]
  cases u <;> rfl

theorem Numeral.fracText_none {n : Numeral} (h : n.frac = none) : n.fracText = [] := by unfold Numeral.fracText; rw [h]

theorem Numeral.fracText_some {n : Numeral} {f : List (Fin 10)} (h : n.frac = some f) : n.fracText = 46 :: digitsText f := by
  unfold Numeral.fracText; rw [h]; rfl

theorem Numeral.Stops.exp_head {n : Numeral} {r' : Bytes} (h : n.Stops r') : ∀ c ∈ (n.expText ++ r').head?, isDigit c = false ∧ (n.frac = none → c ≠ 46) ∧
    (n.sign = none → n.int = [] → n.frac = none → c ≠ 45 ∧ c ≠ 43) := by
  intro c hc
  cases he : n.exp with
  | none =>
    rw [expText_none he] at hc
    obtain ⟨h1, h2, _⟩ := h c hc
    exact ⟨h1, (h2 he).1, (h2 he).2.2⟩
  | some e =>
    rw [expText_some he] at hc
    cases hu : e.upper <;> (rw [hu] at hc; cases hc; exact ⟨by decide, fun _ => by decide, fun _ _ _ => by decide⟩)

theorem scanFloat_stops {n : Numeral} (hb : n.Begun) {r' : Bytes} (h : n.Stops r') : scanFloat (n.text ++ r') = n.scan r' := by
  have hE := h.exp_head
  have hF : scanFrac (n.fracText ++ (n.expText ++ r')) = (digitsText n.fracDigits, n.expText ++ r') := by
    unfold Numeral.fracDigits
    cases hf : n.frac with
    | none =>
      rw [Numeral.fracText_none hf]
      show scanFrac (n.expText ++ r') = ([], n.expText ++ r')
      generalize hb : n.expText ++ r' = b at hE
      unfold scanFrac
      split
      · exact absurd rfl ((hE _ rfl).2.1 hf)
      · rfl
    | some f =>
      rw [Numeral.fracText_some hf]
      obtain ⟨t1, t2⟩ := takeWhile_digits (ds := digitsText f) (rest := n.expText ++ r') (digitsText_digits f) fun c r e => (hE c (by rw [e]; rfl)).1
      show ((digitsText f ++ (n.expText ++ r')).takeWhile isDigit, (digitsText f ++ (n.expText ++ r')).dropWhile isDigit) = _
      rw [t1, t2]
      rfl
  have hF0 : ∀ c r, n.fracText ++ (n.expText ++ r') = c :: r → isDigit c = false := by
    intro c r e
    cases hf : n.frac with
    | none => rw [Numeral.fracText_none hf] at e; exact (hE c (by rw [show n.expText ++ r' = c :: r from e]; rfl)).1
    | some f => rw [Numeral.fracText_some hf] at e; cases e; decide
  obtain ⟨t1, t2⟩ := takeWhile_digits (digitsText_digits n.int) hF0
  have hS : scanSign (n.text ++ r') = (n.sign == some true, digitsText n.int ++ (n.fracText ++ (n.expText ++ r'))) := by
    rw [n.text_eq, List.append_assoc, List.append_assoc, List.append_assoc]
    refine scanSign_signText fun hs c hc => ?_
    cases hi : n.int with
    | cons d t =>
      rw [hi] at hc; cases hc
      exact digit_not_sign (isDigit_ofNat d.isLt)
    | nil =>
      rw [hi] at hc
      cases hf : n.frac with
      | none => rw [Numeral.fracText_none hf] at hc; exact (hE c hc).2.2 hs hi hf
      | some f => rw [Numeral.fracText_some hf] at hc; cases hc; decide
  unfold scanFloat
  rw [hS]
  simp only [t1, t2, hF]
  unfold Numeral.scan
  cases he : n.exp with
  | none =>
    rw [Numeral.expText_none he, List.nil_append]
    cases r' with
    | nil => rfl
    | cons c r =>
      have h2 := ((h c rfl).2.1 he).2.1
      have : ((c == 101 || c == 69) && !((digitsText n.int).isEmpty && (digitsText n.fracDigits).isEmpty)) = false := by
        rw [digitsText_isEmpty, digitsText_isEmpty]
        by_cases h3 : n.int ≠ [] ∨ n.fracDigits ≠ []
        · obtain ⟨h4, h5⟩ := h2 h3; simp [h4, h5]
        · rw [not_or, not_not, not_not] at h3; simp [h3.1, h3.2]
      simp only [this]
      rfl
  | some x =>
    have hne : ((digitsText n.int).isEmpty && (digitsText n.fracDigits).isEmpty) = false := by
      rw [digitsText_isEmpty, digitsText_isEmpty]
      have := hb (by rw [he]; simp)
      cases hi : n.int <;> cases hf : n.fracDigits <;> simp_all
    have hd : ∀ c r, r' = c :: r → isDigit c = false := fun c r e => (h c (by rw [e]; rfl)).1
    have hs : scanSign (signText x.sign ++ (digitsText x.digits ++ r')) = (x.sign == some true, digitsText x.digits ++ r') := by
      refine scanSign_signText fun hs c hc => ?_
      cases hi : x.digits with
      | cons d t =>
        rw [hi] at hc; cases hc
        exact digit_not_sign (isDigit_ofNat d.isLt)
      | nil => rw [hi] at hc; exact (h c hc).2.2 x (by rw [he]; rfl) hs hi
    obtain ⟨t3, t4⟩ := takeWhile_digits (digitsText_digits x.digits) hd
    rw [Numeral.expText_some he]
    cases x.upper <;> simp [hne, hs, t3, t4]

theorem digit_exists {c : UInt8} (h : isDigit c = true) : ∃ d : Fin 10, digitsText [d] = [c] := by
  obtain ⟨l, hl⟩ := exists_digits (ds := [c]) (fun d hd => by rw [List.mem_singleton.mp hd]; exact h)
  match l, hl with
  | [d], hl => exact ⟨d, hl.symm⟩

theorem stops_of_maximal {n : Numeral} (hb : n.Begun) {r' : Bytes} (h : ∀ c ∈ r'.head?, ∀ m : Numeral, m.Begun → m.text ≠ n.text ++ [c]) : n.Stops r' := by
  intro c hc
  have h := h c hc
  refine ⟨?_, fun he => ⟨fun hf e => ?_, fun hd => ⟨fun e => ?_, fun e => ?_⟩, fun hs hi hf => ⟨fun e => ?_, fun e => ?_⟩⟩, fun x hx hs hd => ⟨fun e => ?_, fun e => ?_⟩⟩
  · rw [← Bool.not_eq_true]
    intro hd
    obtain ⟨d, hd⟩ := digit_exists hd
    cases he : n.exp with
    | some x =>
      refine h { n with exp := some { x with digits := x.digits ++ [d] } } (fun _ => hb (by rw [he]; simp)) ?_
      simp [Numeral.text, he, Exponent.text, digitsText_append, hd]
    | none =>
      cases hf : n.frac with
      | some f =>
        refine h { n with frac := some (f ++ [d]) } (fun hh => absurd he hh) ?_
        simp [Numeral.text, he, hf, digitsText_append, hd]
      | none =>
        refine h { n with int := n.int ++ [d] } (fun hh => absurd he hh) ?_
        simp [Numeral.text, he, hf, digitsText_append, hd]
  · refine h { n with frac := some [] } (fun hh => absurd he hh) ?_
    simp [Numeral.text, he, hf, e, digitsText]
  · refine h { n with exp := some ⟨false, none, []⟩ } (fun _ => hd) ?_
    simp [Numeral.text, he, e, digitsText, Exponent.text, signText]
  · refine h { n with exp := some ⟨true, none, []⟩ } (fun _ => hd) ?_
    simp [Numeral.text, he, e, digitsText, Exponent.text, signText]
  · refine h { n with sign := some true } (fun hh => absurd he hh) ?_
    simp [Numeral.text, he, hs, hi, hf, e, digitsText, signText]
  · refine h { n with sign := some false } (fun hh => absurd he hh) ?_
    simp [Numeral.text, he, hs, hi, hf, e, digitsText, signText]
  · refine h { n with exp := some { x with sign := some true } } (fun _ => hb (by rw [hx]; simp)) ?_
    have he : n.exp = some x := hx
    simp [Numeral.text, he, hs, hd, e, digitsText, Exponent.text, signText]
  · refine h { n with exp := some { x with sign := some false } } (fun _ => hb (by rw [hx]; simp)) ?_
    have he : n.exp = some x := hx
    simp [Numeral.text, he, hs, hd, e, digitsText, Exponent.text, signText]

theorem maximal_of_stops {n : Numeral} (hb : n.Begun) {r' : Bytes} (h : n.Stops r') : ∀ c ∈ r'.head?, ∀ m : Numeral, m.Begun → m.text ≠ n.text ++ [c] := by
  intro c hc m hm e
  have h1 := scanFloat_stops hm (r' := []) (fun _ h => by cases h)
  have h2 := scanFloat_stops hb (r' := [c]) (fun d hd => by cases hd; exact h c hc)
  rw [List.append_nil, e, h2] at h1
  have := congrArg FloatScan.rest h1
  exact absurd this (by simp [Numeral.scan])

theorem sign_split (t : Bytes) : ∃ s u, t = signText s ++ u ∧ (s = none → ∀ c ∈ u.head?, c ≠ 45 ∧ c ≠ 43) := by
  cases t with
  | nil => exact ⟨none, [], rfl, fun _ _ h => by cases h⟩
  | cons c t =>
    by_cases h1 : c = 45
    · exact ⟨some true, t, by rw [h1]; rfl, by simp⟩
    by_cases h2 : c = 43
    · exact ⟨some false, t, by rw [h2]; rfl, by simp⟩
    exact ⟨none, c :: t, rfl, fun _ d hd => by cases hd; exact ⟨h1, h2⟩⟩

theorem digits_split (u : Bytes) : ∃ ds r, u = digitsText ds ++ r ∧ ∀ c ∈ r.head?, isDigit c = false := by
  obtain ⟨ds, hds⟩ := exists_digits (ds := u.takeWhile isDigit) (fun c hc => (List.mem_takeWhile_imp hc))
  refine ⟨ds, u.dropWhile isDigit, ?_, fun d hd => ?_⟩
  · rw [← hds, List.takeWhile_append_dropWhile]
  · have := List.head?_dropWhile_not isDigit u
    rw [hd] at this
    simpa using this

theorem numeral_exists (t : Bytes) : ∃ (n : Numeral) (r' : Bytes), t = n.text ++ r' ∧ n.Begun ∧ n.Stops r' := by
  obtain ⟨s, u, rfl, hs⟩ := sign_split t
  obtain ⟨ip, u1, rfl, hi⟩ := digits_split u
  have hf : ∃ (f : Option (List (Fin 10))) (u2 : Bytes), u1 = (match f with | none => [] | some f => b! "." ++ digitsText f) ++ u2 ∧
      (∀ c ∈ u2.head?, isDigit c = false ∧ (f = none → c ≠ 46)) := by
    by_cases h : ∃ v, u1 = 46 :: v
    · obtain ⟨v, rfl⟩ := h
      obtain ⟨f, u2, rfl, h2⟩ := digits_split v
      exact ⟨some f, u2, rfl, fun c hc => ⟨h2 c hc, by simp⟩⟩
    · refine ⟨none, u1, rfl, fun c hc => ⟨hi c hc, fun _ e => ?_⟩⟩
      cases u1 with
      | nil => cases hc
      | cons d v => cases hc; exact h ⟨v, by rw [e]⟩
  obtain ⟨f, u2, e1, h2⟩ := hf
  have hsign : s = none → ip = [] → f = none → ∀ c ∈ u2.head?, c ≠ 45 ∧ c ≠ 43 := by
    intro h1 h3 h4 c hc
    rw [h3, e1, h4] at hs
    exact hs h1 c hc
  by_cases hx : ∃ (b : Bool) (v : Bytes), u2 = (if b then 69 else 101) :: v ∧ (ip ≠ [] ∨ f.getD [] ≠ [])
  · obtain ⟨b, v, rfl, hd⟩ := hx
    obtain ⟨s', v1, rfl, hs'⟩ := sign_split v
    obtain ⟨ds, r', rfl, hr⟩ := digits_split v1
    refine ⟨⟨s, ip, f, some ⟨b, s', ds⟩⟩, r', ?_, fun _ => hd, fun c hc => ⟨hr c hc, (fun h => by cases h), fun e he h3 h4 => ?_⟩⟩
    · rw [e1]
      cases b <;> cases f <;> simp [Numeral.text, Exponent.text]
    · cases he
      have h4 : ds = [] := h4
      rw [h4] at hs'
      exact hs' h3 c hc
  · refine ⟨⟨s, ip, f, none⟩, u2, ?_, fun h => absurd rfl h, fun c hc => ⟨(h2 c hc).1, fun _ => ⟨(h2 c hc).2, fun hd => ⟨?_, ?_⟩, fun h1 h3 h4 => hsign h1 h3 h4 c hc⟩, fun e he => by cases he⟩⟩
    · rw [e1]
      cases f <;> simp [Numeral.text]
    · rintro rfl
      cases u2 with
      | nil => cases hc
      | cons d v => cases hc; exact hx ⟨false, v, rfl, hd⟩
    · rintro rfl
      cases u2 with
      | nil => cases hc
      | cons d v => cases hc; exact hx ⟨true, v, rfl, hd⟩

theorem convert_scan (n : Numeral) (rest : Bytes) : (convertFloat (n.scan rest)).2 = true ↔ ¬ (n.Proper ∧ InRange n.value) := by
  by_cases hp : n.Proper
  · obtain ⟨m, hm, hc⟩ := convert_numeral n hp rest
    have hm' : IsMag (|n.value| * 2 ^ 1074) m := by rw [n.abs_value]; exact hm
    have hlt := mag_lt_iff hm'
    rw [hc]
    by_cases h : Double.infMag ≤ m
    · rw [if_pos h]
      exact ⟨fun _ hh => absurd (hlt.mpr hh.2) (by omega), fun _ => rfl⟩
    · rw [if_neg h]
      exact ⟨fun hh => by simp at hh, fun hh => absurd ⟨hp, hlt.mp (by omega)⟩ hh⟩
  · refine ⟨fun _ hh => hp hh.1, fun _ => ?_⟩
    have : ((n.scan rest).ip.isEmpty && (n.scan rest).fp.isEmpty || (n.scan rest).sci && (n.scan rest).ed.isEmpty) = true := by
      unfold Numeral.Proper at hp
      rw [Classical.not_and_iff_not_or_not, not_or, not_not, not_not] at hp
      rcases hp with ⟨h1, h2⟩ | h
      · simp [Numeral.scan, h1, h2, digitsText_isEmpty]
      · rw [not_forall] at h
        obtain ⟨e, h⟩ := h
        rw [Classical.not_imp, not_not] at h
        obtain ⟨he, hd⟩ := h
        have he : n.exp = some e := he
        simp [Numeral.scan, he, hd, digitsText_isEmpty]
    unfold convertFloat
    rw [if_pos this]

/-- A reader follows a specification that does not mention its result. -/
structure Passes {α : Type} (m : Rd α) (R : Place → Place → Prop) : Prop where
  sound : ∀ {x y st}, R x y → At x st → ∃ v st', m st = .ok (v, st') ∧ At y st'
  total : ∀ x, ∃ y, R x y

theorem Yields.passes {α : Type} {m : Rd α} {R : Place → α → Place → Prop} (h : Yields m R) : Passes m fun x y => ∃ v, R x v y :=
  ⟨fun ⟨v, hr⟩ hc => by obtain ⟨st', h1, h2⟩ := h.sound hr hc.cur; exact ⟨v, st', h1, h2⟩, fun x => by obtain ⟨v, y, h⟩ := h.total x; exact ⟨y, v, h⟩⟩

theorem lost_real {st st' : Stream} (h : sentry st = (false, st')) : extractDouble st = .ok (none, st') := by
  unfold extractDouble; rw [h]

theorem StartsReal.scan {r : Bytes} {n : Numeral} {r' : Bytes} (h : StartsReal r n r') :
    ∃ lead c t, r = lead ++ c :: t ∧ Blank lead ∧ isSpace c = false ∧ scanFloat (c :: t) = n.scan r' := by
  obtain ⟨lead, rfl, hl, ⟨c, hc, hs⟩, hb, hm⟩ := h
  have := scanFloat_stops hb (stops_of_maximal hb hm)
  generalize n.text ++ r' = t at *
  cases t with
  | nil => cases hc
  | cons d t => cases hc; exact ⟨lead, c, t, rfl, hl, hs, this⟩

private theorem extractDouble_of {st : Stream} {lead : Bytes} {c : UInt8} {t r : Bytes} {f : FloatScan} (h : Cur (.on r) st) (e : r = lead ++ c :: t) (hl : Blank lead)
    (hc : isSpace c = false) (hs : scanFloat (c :: t) = f) :
    extractDouble st = .ok (some (convertFloat f).1, ⟨f.rest, f.rest.isEmpty, (convertFloat f).2⟩) := by
  unfold extractDouble
  rw [sentry_on h e hl hc]
  simp only [hs]

theorem extractDouble_passes : Passes extractDouble TakesReal where
  sound := by
    intro x y st h hc
    have hc := hc.cur
    cases h with
    | @number r n r' hs hp hr =>
      obtain ⟨lead, c, t, e, hl, hc', hsc⟩ := hs.scan
      refine ⟨some (convertFloat (n.scan r')).1, payload r', ?_, rfl⟩
      rw [extractDouble_of hc e hl hc' hsc]
      have : (convertFloat (n.scan r')).2 = false := by
        rw [← Bool.not_eq_true, convert_scan]; exact not_not.mpr ⟨hp, hr⟩
      rw [this]
      rfl
    | @bad r n r' y hs hp hf =>
      obtain ⟨lead, c, t, e, hl, hc', hsc⟩ := hs.scan
      refine ⟨_, _, extractDouble_of hc e hl hc' hsc, ?_⟩
      rw [(convert_scan n r').mpr hp]
      exact fell_at hf
    | @blank r hb =>
      obtain ⟨st', h1, h2⟩ := sentry_on_blank hc hb
      exact ⟨_, st', lost_real h1, h2⟩
    | stuck => exact ⟨_, st, lost_real (sentry_stuck hc), hc⟩
    | ended => exact ⟨_, st, lost_real (sentry_ended hc), hc⟩
  total := by
    intro x
    cases x with
    | stuck => exact ⟨_, .stuck⟩
    | ended => exact ⟨_, .ended⟩
    | on r =>
      rcases blank_or r with hb | ⟨lead, c, t, rfl, hl, hc⟩
      · exact ⟨_, .blank hb⟩
      obtain ⟨n, r', e, hb, hs⟩ := numeral_exists (c :: t)
      have h : StartsReal (lead ++ c :: t) n r' := ⟨lead, by rw [e], hl, ⟨c, by rw [← e]; rfl, hc⟩, hb, maximal_of_stops hb hs⟩
      obtain ⟨y, hy⟩ := fell_exists r'
      by_cases hp : n.Proper ∧ InRange n.value
      · exact ⟨_, .number h hp.1 hp.2⟩
      · exact ⟨_, .bad h hp hy⟩

/-! ## Quoted strings -/

theorem takeWhile_word {w r : Bytes} (hw : ∀ d ∈ w, isSpace d = false) (hr : ∀ d ∈ r.head?, isSpace d = true) :
    (w ++ r).takeWhile (fun c => !isSpace c) = w ∧ (w ++ r).dropWhile (fun c => !isSpace c) = r := by
  induction w with
  | nil =>
    cases r with
    | nil => exact ⟨rfl, rfl⟩
    | cons d r => simp [hr d rfl]
  | cons c w ih =>
    have h1 := hw c (by simp)
    have h2 := ih fun d hd => hw d (by simp [hd])
    simp [h1, h2]

theorem lost_quoted {st st' : Stream} (old : Bytes) (h : sentry st = (false, st')) : inQuoted old st = .ok (old, st') := by
  unfold inQuoted; rw [h]

theorem inQuoted_sound {x y : Place} {st : Stream} (old : Bytes) (h : TakesQuoted x y) (hc : Cur x st) : ∃ v st', inQuoted old st = .ok (v, st') ∧ Cur y st' := by
  cases h with
  | @closed lead t s r' hl hs =>
    have e := sentry_on (c := 34) hc rfl hl (by decide)
    unfold inQuoted
    rw [e]
    refine ⟨s, gs r', ?_, rfl, rfl, fun h => by cases h⟩
    have := quotedBody_spells hs r'
    simp only [gs] at this ⊢
    show (match quotedBody (t ++ 34 :: r') with | (t, s') => Outcome.ok (t, s')) = _
    rw [this]
  | @unclosed lead r hl hn =>
    have e := sentry_on (c := 34) hc rfl hl (by decide)
    unfold inQuoted
    rw [e]
    refine ⟨(quotedBody r).1, (quotedBody r).2, rfl, ?_⟩
    rcases quotedBody_cases r with ⟨t, s, r', h1, h2⟩ | h
    · exact absurd ⟨t, s, r', h1, h2⟩ hn
    · rw [h]; exact ⟨rfl, rfl⟩
  | @word lead c w r' hl hq hw hr =>
    have hsp : isSpace c = false := hw c (by simp)
    have e := sentry_on (c := c) (t := w ++ r') hc rfl hl hsp
    have e2 : sentry (gs (c :: (w ++ r'))) = (true, gs (c :: (w ++ r'))) := sentry_gs (w := []) Ws.nil hsp
    have e3 : (c :: (w ++ r')).takeWhile (fun c => !isSpace c) = c :: w ∧ (c :: (w ++ r')).dropWhile (fun c => !isSpace c) = r' := by
      have := takeWhile_word (w := c :: w) (r := r') hw hr
      exact this
    refine ⟨c :: w, payload r', ?_, (At.cur (x := .on r') rfl)⟩
    unfold inQuoted
    rw [e]
    have h34 : c ≠ 34 := fun e => hq (by rw [e])
    show (match (c :: (w ++ r')) with | 34 :: r => (match quotedBody r with | (t, s') => Outcome.ok (t, s')) | _ => inString old (gs (c :: (w ++ r')))) = _
    split
    · rename_i h; injection h with h _; exact absurd h h34
    · unfold inString
      rw [e2]
      show Outcome.ok ((c :: (w ++ r')).takeWhile (fun c => !isSpace c), (⟨(c :: (w ++ r')).dropWhile (fun c => !isSpace c), ((c :: (w ++ r')).dropWhile (fun c => !isSpace c)).isEmpty, false⟩ : Stream)) = _
      rw [e3.1, e3.2]
      rfl
  | @blank r hb =>
    obtain ⟨st', h1, h2⟩ := sentry_on_blank hc hb
    exact ⟨_, st', lost_quoted old h1, h2.cur⟩
  | stuck => exact ⟨_, st, lost_quoted old (sentry_stuck hc), hc⟩
  | ended => exact ⟨_, st, lost_quoted old (sentry_ended hc), hc⟩

theorem takesQuoted_total (x : Place) : ∃ y, TakesQuoted x y := by
  cases x with
  | stuck => exact ⟨_, .stuck⟩
  | ended => exact ⟨_, .ended⟩
  | on r =>
    rcases blank_or r with hb | ⟨lead, c, t, rfl, hl, hc⟩
    · exact ⟨_, .blank hb⟩
    by_cases h34 : c = 34
    · subst h34
      by_cases h : ∃ u s r', Spells u s ∧ t = u ++ (b! "\"" ++ r')
      · obtain ⟨u, s, r', hs, rfl⟩ := h
        exact ⟨_, .closed hl hs⟩
      · exact ⟨_, .unclosed hl h⟩
    · have e : c :: t = c :: t.takeWhile (fun c => !isSpace c) ++ t.dropWhile (fun c => !isSpace c) := by
        rw [List.cons_append, List.takeWhile_append_dropWhile]
      rw [e]
      refine ⟨_, .word hl (fun h => h34 (by injection h)) ?_ ?_⟩
      · intro d hd
        rcases List.mem_cons.mp hd with rfl | hd
        · exact hc
        · have := List.mem_takeWhile_imp hd
          simpa using this
      · intro d hd
        have := List.head?_dropWhile_not (fun c => !isSpace c) t
        rw [hd] at this
        simpa using this

end MshIO
