import Verif.Model.Python
import Verif.Spec.Python

/-! # Strict UTF-8 decoding accepts exactly the encodings of character sequences -/

namespace MshIO

theorem u8le (a b : UInt8) : (a ≤ b) ↔ a.toNat ≤ b.toNat := UInt8.le_iff_toNat_le

theorem isCont_iff (b : UInt8) : isCont b = true ↔ 0x80 ≤ b.toNat ∧ b.toNat ≤ 0xBF := by
  unfold isCont
  rw [Bool.and_eq_true, decide_eq_true_iff, decide_eq_true_iff, u8le, u8le]; rfl

theorem band2 {x y : Bool} : (x && y) = true ↔ x = true ∧ y = true := Bool.and_eq_true_iff

theorem u8range (a lo hi : UInt8) : (decide (lo ≤ a) && decide (a ≤ hi)) = true ↔ lo.toNat ≤ a.toNat ∧ a.toNat ≤ hi.toNat := by
  rw [Bool.and_eq_true, decide_eq_true_iff, decide_eq_true_iff, u8le, u8le]

theorem u8bne (a k : UInt8) (p : Bool) : (a != k || p) = true ↔ (a.toNat = k.toNat → p = true) := by
  by_cases h : a = k
  · subst h; simp
  · have : a.toNat ≠ k.toNat := fun e => h (UInt8.toNat_inj.mp e)
    simp [h, this]

theorem utf8Ok_cons (a : UInt8) (r : Bytes) : utf8Ok (a :: r) =
    if a ≤ 0x7F then utf8Ok r
    else if 0xC2 ≤ a && a ≤ 0xDF then
      match r with
      | b :: r => isCont b && utf8Ok r
      | _ => false
    else if 0xE0 ≤ a && a ≤ 0xEF then
      match r with
      | b :: c :: r => isCont b && isCont c && (a != 0xE0 || 0xA0 ≤ b) && (a != 0xED || b ≤ 0x9F) && utf8Ok r
      | _ => false
    else if 0xF0 ≤ a && a ≤ 0xF4 then
      match r with
      | b :: c :: d :: r =>
        isCont b && isCont c && isCont d && (a != 0xF0 || 0x90 ≤ b) && (a != 0xF4 || b ≤ 0x8F) && utf8Ok r
      | _ => false
    else false := by
  rw [utf8Ok.eq_def]; rfl

theorem utf8Ok_one {a : UInt8} (r : Bytes) (h : a.toNat ≤ 0x7F) : utf8Ok (a :: r) = utf8Ok r := by
  rw [utf8Ok_cons, if_pos ((u8le _ _).mpr h)]

theorem utf8Ok_two {a : UInt8} (r : Bytes) (h : 0xC2 ≤ a.toNat) (h' : a.toNat ≤ 0xDF) :
    utf8Ok (a :: r) = match r with
      | b :: r => isCont b && utf8Ok r
      | _ => false := by
  rw [utf8Ok_cons, if_neg (fun e => by have := (u8le _ _).mp e; change _ ≤ 127 at this; omega), if_pos ((u8range a 0xC2 0xDF).mpr ⟨h, h'⟩)]

theorem utf8Ok_three {a : UInt8} (r : Bytes) (h : 0xE0 ≤ a.toNat) (h' : a.toNat ≤ 0xEF) :
    utf8Ok (a :: r) = match r with
      | b :: c :: r => isCont b && isCont c && (a != 0xE0 || 0xA0 ≤ b) && (a != 0xED || b ≤ 0x9F) && utf8Ok r
      | _ => false := by
  rw [utf8Ok_cons, if_neg (fun e => by have := (u8le _ _).mp e; change _ ≤ 127 at this; omega),
    if_neg (fun e => by have := ((u8range _ _ _).mp e).2; change _ ≤ 0xDF at this; omega), if_pos ((u8range a 0xE0 0xEF).mpr ⟨h, h'⟩)]

theorem utf8Ok_four {a : UInt8} (r : Bytes) (h : 0xF0 ≤ a.toNat) (h' : a.toNat ≤ 0xF4) :
    utf8Ok (a :: r) = match r with
      | b :: c :: d :: r =>
        isCont b && isCont c && isCont d && (a != 0xF0 || 0x90 ≤ b) && (a != 0xF4 || b ≤ 0x8F) && utf8Ok r
      | _ => false := by
  rw [utf8Ok_cons, if_neg (fun e => by have := (u8le _ _).mp e; change _ ≤ 127 at this; omega),
    if_neg (fun e => by have := ((u8range _ _ _).mp e).2; change _ ≤ 0xDF at this; omega),
    if_neg (fun e => by have := ((u8range _ _ _).mp e).2; change _ ≤ 0xEF at this; omega), if_pos ((u8range a 0xF0 0xF4).mpr ⟨h, h'⟩)]

theorem utf8Ok_other {a : UInt8} (r : Bytes)
    (h : (0x80 ≤ a.toNat ∧ a.toNat ≤ 0xC1) ∨ 0xF5 ≤ a.toNat) : utf8Ok (a :: r) = false := by
  rw [utf8Ok_cons, if_neg (fun e => by have := (u8le _ _).mp e; change _ ≤ 127 at this; omega),
    if_neg (fun e => by have := (u8range _ _ _).mp e; change 0xC2 ≤ _ ∧ _ ≤ 0xDF at this; omega),
    if_neg (fun e => by have := (u8range _ _ _).mp e; change 0xE0 ≤ _ ∧ _ ≤ 0xEF at this; omega),
    if_neg (fun e => by have := (u8range _ _ _).mp e; change 0xF0 ≤ _ ∧ _ ≤ 0xF4 at this; omega)]

theorem u8lead (a : UInt8) : a.toNat ≤ 0x7F ∨ (0xC2 ≤ a.toNat ∧ a.toNat ≤ 0xDF) ∨ (0xE0 ≤ a.toNat ∧ a.toNat ≤ 0xEF) ∨
    (0xF0 ≤ a.toNat ∧ a.toNat ≤ 0xF4) ∨ ((0x80 ≤ a.toNat ∧ a.toNat ≤ 0xC1) ∨ 0xF5 ≤ a.toNat) := by omega

/-- ASCII text can be split off at any place. -/
theorem utf8Ok_split {c : UInt8} (hc : c.toNat ≤ 0x7F) (r : Bytes) :
    ∀ (n : Nat) (b : Bytes), b.length ≤ n → utf8Ok (b ++ (c :: r)) = (utf8Ok b && utf8Ok (c :: r)) := by
  have hcc : isCont c = false := by
    rw [Bool.eq_false_iff]; intro h; have := (isCont_iff c).mp h; omega
  intro n
  induction n with
  | zero => intro b hb; cases b with
    | nil => rw [List.nil_append, show utf8Ok [] = true from rfl, Bool.true_and]
    | cons => simp at hb
  | succ n ih =>
    intro b hb
    cases b with
    | nil => rw [List.nil_append, show utf8Ok [] = true from rfl, Bool.true_and]
    | cons a b =>
      rw [List.length_cons] at hb
      rw [List.cons_append]
      rcases u8lead a with h | ⟨h, h'⟩ | ⟨h, h'⟩ | ⟨h, h'⟩ | h
      · rw [utf8Ok_one _ h, utf8Ok_one _ h]; exact ih _ (by omega)
      · rw [utf8Ok_two _ h h', utf8Ok_two _ h h']
        cases b with
        | nil => simp [hcc]
        | cons b1 b => simp only [List.cons_append, List.length_cons] at hb ⊢; rw [ih _ (by omega), Bool.and_assoc]
      · rw [utf8Ok_three _ h h', utf8Ok_three _ h h']
        match b, hb with
        | [], _ => cases r <;> simp [hcc]
        | [b1], _ => simp [hcc]
        | b1 :: b2 :: b, hb =>
          simp only [List.cons_append, List.length_cons] at hb ⊢; rw [ih _ (by omega)]; simp only [Bool.and_assoc]
      · rw [utf8Ok_four _ h h', utf8Ok_four _ h h']
        match b, hb with
        | [], _ => match r with
          | [] => simp
          | [_] => simp
          | _ :: _ :: _ => simp [hcc]
        | [b1], _ => cases r <;> simp [hcc]
        | [b1, b2], _ => simp [hcc]
        | b1 :: b2 :: b3 :: b, hb =>
          simp only [List.cons_append, List.length_cons] at hb ⊢; rw [ih _ (by omega)]; simp only [Bool.and_assoc]
      · rw [utf8Ok_other _ h, utf8Ok_other _ h, Bool.false_and]

theorem utf8Ok_append {c : UInt8} (b r : Bytes) (hc : c.toNat ≤ 0x7F) :
    utf8Ok (b ++ (c :: r)) = (utf8Ok b && utf8Ok (c :: r)) := utf8Ok_split hc r _ b (Nat.le_refl _)

theorem utf8Ok_ascii (b r : Bytes) (h : ∀ c ∈ b, c.toNat ≤ 0x7F) : utf8Ok (b ++ r) = utf8Ok r := by
  induction b with
  | nil => rfl
  | cons a b ih =>
    rw [List.cons_append, utf8Ok_one _ (h a List.mem_cons_self)]
    exact ih fun c hc => h c (List.mem_cons_of_mem _ hc)

/-! ## Against the encoder -/

theorem ofNat8 (n : Nat) (h : n < 256) : (UInt8.ofNat n).toNat = n := by
  rw [UInt8.toNat_ofNat']; omega

theorem char_range (c : Char) : c.val.toNat < 0xd800 ∨ (0xdfff < c.val.toNat ∧ c.val.toNat < 0x110000) := c.valid

theorem utf8Ok_encode (c : Char) (r : Bytes) : utf8Ok (String.utf8EncodeChar c ++ r) = utf8Ok r := by
  have hr := char_range c
  unfold String.utf8EncodeChar
  generalize c.val.toNat = v at hr
  by_cases h1 : v ≤ 0x7f
  · rw [if_pos h1]
    exact utf8Ok_one r (by rw [ofNat8 _ (by omega)]; exact h1)
  rw [if_neg h1]
  by_cases h2 : v ≤ 0x7ff
  · rw [if_pos h2]
    simp only [List.cons_append, List.nil_append]
    rw [utf8Ok_two _ (by rw [ofNat8 _ (by omega)]; omega) (by rw [ofNat8 _ (by omega)]; omega)]
    have e : isCont (UInt8.ofNat (v % 64 + 128)) = true := (isCont_iff _).mpr (by rw [ofNat8 _ (by omega)]; omega)
    simp only [e, Bool.true_and]
  rw [if_neg h2]
  by_cases h3 : v ≤ 0xffff
  · rw [if_pos h3]
    simp only [List.cons_append, List.nil_append]
    rw [utf8Ok_three _ (by rw [ofNat8 _ (by omega)]; omega) (by rw [ofNat8 _ (by omega)]; omega)]
    have e : isCont (UInt8.ofNat (v % 64 + 128)) = true := (isCont_iff _).mpr (by rw [ofNat8 _ (by omega)]; omega)
    have e' : isCont (UInt8.ofNat (v / 64 % 64 + 128)) = true := (isCont_iff _).mpr (by rw [ofNat8 _ (by omega)]; omega)
    have e3 : (UInt8.ofNat (v / 4096 % 16 + 0xe0) != 0xE0 || decide (0xA0 ≤ UInt8.ofNat (v / 64 % 64 + 128))) = true :=
      (u8bne _ _ _).mpr fun h => decide_eq_true ((u8le _ _).mpr (by
        rw [ofNat8 _ (by omega)] at h ⊢; change _ = 0xE0 at h; change 0xA0 ≤ _; omega))
    have e4 : (UInt8.ofNat (v / 4096 % 16 + 0xe0) != 0xED || decide (UInt8.ofNat (v / 64 % 64 + 128) ≤ 0x9F)) = true :=
      (u8bne _ _ _).mpr fun h => decide_eq_true ((u8le _ _).mpr (by
        rw [ofNat8 _ (by omega)] at h ⊢; change _ = 0xED at h; change _ ≤ 0x9F; omega))
    simp only [e, e', e3, e4, Bool.true_and]
  rw [if_neg h3]
  simp only [List.cons_append, List.nil_append]
  rw [utf8Ok_four _ (by rw [ofNat8 _ (by omega)]; omega) (by rw [ofNat8 _ (by omega)]; omega)]
  have e : isCont (UInt8.ofNat (v % 64 + 128)) = true := (isCont_iff _).mpr (by rw [ofNat8 _ (by omega)]; omega)
  have e' : isCont (UInt8.ofNat (v / 64 % 64 + 128)) = true := (isCont_iff _).mpr (by rw [ofNat8 _ (by omega)]; omega)
  have e'' : isCont (UInt8.ofNat (v / 4096 % 64 + 128)) = true := (isCont_iff _).mpr (by rw [ofNat8 _ (by omega)]; omega)
  have e3 : (UInt8.ofNat (v / 262144 % 8 + 0xf0) != 0xF0 || decide (0x90 ≤ UInt8.ofNat (v / 4096 % 64 + 128))) = true :=
    (u8bne _ _ _).mpr fun h => decide_eq_true ((u8le _ _).mpr (by
      rw [ofNat8 _ (by omega)] at h ⊢; change _ = 0xF0 at h; change 0x90 ≤ _; omega))
  have e4 : (UInt8.ofNat (v / 262144 % 8 + 0xf0) != 0xF4 || decide (UInt8.ofNat (v / 4096 % 64 + 128) ≤ 0x8F)) = true :=
    (u8bne _ _ _).mpr fun h => decide_eq_true ((u8le _ _).mpr (by
      rw [ofNat8 _ (by omega)] at h ⊢; change _ = 0xF4 at h; change _ ≤ 0x8F; omega))
  simp only [e, e', e'', e3, e4, Bool.true_and]

theorem char_of (v : Nat) (h : v < 0xd800 ∨ (0xdfff < v ∧ v < 0x110000)) : ∃ c : Char, c.val.toNat = v := by
  refine ⟨⟨UInt32.ofNat v, ?_⟩, ?_⟩
  · show (UInt32.ofNat v).toNat.isValidChar
    rw [UInt32.toNat_ofNat', Nat.mod_eq_of_lt (by omega)]; exact h
  · show (UInt32.ofNat v).toNat = v
    rw [UInt32.toNat_ofNat', Nat.mod_eq_of_lt (by omega)]

theorem ofNat8_eq {n : Nat} {a : UInt8} (h : n = a.toNat) : UInt8.ofNat n = a := by
  rw [h]; exact UInt8.ofNat_toNat

theorem utf8_of_ok : ∀ (n : Nat) (b : Bytes), b.length ≤ n → utf8Ok b = true → Utf8 b := by
  have next : ∀ {v : Nat} {p r : Bytes}, (v < 0xd800 ∨ (0xdfff < v ∧ v < 0x110000)) →
      (∀ c : Char, c.val.toNat = v → String.utf8EncodeChar c = p) → Utf8 r → Utf8 (p ++ r) := by
    intro v p r hv hp ⟨cs, hcs⟩
    obtain ⟨c, hc⟩ := char_of v hv
    exact ⟨c :: cs, by rw [List.flatMap_cons, hp c hc, hcs]⟩
  intro n
  induction n with
  | zero => intro b hb _; cases b with
    | nil => exact ⟨[], rfl⟩
    | cons => simp at hb
  | succ n ih =>
    intro b hb hok
    cases b with
    | nil => exact ⟨[], rfl⟩
    | cons a b =>
      rw [List.length_cons] at hb
      rcases u8lead a with h | ⟨h, h'⟩ | ⟨h, h'⟩ | ⟨h, h'⟩ | h
      · rw [utf8Ok_one _ h] at hok
        refine next (p := [a]) (v := a.toNat) (by omega) (fun c hc => ?_) (ih _ (by omega) hok)
        unfold String.utf8EncodeChar; rw [hc]; dsimp only; rw [if_pos h, ofNat8_eq rfl]
      · rw [utf8Ok_two _ h h'] at hok
        match b, hb, hok with
        | b1 :: b, hb, hok =>
          simp only [List.length_cons] at hb
          rw [band2, isCont_iff] at hok
          refine next (p := [a, b1]) (v := (a.toNat - 0xC0) * 64 + (b1.toNat - 0x80)) (by omega) (fun c hc => ?_)
            (ih _ (by omega) hok.2)
          unfold String.utf8EncodeChar; rw [hc]; dsimp only
          rw [if_neg (by omega), if_pos (by omega), ofNat8_eq (a := a) (by omega), ofNat8_eq (a := b1) (by omega)]
      · rw [utf8Ok_three _ h h'] at hok
        match b, hb, hok with
        | b1 :: b2 :: b, hb, hok =>
          simp only [List.length_cons] at hb
          simp only [band2, isCont_iff, u8bne, decide_eq_true_iff, u8le] at hok
          obtain ⟨⟨⟨⟨c1, c2⟩, l1⟩, l2⟩, hok⟩ := hok
          change a.toNat = 0xE0 → 0xA0 ≤ b1.toNat at l1
          change a.toNat = 0xED → b1.toNat ≤ 0x9F at l2
          refine next (p := [a, b1, b2]) (v := (a.toNat - 0xE0) * 4096 + (b1.toNat - 0x80) * 64 + (b2.toNat - 0x80))
            (by omega) (fun c hc => ?_) (ih _ (by omega) hok)
          unfold String.utf8EncodeChar; rw [hc]; dsimp only
          rw [if_neg (by omega), if_neg (by omega), if_pos (by omega), ofNat8_eq (a := a) (by omega),
            ofNat8_eq (a := b1) (by omega), ofNat8_eq (a := b2) (by omega)]
      · rw [utf8Ok_four _ h h'] at hok
        match b, hb, hok with
        | b1 :: b2 :: b3 :: b, hb, hok =>
          simp only [List.length_cons] at hb
          simp only [band2, isCont_iff, u8bne, decide_eq_true_iff, u8le] at hok
          obtain ⟨⟨⟨⟨⟨c1, c2⟩, c3⟩, l1⟩, l2⟩, hok⟩ := hok
          change a.toNat = 0xF0 → 0x90 ≤ b1.toNat at l1
          change a.toNat = 0xF4 → b1.toNat ≤ 0x8F at l2
          refine next (p := [a, b1, b2, b3])
            (v := (a.toNat - 0xF0) * 262144 + (b1.toNat - 0x80) * 4096 + (b2.toNat - 0x80) * 64 + (b3.toNat - 0x80))
            (by omega) (fun c hc => ?_) (ih _ (by omega) hok)
          unfold String.utf8EncodeChar; rw [hc]; dsimp only
          rw [if_neg (by omega), if_neg (by omega), if_neg (by omega), ofNat8_eq (a := a) (by omega),
            ofNat8_eq (a := b1) (by omega), ofNat8_eq (a := b2) (by omega), ofNat8_eq (a := b3) (by omega)]
      · rw [utf8Ok_other _ h] at hok; cases hok

theorem utf8Ok_iff (b : Bytes) : utf8Ok b = true ↔ Utf8 b := by
  refine ⟨utf8_of_ok _ b (Nat.le_refl _), ?_⟩
  rintro ⟨cs, rfl⟩
  induction cs with
  | nil => rfl
  | cons c cs ih => rw [List.flatMap_cons, utf8Ok_encode, ih]

end MshIO
