import Mathlib.Data.List.TakeWhile
import Verif.Proofs.Post
import Verif.Proofs.PostFile
import Verif.Proofs.Tame
import Verif.Proofs.Boundary
import Verif.Spec.Hazards

/-! # Readers without undefined behaviour while the unread bytes are the end of a given file -/

namespace MshIO

variable {α β σ : Type}

/-- The ends of a file that a reader may be left with: all of them, or only those that do not start inside a number. -/
structure Ends where
  bytes : Bytes
  whole : Bool

/-- The rest `r` of `F` starts with a digit right after a digit or a decimal point. -/
def Inside (F r : Bytes) : Prop := ∃ a c d t, F = a ++ c :: d :: t ∧ r = d :: t ∧ isDigit d = true ∧ (isDigit c = true ∨ c = 46)

/-- `r` is one of the ends. -/
def Ends.At (F : Ends) (r : Bytes) : Prop := r <:+ F.bytes ∧ (F.whole = true → ¬ Inside F.bytes r)

/-- Readers of binary data may leave any end. -/
class Ends.Any (F : Ends) : Prop where
  any : F.whole = false

instance (F : Bytes) : Ends.Any ⟨F, false⟩ := ⟨rfl⟩

theorem Ends.At.all {F : Ends} {r : Bytes} [F.Any] (h : r <:+ F.bytes) : F.At r := ⟨h, fun h' => by rw [Ends.Any.any] at h'; cases h'⟩

theorem Ends.At.nil {F : Ends} : F.At [] := ⟨List.nil_suffix, fun _ ⟨_, _, _, _, _, h, _⟩ => by cases h⟩

theorem Ends.At.refl (F : Ends) : F.At F.bytes := by
  refine ⟨List.suffix_refl _, ?_⟩
  rintro _ ⟨a, c, d, t, e, h, _⟩
  rw [h] at e
  have := congrArg List.length e
  simp at this
  omega

/-- Going on in the file, one stays at an allowed end if one stops before something that is not a digit. -/
theorem Ends.At.next {F : Ends} {r r' : Bytes} (h : F.At r) (hs : r' <:+ r) (hd : ∀ c ∈ r'.head?, isDigit c = false) : F.At r' := by
  refine ⟨hs.trans h.1, ?_⟩
  rintro _ ⟨a, c, d, t, _, rfl, hh, _⟩
  rw [hd d rfl] at hh
  cases hh

/-- … or after something that belongs to no number. -/
theorem Ends.At.past {F : Ends} {p r' : Bytes} {c : UInt8} (h : (p ++ c :: r') <:+ F.bytes) (h1 : isDigit c = false) (h2 : c ≠ 46) : F.At r' := by
  refine ⟨List.IsSuffix.trans ⟨p ++ [c], by simp⟩ h, ?_⟩
  rintro _ ⟨a, c', d, t, e, rfl, _, hc⟩
  obtain ⟨q, hq⟩ := h
  rw [e] at hq
  have e2 : (q ++ p) ++ c :: (d :: t) = a ++ c' :: (d :: t) := by rw [← hq]; simp
  have e3 := List.append_inj_right' e2 (by simp)
  have : c = c' := by injection e3
  subst this
  rcases hc with hc | hc
  · rw [h1] at hc; cases hc
  · exact h2 hc

/-- On every stream whose unread bytes are an end of `F` the reader has no undefined behaviour, and what it returns satisfies `Q`. -/
def Safe (F : Ends) (m : Rd α) (Q : α → Prop) : Prop :=
  ∀ s, F.At s.rem → m s ≠ .ub ∧ ∀ a s', m s = .ok (a, s') → F.At s'.rem ∧ Q a

variable {F : Ends}

theorem Safe.pure {a : α} {Q : α → Prop} (h : Q a) : Safe F (pure a) Q := by
  intro s hs
  refine ⟨by simp [Rd.pure_def], ?_⟩
  intro b s' e
  cases e
  exact ⟨hs, h⟩

theorem Safe.bind {m : Rd α} {f : α → Rd β} {P : α → Prop} {Q : β → Prop} (hm : Safe F m P) (hf : ∀ a, P a → Safe F (f a) Q) :
    Safe F (m >>= f) Q := by
  intro s hs
  rw [Rd.bind_def]
  obtain ⟨h1, h2⟩ := hm s hs
  cases h : m s with
  | ok r => obtain ⟨a, t⟩ := r; exact hf a (h2 a t h).2 t (h2 a t h).1
  | throw x => simp
  | abort => simp
  | ub => exact absurd h h1
  | hang => simp

theorem Safe.mono {m : Rd α} {P Q : α → Prop} (h : Safe F m P) (hq : ∀ a, P a → Q a) : Safe F m Q :=
  fun s hs => ⟨(h s hs).1, fun a s' e => ⟨((h s hs).2 a s' e).1, hq a ((h s hs).2 a s' e).2⟩⟩

theorem Safe.any {m : Rd α} {P : α → Prop} (h : Safe F m P) : Safe F m fun _ => True := h.mono fun _ _ => trivial

theorem Safe.post {m : Rd α} {P Q : α → Prop} (h : Safe F m P) (hq : Post m Q) : Safe F m fun a => P a ∧ Q a :=
  fun s hs => ⟨(h s hs).1, fun a s' e => ⟨((h s hs).2 a s' e).1, ((h s hs).2 a s' e).2, hq s a s' e⟩⟩

theorem Safe.skip {m : Rd α} {f : α → Rd β} {Q : β → Prop} (hm : Safe F m fun _ => True) (hf : ∀ a, Safe F (f a) Q) :
    Safe F (m >>= f) Q := hm.bind fun a _ => hf a

theorem Safe.throw {e : Exc} {Q : α → Prop} : Safe F (Rd.throw e) Q := by
  intro s _
  exact ⟨by simp [Rd.throw], fun a s' h => by cases h⟩

theorem Safe.lift {x : Outcome α} {Q : α → Prop} (h : x ≠ .ub) (hq : OPost x Q) : Safe F (Rd.lift x) Q := by
  intro s hs
  unfold Rd.lift
  cases x with
  | ok b => exact ⟨by simp, fun a s' e => by cases e; exact ⟨hs, hq _ rfl⟩⟩
  | throw x => exact ⟨by simp, fun a s' e => by cases e⟩
  | abort => exact ⟨by simp, fun a s' e => by cases e⟩
  | ub => exact absurd rfl h
  | hang => exact ⟨by simp, fun a s' e => by cases e⟩

theorem Safe.ite {c : Prop} [Decidable c] {m n : Rd α} {Q : α → Prop} (h1 : c → Safe F m Q) (h2 : ¬ c → Safe F n Q) :
    Safe F (if c then m else n) Q := by
  split
  · exact h1 ‹_›
  · exact h2 ‹_›

theorem Safe.of_tame [F.Any] {m : Rd α} (h : Tame m) (hu : ∀ s, m s ≠ .ub) : Safe F m fun _ => True :=
  fun s hs => ⟨hu s, fun a s' e => ⟨Ends.At.all (((h.all s).2 a s' e).suffix.trans hs.1), trivial⟩⟩

/-- A reader of text. -/
theorem Safe.of_text {m : Rd α} (hu : ∀ s, m s ≠ .ub) (h : ∀ s a s', F.At s.rem → m s = .ok (a, s') → F.At s'.rem) : Safe F m fun _ => True :=
  fun s hs => ⟨hu s, fun a s' e => ⟨h s a s' hs e, trivial⟩⟩

theorem Safe.forEach {f : α → Rd α} {P Q : α → Prop} (h : ∀ a, P a → Safe F (f a) Q) (l : List α) (hl : ∀ a ∈ l, P a) :
    Safe F (forEach f l) fun l' => l'.length = l.length ∧ ∀ a ∈ l', Q a := by
  induction l with
  | nil => exact Safe.pure ⟨rfl, by simp⟩
  | cons a l ih =>
    unfold MshIO.forEach
    refine Safe.bind (h a (hl a List.mem_cons_self)) fun a' ha => Safe.bind (ih fun b hb => hl b (List.mem_cons_of_mem _ hb))
      fun l' hl => Safe.pure ⟨by simp [hl.1], ?_⟩
    intro x hx
    rcases List.mem_cons.mp hx with rfl | hx
    · exact ha
    · exact hl.2 x hx

theorem Safe.each {f : α → Rd α} (h : ∀ a, Safe F (f a) fun _ => True) (l : List α) : Safe F (MshIO.forEach f l) fun _ => True :=
  (Safe.forEach (P := fun _ => True) (fun a _ => h a) l fun _ _ => trivial).any

theorem Safe.loopN {f : Nat → σ → Rd σ} {P : σ → Prop} (n : Nat) : ∀ i st, P st →
    (∀ j st, i ≤ j → j < i + n → P st → Safe F (f j st) P) → Safe F (loopN f n i st) P := by
  induction n with
  | zero => intro i st h _; exact Safe.pure h
  | succ n ih =>
    intro i st h hf
    unfold MshIO.loopN
    exact Safe.bind (hf i st (by omega) (by omega) h) fun st' h' => ih (i + 1) st' h' fun j st hj hj' => hf j st (by omega) (by omega)

/-! ## Primitive readers -/

theorem isDigit_space {c : UInt8} (h : isSpace c = true) : isDigit c = false ∧ c ≠ 46 := by
  constructor
  · cases hd : isDigit c with
    | false => rfl
    | true => rw [isSpace_of_isDigit hd] at h; cases h
  · rintro rfl
    exact absurd h (by decide)

theorem Ends.At.skip {r : Bytes} (h : F.At r) : F.At (r.dropWhile isSpace) := by
  have e : r.takeWhile isSpace ++ r.dropWhile isSpace = r := List.takeWhile_append_dropWhile
  rcases List.eq_nil_or_concat (r.takeWhile isSpace) with h0 | ⟨p, c, h0⟩
  · rw [h0, List.nil_append] at e; rw [e]; exact h
  · have hc : isSpace c = true := by
      have : c ∈ r.takeWhile isSpace := by rw [h0]; simp
      exact List.all_eq_true.mp List.all_takeWhile c this
    refine Ends.At.past (p := p) (c := c) ?_ (isDigit_space hc).1 (isDigit_space hc).2
    have : p ++ c :: r.dropWhile isSpace = r := by
      have e' := e
      rw [h0] at e'
      simpa using e'
    rw [this]; exact h.1

theorem sentry_at {s : Stream} (h : F.At s.rem) : F.At (sentry s).2.rem := by
  unfold sentry
  split
  · have := h.skip
    split
    · exact Ends.At.nil
    · rename_i e; rw [e] at this; exact this
  · exact h

theorem head_dropWhile {p : UInt8 → Bool} {r : Bytes} : ∀ c ∈ (r.dropWhile p).head?, p c = false := by
  intro c hc
  have := List.head?_dropWhile_not p r
  rw [hc] at this
  simpa using this

theorem scanInt_at {b : Bytes} (h : F.At b) : F.At (scanInt b).2.2 :=
  h.next (by unfold scanInt; exact (List.dropWhile_suffix _).trans (scanSign_suffix b)) (by unfold scanInt; exact head_dropWhile)

theorem scanFrac_next (r : Bytes) (h : ∀ c ∈ r.head?, isDigit c = false) : (scanFrac r).2 <:+ r ∧ ∀ c ∈ (scanFrac r).2.head?, isDigit c = false := by
  unfold scanFrac
  split
  · exact ⟨(List.dropWhile_suffix _).trans (List.suffix_cons _ _), head_dropWhile⟩
  · exact ⟨List.suffix_refl _, h⟩

theorem scanFloat_at {b : Bytes} (h : F.At b) : F.At (scanFloat b).rest := by
  have h1 : (scanSign b).2.dropWhile isDigit <:+ b := (List.dropWhile_suffix _).trans (scanSign_suffix b)
  obtain ⟨h2, h3⟩ := scanFrac_next ((scanSign b).2.dropWhile isDigit) head_dropWhile
  unfold scanFloat
  simp only
  split
  · rename_i c r' e
    rw [e] at h2 h3
    split
    · refine h.next ?_ head_dropWhile
      exact (List.dropWhile_suffix _).trans ((scanSign_suffix _).trans ((List.suffix_cons _ _).trans (h2.trans h1)))
    · exact h.next (h2.trans h1) h3
  · exact Ends.At.nil

theorem quotedBody_at (r : Bytes) (h : r <:+ F.bytes) : F.At (quotedBody r).2.rem := by
  fun_induction quotedBody r with
  | case1 => exact Ends.At.nil
  | case2 r => exact Ends.At.past (p := []) h (by decide) (by decide)
  | case3 => exact Ends.At.nil
  | case4 c r t s e ih =>
    rw [e] at ih
    exact ih (List.IsSuffix.trans ⟨[92, c], rfl⟩ h)
  | case5 c r _ _ _ t s e ih =>
    rw [e] at ih
    exact ih ((List.suffix_cons _ _).trans h)

theorem inString_at' {o : Bytes} {s s' : Stream} {a : Bytes} (h : F.At s.rem) (e : inString o s = .ok (a, s')) : F.At s'.rem := by
  have hs := sentry_at h
  unfold inString at e
  rcases hh : sentry s with ⟨b, t⟩
  rw [hh] at hs e
  cases b with
  | false => cases e; exact hs
  | true =>
    cases e
    refine hs.next (List.dropWhile_suffix _) fun c hc => ?_
    have := head_dropWhile c hc
    simp only [Bool.not_eq_false'] at this
    exact (isDigit_space this).1

theorem extractSize_cases (s : Stream) : (extractSize s = .ok (none, (sentry s).2)) ∨
    ∃ c r, (sentry s).2 = gs (c :: r) ∧ (c :: r) <:+ s.rem ∧
      extractSize s = .ok (some (convertU64 (scanInt (c :: r)).1 (scanInt (c :: r)).2.1).1,
        ⟨(scanInt (c :: r)).2.2, (scanInt (c :: r)).2.2.isEmpty, (convertU64 (scanInt (c :: r)).1 (scanInt (c :: r)).2.1).2⟩) := by
  obtain ⟨h1, h2, h3⟩ := sentry_step s
  unfold extractSize
  rcases hs : sentry s with ⟨b, s'⟩
  rw [hs] at h1 h2 h3
  cases b with
  | false => exact Or.inl rfl
  | true =>
    obtain ⟨_, c, r, e, _, hr⟩ := h2 rfl
    simp only at e
    subst e
    exact Or.inr ⟨c, r, rfl, hr, rfl⟩

theorem extractInt_cases (s : Stream) : (extractInt s = .ok (none, (sentry s).2)) ∨
    ∃ c r, (sentry s).2 = gs (c :: r) ∧ (c :: r) <:+ s.rem ∧
      extractInt s = .ok (some (convertI32 (scanInt (c :: r)).1 (scanInt (c :: r)).2.1).1,
        ⟨(scanInt (c :: r)).2.2, (scanInt (c :: r)).2.2.isEmpty, (convertI32 (scanInt (c :: r)).1 (scanInt (c :: r)).2.1).2⟩) := by
  obtain ⟨h1, h2, h3⟩ := sentry_step s
  unfold extractInt
  rcases hs : sentry s with ⟨b, s'⟩
  rw [hs] at h1 h2 h3
  cases b with
  | false => exact Or.inl rfl
  | true =>
    obtain ⟨_, c, r, e, _, hr⟩ := h2 rfl
    simp only at e
    subst e
    exact Or.inr ⟨c, r, rfl, hr, rfl⟩

theorem safe_extractSize : Safe F extractSize fun _ => True :=
  Safe.of_text (fun s => by rcases extractSize_cases s with h | ⟨_, _, _, _, h⟩ <;> rw [h] <;> simp) fun s a s' hs e => by
    have h1 := sentry_at hs
    rcases extractSize_cases s with h | ⟨c, r, h2, _, h⟩
    · rw [h] at e; cases e; exact h1
    · rw [h] at e; cases e
      rw [h2] at h1
      exact scanInt_at h1

theorem safe_extractInt : Safe F extractInt fun _ => True :=
  Safe.of_text (fun s => by rcases extractInt_cases s with h | ⟨_, _, _, _, h⟩ <;> rw [h] <;> simp) fun s a s' hs e => by
    have h1 := sentry_at hs
    rcases extractInt_cases s with h | ⟨c, r, h2, _, h⟩
    · rw [h] at e; cases e; exact h1
    · rw [h] at e; cases e
      rw [h2] at h1
      exact scanInt_at h1

theorem safe_extractDouble : Safe F extractDouble fun _ => True := by
  refine Safe.of_text (fun s => by unfold extractDouble; split <;> simp) fun s a s' hs e => ?_
  have h1 := sentry_at hs
  unfold extractDouble at e
  rcases hh : sentry s with ⟨b, t⟩
  rw [hh] at h1 e
  cases b with
  | false => cases e; exact h1
  | true => cases e; exact scanFloat_at h1

theorem safe_inSize (o : UInt64) : Safe F (inSize o) fun _ => True := Safe.skip safe_extractSize fun _ => Safe.pure trivial
theorem safe_inInt (o : Int32) : Safe F (inInt o) fun _ => True := Safe.skip safe_extractInt fun _ => Safe.pure trivial
theorem safe_inDouble (o : Double) : Safe F (inDouble o) fun _ => True := Safe.skip safe_extractDouble fun _ => Safe.pure trivial

theorem inString_ne_ub (o : Bytes) (s : Stream) : inString o s ≠ .ub := by
  unfold inString
  split <;> simp

theorem safe_inString (o : Bytes) : Safe F (inString o) fun _ => True := Safe.of_text (inString_ne_ub o) fun _ _ _ => inString_at'

theorem safe_inQuoted (o : Bytes) : Safe F (inQuoted o) fun _ => True := by
  refine Safe.of_text (fun s => ?_) fun s a s' hs e => ?_
  · unfold inQuoted
    split
    · simp
    · split
      · simp
      · exact inString_ne_ub _ _
  · have h1 := sentry_at hs
    unfold inQuoted at e
    rcases hh : sentry s with ⟨b, t⟩
    rw [hh] at h1 e
    cases b with
    | false => cases e; exact h1
    | true =>
      simp only at e h1
      split at e
      · rename_i r hr
        cases e
        rw [hr] at h1
        exact quotedBody_at r ((List.suffix_cons _ _).trans h1.1)
      · exact inString_at' h1 e

theorem readRaw_ne_ub (o : Bytes) (s : Stream) : readRaw o s ≠ .ub := by
  unfold readRaw
  split
  · split <;> simp
  · simp

theorem safe_readRaw [F.Any] (o : Bytes) : Safe F (readRaw o) fun _ => True := Safe.of_tame (tame_readRaw o) (readRaw_ne_ub o)
theorem safe_readSize [F.Any] (o : UInt64) : Safe F (readSize o) fun _ => True := Safe.skip (safe_readRaw _) fun _ => Safe.pure trivial
theorem safe_readInt [F.Any] (o : Int32) : Safe F (readInt o) fun _ => True := Safe.skip (safe_readRaw _) fun _ => Safe.pure trivial
theorem safe_readDouble [F.Any] (o : Double) : Safe F (readDouble o) fun _ => True := Safe.skip (safe_readRaw _) fun _ => Safe.pure trivial
theorem safe_readSizes [F.Any] (o : List UInt64) : Safe F (readSizes o) fun _ => True := Safe.skip (safe_readRaw _) fun _ => Safe.pure trivial
theorem safe_readInts [F.Any] (o : List Int32) : Safe F (readInts o) fun _ => True := Safe.skip (safe_readRaw _) fun _ => Safe.pure trivial
theorem safe_readDoubles [F.Any] (o : List Double) : Safe F (readDoubles o) fun _ => True := Safe.skip (safe_readRaw _) fun _ => Safe.pure trivial

theorem safe_eatWhiteSpace [F.Any] (n : Nat) : Safe F (eatWhiteSpace n) fun _ => True := Safe.of_tame (tame_eatWhiteSpace n) fun s => by
  unfold eatWhiteSpace
  split <;> simp

theorem safe_assertGood (cfg : Cfg) : Safe F (assertGood cfg) fun _ => True := by
  refine Safe.of_text (fun s => by unfold assertGood; split <;> simp) fun s a s' hs e => ?_
  unfold assertGood at e
  split at e <;> cases e
  exact hs

theorem safe_assertC (cfg : Cfg) (c : Bool) : Safe F (assertC cfg c) fun _ => True := by
  refine Safe.of_text (fun s => by unfold assertC; split <;> simp) fun s a s' hs e => ?_
  unfold assertC at e
  split at e <;> cases e
  exact hs

theorem vecResize_ne_ub (cfg : Cfg) (v : List α) (n : UInt64) (d : α) : vecResize cfg v n d ≠ .ub := by
  unfold vecResize
  split <;> simp

/-- Every element of a resized vector is an old or the default one. -/
theorem vecResize_mem (cfg : Cfg) (v : List α) (n : UInt64) (d : α) {P : α → Prop} (hd : P d) (hv : ∀ a ∈ v, P a) :
    OPost (vecResize cfg v n d) fun l => l.length = n.toNat ∧ n.toNat ≤ cfg.maxCount ∧ ∀ a ∈ l, P a := by
  intro l e
  refine ⟨(OPost.vecResize cfg v n d l e).1, by have := OPost.vecResize cfg v n d l e; omega, ?_⟩
  unfold MshIO.vecResize at e
  split at e
  · cases e
    intro a ha
    rcases List.mem_append.mp ha with h | h
    · exact hv a (List.mem_of_mem_take h)
    · rw [List.eq_of_mem_replicate h]; exact hd
  · cases e

theorem safe_resize (cfg : Cfg) (v : List α) (n : UInt64) (d : α) {P : α → Prop} (hd : P d) (hv : ∀ a ∈ v, P a) :
    Safe F (resize cfg v n d) fun l => l.length = n.toNat ∧ n.toNat ≤ cfg.maxCount ∧ ∀ a ∈ l, P a :=
  Safe.lift (vecResize_ne_ub cfg v n d) (vecResize_mem cfg v n d hd hv)

theorem safe_resize' (cfg : Cfg) (v : List α) (n : UInt64) (d : α) :
    Safe F (resize cfg v n d) fun l => l.length = n.toNat ∧ n.toNat ≤ cfg.maxCount :=
  (safe_resize cfg v n d (P := fun _ => True) trivial fun _ _ => trivial).mono fun _ h => ⟨h.1, h.2.1⟩

theorem safe_inDoubleAt {i : UInt64} {v : List Double} (h : i.toNat < v.length) :
    Safe F (inDoubleAt i v) fun l => l.length = v.length := by
  unfold inDoubleAt
  rw [List.getElem?_eq_getElem h]
  exact Safe.skip (safe_inDouble _) fun _ => Safe.pure (by simp)

theorem safe_inSizeAt {i : UInt64} {v : List UInt64} (h : i.toNat < v.length) :
    Safe F (inSizeAt i v) fun l => l.length = v.length := by
  unfold inSizeAt
  rw [List.getElem?_eq_getElem h]
  exact Safe.skip (safe_inSize _) fun _ => Safe.pure (by simp)

theorem nodesPerElement_ne_ub (t : Int32) : nodesPerElement t ≠ .ub := by
  cases h : mshNodes t with
  | none => rw [mshNodes_none h]; simp
  | some m => rw [(nodesPerElement_of_mshNodes h).1]; simp

theorem safe_nodesPerElement (t : Int32) : Safe F (Rd.lift (nodesPerElement t)) fun n => n.toNat ≤ 56 :=
  Safe.lift (nodesPerElement_ne_ub t) ((nodesPerElement_post t).mono fun _ h => h.2)

/-! ## Small numbers in text -/

def Small32 (v : Int32) : Prop := -(10 ^ 9) < v.toInt ∧ v.toInt < 10 ^ 9
def Small64 (v : UInt64) : Prop := v.toNat < 10 ^ 9 ∨ 2 ^ 64 - 10 ^ 9 < v.toNat

theorem natOfDigits_lt : ∀ (ds : Bytes), (∀ c ∈ ds, isDigit c = true) → natOfDigits ds < 10 ^ ds.length := by
  intro ds
  induction ds using List.reverseRecOn with
  | nil => intro _; decide
  | append_singleton ds c ih =>
    intro h
    have h1 := ih fun x hx => h x (List.mem_append_left _ hx)
    have hc : isDigit c = true := h c (by simp)
    have h2 : natOfDigits [c] < 10 := by
      simp only [isDigit, Bool.and_eq_true, decide_eq_true_eq] at hc
      have := UInt8.le_iff_toNat_le.mp hc.1
      have := UInt8.le_iff_toNat_le.mp hc.2
      simp only [natOfDigits, List.foldl_cons, List.foldl_nil]
      simp at *
      omega
    rw [natOfDigits_append, List.length_append]
    simp only [List.length_singleton, pow_succ, pow_zero, one_mul]
    omega

/-- Reading text with at most nine digits before decimal points. -/
structure Ends.Small (F : Ends) : Prop where
  whole : F.whole = true
  digits : NineDigits F.bytes

theorem scanInt_digits {b : Bytes} (hn : F.Small) (hb : F.At b) : natOfDigits (scanInt b).2.1 < 10 ^ 9 := by
  have hd : ∀ c ∈ (scanInt b).2.1, isDigit c = true := by
    intro c hc
    unfold scanInt at hc
    exact List.all_eq_true.mp List.all_takeWhile c hc
  have h1 := natOfDigits_lt _ hd
  have h2 : (scanInt b).2.1.length ≤ 9 := by
    by_cases h0 : (scanInt b).2.1 = []
    · rw [h0]; simp
    obtain ⟨q, hq⟩ := hb.1
    have hr : (scanInt b).2.1 ++ (scanInt b).2.2 = (scanSign b).2 := by unfold scanInt; exact List.takeWhile_append_dropWhile
    have hcase : (scanSign b).2 = b ∨ ∃ c, b = c :: (scanSign b).2 ∧ isDigit c = false ∧ c ≠ 46 := by
      unfold scanSign
      split
      · exact Or.inr ⟨45, rfl, by decide, by decide⟩
      · exact Or.inr ⟨43, rfl, by decide, by decide⟩
      · exact Or.inl rfl
    rcases hcase with h | ⟨c, h, hc1, hc2⟩
    · rw [h] at hr
      refine hn.digits q _ (scanInt b).2.2 (by rw [List.append_assoc, hr, hq]) ?_ hd
      intro c hc
      obtain ⟨d, t, e⟩ : ∃ d t, (scanInt b).2.1 = d :: t := List.exists_cons_of_ne_nil h0
      have hdd : isDigit d = true := hd d (by rw [e]; simp)
      have hin := hb.2 hn.whole
      obtain ⟨q', rfl⟩ : ∃ q', q = q' ++ [c] := by
        rw [Option.mem_def, List.getLast?_eq_some_iff] at hc
        exact hc
      have hb' : b = d :: (t ++ (scanInt b).2.2) := by rw [← List.cons_append, ← e, hr]
      have hF : F.bytes = q' ++ c :: d :: (t ++ (scanInt b).2.2) := by
        rw [← hb', ← hq]
        simp
      constructor
      · cases hcd : isDigit c with
        | false => rfl
        | true => exact absurd ⟨q', c, d, _, hF, hb', hdd, Or.inl hcd⟩ hin
      · intro hc46
        exact hin ⟨q', c, d, _, hF, hb', hdd, Or.inr hc46⟩
    · refine hn.digits (q ++ [c]) _ (scanInt b).2.2 (by rw [List.append_assoc, hr, List.append_assoc, List.singleton_append, ← h, hq]) ?_ hd
      intro c' hc'
      simp only [List.getLast?_append, List.getLast?_singleton, Option.some_or, Option.mem_def, Option.some.injEq] at hc'
      subst hc'
      exact ⟨hc1, hc2⟩
  exact lt_of_lt_of_le h1 (Nat.pow_le_pow_right (by decide) h2)

theorem convertI32_small (neg : Bool) {ds : Bytes} (h : natOfDigits ds < 10 ^ 9) : Small32 (convertI32 neg ds).1 := by
  unfold convertI32
  split
  · exact ⟨by decide, by decide⟩
  · have key : ∀ v : Int, -(10 ^ 9) < v → v < 10 ^ 9 → (Int32.ofInt v).toInt = v := fun v h1 h2 =>
      Int32.toInt_ofInt_of_le (by omega) (by omega)
    cases neg
    · simp only [Bool.false_eq_true, if_false]
      rw [if_neg (by omega), if_neg (by omega)]
      constructor <;> rw [key _ (by omega) (by omega)] <;> omega
    · simp only [if_true]
      rw [if_neg (by omega), if_neg (by omega)]
      constructor <;> rw [key _ (by omega) (by omega)] <;> omega

theorem convertU64_small (neg : Bool) {ds : Bytes} (h : natOfDigits ds < 10 ^ 9) : Small64 (convertU64 neg ds).1 := by
  unfold convertU64
  split
  · exact Or.inl (by decide)
  · rw [if_neg (by omega)]
    have e : (UInt64.ofNat (natOfDigits ds)).toNat = natOfDigits ds := by
      rw [UInt64.toNat_ofNat', Nat.mod_eq_of_lt (by omega)]
    cases neg
    · left
      simp only [Bool.false_eq_true, if_false, e]
      exact h
    · simp only [if_true]
      unfold Small64
      rw [UInt64.toNat_sub, e]
      simp
      omega

theorem safe_inInt_small (hn : F.Small) {o : Int32} (ho : Small32 o) : Safe F (inInt o) Small32 := by
  refine Safe.bind (P := fun x => ∀ v, x = some v → Small32 v) ?_ fun x hx => Safe.pure ?_
  · intro s hs
    refine ⟨(safe_extractInt s hs).1, fun a s' e => ⟨((safe_extractInt s hs).2 a s' e).1, ?_⟩⟩
    rcases extractInt_cases s with h | ⟨c, r, h0, h1, h⟩
    · rw [h] at e; cases e; simp
    · rw [h] at e; cases e
      intro v hv
      cases hv
      exact convertI32_small _ (scanInt_digits hn (by have := sentry_at hs; rw [h0] at this; exact this))
  · cases x with
    | none => exact ho
    | some v => exact hx v rfl

theorem safe_inSize_small (hn : F.Small) {o : UInt64} (ho : Small64 o) : Safe F (inSize o) Small64 := by
  refine Safe.bind (P := fun x => ∀ v, x = some v → Small64 v) ?_ fun x hx => Safe.pure ?_
  · intro s hs
    refine ⟨(safe_extractSize s hs).1, fun a s' e => ⟨((safe_extractSize s hs).2 a s' e).1, ?_⟩⟩
    rcases extractSize_cases s with h | ⟨c, r, h0, h1, h⟩
    · rw [h] at e; cases e; simp
    · rw [h] at e; cases e
      intro v hv
      cases hv
      exact convertU64_small _ (scanInt_digits hn (by have := sentry_at hs; rw [h0] at this; exact this))
  · cases x with
    | none => exact ho
    | some v => exact hx v rfl

/-! ## `$Nodes` and `$Elements` of text files -/

/-- What the loader keeps about a node block while it reads a text file with small numbers. -/
def NodeBlock.Calm (b : NodeBlock) : Prop := Small32 b.entityDim ∧ Small64 b.numNodesInBlock

theorem toNat_mul_add {a b c : UInt64} (h : a.toNat * b.toNat + c.toNat < 2 ^ 64) : (a * b + c).toNat = a.toNat * b.toNat + c.toNat := by
  rw [UInt64.toNat_add, UInt64.toNat_mul]
  rw [Nat.mod_eq_of_lt (a := a.toNat * b.toNat) (by omega), Nat.mod_eq_of_lt (by omega)]

theorem row_index {j k e n : Nat} (hj : j < n) (hk : k < e) : j * e + k < n * e := by
  calc j * e + k < j * e + e := by omega
    _ = (j + 1) * e := by ring
    _ ≤ n * e := Nat.mul_le_mul_right _ hj

/-- A product of a small count and a row width that a vector can hold did not wrap, unless there are no rows. -/
theorem no_wrap {n e L : Nat} (hn : n < 10 ^ 9) (he : e < 2 ^ 31 ∨ (2 ^ 64 - 2 ^ 31 ≤ e ∧ e < 2 ^ 64)) (h : L = n * e % 2 ^ 64) (hL : L < 2 ^ 60) :
    n = 0 ∨ n * e = L := by
  rcases he with he | he
  · right
    rw [h, Nat.mod_eq_of_lt]
    calc n * e ≤ 10 ^ 9 * 2 ^ 31 := Nat.mul_le_mul (by omega) (by omega)
      _ < 2 ^ 64 := by norm_num
  · by_cases hz : n = 0
    · exact Or.inl hz
    · exfalso
      obtain ⟨k, hk⟩ : ∃ k, k = 2 ^ 64 - e := ⟨_, rfl⟩
      have h1 : e = 2 ^ 64 - k := by omega
      have hk1 : 1 ≤ k := by omega
      have hk2 : k ≤ 2 ^ 31 := by omega
      have h2 : n * k ≤ 10 ^ 9 * 2 ^ 31 := Nat.mul_le_mul (by omega) hk2
      have h3 : n ≤ n * k := Nat.le_mul_of_pos_right _ hk1
      have h4 : n * e + n * k = n * 2 ^ 64 := by rw [← Nat.mul_add]; congr 1; omega
      omega

theorem loop_rows_double {e : UInt64} {n : Nat} {L : Nat} (hL : L < 2 ^ 60) (hn : n < 2 ^ 60) (h : n = 0 ∨ n * e.toNat = L) (data : List Double)
    (hd : data.length = L) :
    Safe F (loopN (fun j data => loopN (fun k data => inDoubleAt (UInt64.ofNat j * e + UInt64.ofNat k) data) e.toNat 0 data) n 0 data)
      fun l => l.length = L := by
  rcases h with rfl | h
  · exact Safe.pure hd
  refine Safe.loopN _ _ _ hd fun j st _ hj hst => Safe.loopN _ _ _ hst fun k st _ hk hst => ?_
  have hi := row_index (e := e.toNat) (j := j) (k := k) (n := n) (by omega) (by omega)
  have e1 : (UInt64.ofNat j).toNat = j := by rw [UInt64.toNat_ofNat', Nat.mod_eq_of_lt (by omega)]
  have e2 : (UInt64.ofNat k).toNat = k := by
    rw [UInt64.toNat_ofNat', Nat.mod_eq_of_lt]; have := e.toNat_lt; omega
  exact (safe_inDoubleAt (by rw [toNat_mul_add] <;> rw [e1, e2] <;> omega)).mono fun l hl => hl.trans hst

theorem loop_rows_size {e : UInt64} {m : Nat} (hm : m = e.toNat) {n : Nat} {L : Nat} (hL : L < 2 ^ 60) (hn : n < 2 ^ 60) (h : n = 0 ∨ n * e.toNat = L)
    (data : List UInt64) (hd : data.length = L) :
    Safe F (loopN (fun j data => loopN (fun k data => inSizeAt (UInt64.ofNat j * e + UInt64.ofNat k) data) m 0 data) n 0 data)
      fun l => l.length = L := by
  subst hm
  rcases h with rfl | h
  · exact Safe.pure hd
  refine Safe.loopN _ _ _ hd fun j st _ hj hst => Safe.loopN _ _ _ hst fun k st _ hk hst => ?_
  have hi := row_index (e := e.toNat) (j := j) (k := k) (n := n) (by omega) (by omega)
  have e1 : (UInt64.ofNat j).toNat = j := by rw [UInt64.toNat_ofNat', Nat.mod_eq_of_lt (by omega)]
  have e2 : (UInt64.ofNat k).toNat = k := by
    rw [UInt64.toNat_ofNat', Nat.mod_eq_of_lt]; have := e.toNat_lt; omega
  exact (safe_inSizeAt (by rw [toNat_mul_add] <;> rw [e1, e2] <;> omega)).mono fun l hl => hl.trans hst

theorem safe_entriesPerNode (p : Int32) {d : Int32} (h : Small32 d) :
    Safe F (Rd.lift (entriesPerNode p d)) fun e => e.toNat < 2 ^ 31 ∨ (2 ^ 64 - 2 ^ 31 ≤ e.toNat ∧ e.toNat < 2 ^ 64) := by
  obtain ⟨h1, h2⟩ := h
  unfold entriesPerNode
  split
  · rw [if_neg (by omega)]
    refine Safe.lift (by simp) (OPost.ok ?_)
    have h3 := toNat_sizeOfInt (3 + d)
    have h4 : (3 + d).toInt = 3 + d.toInt := by
      rw [Int32.toInt_add, show (3 : Int32).toInt = 3 from rfl]
      exact Int.bmod_eq_of_le (by omega) (by omega)
    rw [h4] at h3
    split at h3 <;> omega
  · exact Safe.lift (by simp) (OPost.ok (Or.inl (by decide)))

theorem safe_nodeBlockAscii41 (cfg : Cfg) (hn : F.Small) {b : NodeBlock} (hb : b.Calm) :
    Safe F (loadNodeBlockAscii41 cfg b) NodeBlock.Calm := by
  unfold loadNodeBlockAscii41
  refine Safe.bind (safe_inInt_small hn hb.1) fun d hd => Safe.skip (safe_inInt _) fun t => Safe.skip (safe_inInt _) fun p =>
    Safe.bind (safe_inSize_small hn hb.2) fun num hnum => Safe.skip (safe_assertGood cfg) fun _ =>
    Safe.bind (safe_resize' cfg _ num _) fun tags htags => Safe.skip (Safe.each safe_inSize _) fun tags' =>
    Safe.skip (safe_assertGood cfg) fun _ => Safe.skip (safe_assertC cfg _) fun _ =>
    Safe.bind (safe_entriesPerNode p hd) fun e he => Safe.bind (safe_resize' cfg _ _ _) fun data hdata => ?_
  have hm := cfg.maxCount_lt
  have hlt : num.toNat < 10 ^ 9 := by
    rcases hnum with h | h
    · exact h
    · omega
  have hL : (num * e).toNat = num.toNat * e.toNat % 2 ^ 64 := UInt64.toNat_mul ..
  exact Safe.bind (loop_rows_double (by omega) (by omega) (no_wrap hlt he hL (by omega)) data hdata.1) fun data' _ =>
    Safe.skip (safe_assertGood cfg) fun _ => Safe.pure ⟨hd, hnum⟩

def ElementBlock.Calm (b : ElementBlock) : Prop := Small64 b.numElementsInBlock

theorem safe_elementBlockAscii41 (cfg : Cfg) (hn : F.Small) {b : ElementBlock} (hb : b.Calm) :
    Safe F (loadElementBlockAscii41 cfg b) ElementBlock.Calm := by
  unfold loadElementBlockAscii41
  refine Safe.skip (safe_inInt _) fun d => Safe.skip (safe_inInt _) fun t => Safe.skip (safe_inInt _) fun p =>
    Safe.bind (safe_inSize_small hn hb) fun num hnum => Safe.bind (safe_nodesPerElement p) fun n hn56 =>
    Safe.bind (safe_resize' cfg _ _ _) fun data hdata => ?_
  have hm := cfg.maxCount_lt
  have hs := toNat_succ hn56
  have hL : (num * (n + 1)).toNat = num.toNat * (n.toNat + 1) % 2 ^ 64 := by rw [UInt64.toNat_mul, hs]
  have hlt : num.toNat < 10 ^ 9 := by
    rcases hnum with h | h
    · exact h
    · exfalso
      have hlt := num.toNat_lt
      obtain ⟨k, hk⟩ : ∃ k, k = 2 ^ 64 - num.toNat := ⟨_, rfl⟩
      have h2 : k * (n.toNat + 1) ≤ 10 ^ 9 * 57 := Nat.mul_le_mul (by omega) (by omega)
      have h3 : k ≤ k * (n.toNat + 1) := Nat.le_mul_of_pos_right _ (by omega)
      have h4 : num.toNat * (n.toNat + 1) + k * (n.toNat + 1) = 2 ^ 64 * (n.toNat + 1) := by rw [← Nat.add_mul]; congr 1; omega
      omega
  rw [← hs] at hL
  exact Safe.bind (loop_rows_size hs.symm (by omega) (by omega) (no_wrap hlt (Or.inl (by omega)) hL (by omega)) data hdata.1) fun data' _ =>
    Safe.skip (safe_assertGood cfg) fun _ => Safe.pure hnum

def Nodes.Calm (n : Nodes) : Prop := ∀ b ∈ n.entityBlocks, b.Calm
def Elements.Calm (n : Elements) : Prop := ∀ b ∈ n.entityBlocks, b.Calm

theorem safe_nodesAscii41 (cfg : Cfg) (hn : F.Small) {n : Nodes} (h : n.Calm) : Safe F (loadNodesAscii41 cfg n) Nodes.Calm := by
  unfold loadNodesAscii41
  exact Safe.skip (safe_inSize _) fun nb => Safe.skip (safe_inSize _) fun _ => Safe.skip (safe_inSize _) fun _ => Safe.skip (safe_inSize _) fun _ =>
    Safe.skip (safe_assertGood cfg) fun _ => Safe.bind (safe_resize cfg _ nb _ (P := NodeBlock.Calm) ⟨⟨by decide, by decide⟩, Or.inl (by decide)⟩ h) fun bs hbs =>
    Safe.bind (Safe.forEach (fun _ => safe_nodeBlockAscii41 cfg hn) bs hbs.2.2) fun bs' h' => Safe.pure h'.2

theorem safe_elementsAscii41 (cfg : Cfg) (hn : F.Small) {n : Elements} (h : n.Calm) : Safe F (loadElementsAscii41 cfg n) Elements.Calm := by
  unfold loadElementsAscii41
  exact Safe.skip (safe_inSize _) fun nb => Safe.skip (safe_inSize _) fun _ => Safe.skip (safe_inSize _) fun _ => Safe.skip (safe_inSize _) fun _ =>
    Safe.skip (safe_assertGood cfg) fun _ => Safe.bind (safe_resize cfg _ nb _ (P := ElementBlock.Calm) (Or.inl (by decide)) h) fun bs hbs =>
    Safe.bind (Safe.forEach (fun _ => safe_elementBlockAscii41 cfg hn) bs hbs.2.2) fun bs' h' => Safe.pure h'.2

/-! ## Builds with assertions stop at a short read -/

/-- On a stream that is not good the reader is stopped by an assertion. -/
def Stops (m : Rd α) : Prop := ∀ s, s.good = false → m s = .abort

theorem stops_assertGood {cfg : Cfg} (ha : cfg.asserts = true) (f : Unit → Rd β) : Stops (assertGood cfg >>= f) := by
  intro s hs
  rw [Rd.bind_def]
  simp [assertGood, ha, hs]

theorem readSizeVar_bad {s : Stream} (h : s.good = false) : readSizeVar s = .ok (none, { s with fail := true }) := by
  simp [readSizeVar, h]

theorem stops_var {f : Option UInt64 → Rd β} (h : Stops (f none)) : Stops (readSizeVar >>= f) := by
  intro s hs
  rw [Rd.bind_def, readSizeVar_bad hs]
  exact h _ (by simp [Stream.good])

theorem Safe.var [F.Any] {f : Option UInt64 → Rd β} {Q : β → Prop} (h : ∀ v, Safe F (f (some v)) Q) (hn : Stops (f none)) : Safe F (readSizeVar >>= f) Q := by
  intro s hs
  rw [Rd.bind_def]
  have hbad : ∀ t : Stream, t.good = false → f none t ≠ .ub ∧ ∀ a s', f none t = .ok (a, s') → F.At s'.rem ∧ Q a := by
    intro t ht
    rw [hn t ht]
    exact ⟨by simp, fun a s' e => by cases e⟩
  by_cases hg : s.good = true
  · by_cases h8 : 8 ≤ s.rem.length
    · have e : readSizeVar s = .ok (some (decodeU64 (s.rem.take 8)), ⟨s.rem.drop 8, false, false⟩) := by simp [readSizeVar, hg, h8]
      rw [e]
      exact h _ _ (Ends.At.all ((List.drop_suffix _ _).trans hs.1))
    · have e : readSizeVar s = .ok (none, ⟨[], true, true⟩) := by simp [readSizeVar, hg, h8]
      rw [e]
      exact hbad _ rfl
  · rw [readSizeVar_bad (by simpa using hg)]
    exact hbad _ (by simp [Stream.good])

theorem safe_useVar (v : α) : Safe F (useVar (some v)) fun _ => True := Safe.pure trivial

theorem safe_elementBlockBinary41 [F.Any] (cfg : Cfg) (b : ElementBlock) : Safe F (loadElementBlockBinary41 cfg b) fun _ => True := by
  unfold loadElementBlockBinary41
  exact Safe.skip (safe_readInt _) fun d => Safe.skip (safe_readInt _) fun t => Safe.skip (safe_readInt _) fun p =>
    Safe.skip (safe_readSize _) fun num => Safe.skip (safe_nodesPerElement p).any fun n => Safe.skip (safe_resize' cfg _ _ _).any fun data =>
    Safe.skip (safe_readSizes _) fun _ => Safe.skip (safe_assertGood cfg) fun _ => Safe.pure trivial

theorem safe_elementsBinary41 [F.Any] (cfg : Cfg) (n : Elements) : Safe F (loadElementsBinary41 cfg n) fun _ => True := by
  unfold loadElementsBinary41
  exact Safe.skip (safe_eatWhiteSpace _) fun _ => Safe.skip (safe_readSize _) fun nb => Safe.skip (safe_readSize _) fun _ =>
    Safe.skip (safe_readSize _) fun _ => Safe.skip (safe_readSize _) fun _ => Safe.skip (safe_assertGood cfg) fun _ =>
    Safe.skip (safe_resize' cfg _ nb _).any fun bs => Safe.skip (Safe.each (safe_elementBlockBinary41 cfg) bs) fun bs' => Safe.pure trivial

/-! ## Binary `$Entities` in builds with assertions -/

theorem safe_intListBinary [F.Any] {cfg : Cfg} (ha : cfg.asserts = true) (v : List Int32) : Safe F (loadIntListBinary cfg v) fun _ => True := by
  unfold loadIntListBinary
  exact Safe.var (fun n => Safe.skip (safe_assertGood cfg) fun _ => Safe.skip (safe_useVar n) fun n => Safe.skip (safe_resize' cfg _ _ _).any fun v =>
    Safe.skip (safe_readInts v) fun v => Safe.skip (safe_assertGood cfg) fun _ => Safe.pure trivial) (stops_assertGood ha _)

theorem safe_pointBinary [F.Any] {cfg : Cfg} (ha : cfg.asserts = true) (p : PointEntity) : Safe F (loadPointBinary cfg p) fun _ => True := by
  unfold loadPointBinary
  exact Safe.skip (safe_readInt _) fun _ => Safe.skip (safe_readDouble _) fun _ => Safe.skip (safe_readDouble _) fun _ =>
    Safe.skip (safe_readDouble _) fun _ => Safe.skip (safe_intListBinary ha _) fun _ => Safe.pure trivial

theorem safe_boxBinary [F.Any] {cfg : Cfg} (ha : cfg.asserts = true) (p : BoxEntity) : Safe F (loadBoxBinary cfg p) fun _ => True := by
  unfold loadBoxBinary
  exact Safe.skip (safe_readInt _) fun _ => Safe.skip (safe_readDouble _) fun _ => Safe.skip (safe_readDouble _) fun _ =>
    Safe.skip (safe_readDouble _) fun _ => Safe.skip (safe_readDouble _) fun _ => Safe.skip (safe_readDouble _) fun _ => Safe.skip (safe_readDouble _) fun _ =>
    Safe.skip (safe_intListBinary ha _) fun _ => Safe.skip (safe_intListBinary ha _) fun _ => Safe.pure trivial

theorem safe_entitiesBinary41 [F.Any] {cfg : Cfg} (ha : cfg.asserts = true) (e : Entities) : Safe F (loadEntitiesBinary41 cfg e) fun _ => True := by
  unfold loadEntitiesBinary41
  have st := fun f : Unit → Rd Entities => stops_assertGood (cfg := cfg) ha f
  refine Safe.skip (safe_eatWhiteSpace _) fun _ => Safe.var (fun np => Safe.var (fun nc => Safe.var (fun ns => Safe.var (fun nv => ?_) (st _))
    (stops_var (st _))) (stops_var (stops_var (st _)))) (stops_var (stops_var (stops_var (st _))))
  exact Safe.skip (safe_assertGood cfg) fun _ => Safe.skip (safe_useVar _) fun _ => Safe.skip (safe_resize' cfg _ _ _).any fun _ =>
    Safe.skip (safe_useVar _) fun _ => Safe.skip (safe_resize' cfg _ _ _).any fun _ => Safe.skip (safe_useVar _) fun _ => Safe.skip (safe_resize' cfg _ _ _).any fun _ =>
    Safe.skip (safe_useVar _) fun _ => Safe.skip (safe_resize' cfg _ _ _).any fun _ =>
    Safe.skip (Safe.each (safe_pointBinary ha) _) fun _ => Safe.skip (Safe.each (safe_boxBinary ha) _) fun _ => Safe.skip (Safe.each (safe_boxBinary ha) _) fun _ =>
    Safe.skip (Safe.each (safe_boxBinary ha) _) fun _ => Safe.pure trivial

/-! ## Sections that start with a counter -/

theorem safe_physicalGroup (g : PhysicalGroup) : Safe F (loadPhysicalGroup g) fun _ => True := by
  unfold loadPhysicalGroup
  exact Safe.skip (safe_inInt _) fun _ => Safe.skip (safe_inInt _) fun _ => Safe.skip (safe_inQuoted _) fun _ => Safe.pure trivial

theorem safe_curveHeader (c : Curve) : Safe F (loadCurveHeader c) fun _ => True := by
  unfold loadCurveHeader
  exact Safe.skip (safe_inSize _) fun _ => Safe.skip (safe_inSize _) fun _ => Safe.skip (safe_inSize _) fun _ => Safe.skip (safe_inSize _) fun _ =>
    Safe.skip (safe_inSize _) fun _ => Safe.skip (safe_inSize _) fun _ => Safe.pure trivial

theorem safe_patchHeader (c : Patch) : Safe F (loadPatchHeader c) fun _ => True := by
  unfold loadPatchHeader
  exact Safe.skip (safe_inSize _) fun _ => Safe.skip (safe_inSize _) fun _ => Safe.skip (safe_inSize _) fun _ => Safe.skip (safe_inSize _) fun _ =>
    Safe.skip (safe_inSize _) fun _ => Safe.skip (safe_inSize _) fun _ => Safe.skip (safe_inSize _) fun _ => Safe.skip (safe_inSize _) fun _ =>
    Safe.pure trivial

theorem safe_curveAscii (cfg : Cfg) (c : Curve) : Safe F (loadCurveAscii cfg c) fun _ => True := by
  unfold loadCurveAscii
  exact Safe.skip (safe_curveHeader c) fun _ => Safe.skip (safe_resize' cfg _ _ _).any fun _ => Safe.skip (Safe.each safe_inDouble _) fun _ =>
    Safe.pure trivial
theorem safe_patchAscii (cfg : Cfg) (c : Patch) : Safe F (loadPatchAscii cfg c) fun _ => True := by
  unfold loadPatchAscii
  exact Safe.skip (safe_patchHeader c) fun _ => Safe.skip (safe_resize' cfg _ _ _).any fun _ => Safe.skip (Safe.each safe_inDouble _) fun _ =>
    Safe.pure trivial
theorem safe_curveBinary [F.Any] (cfg : Cfg) (c : Curve) : Safe F (loadCurveBinary cfg c) fun _ => True := by
  unfold loadCurveBinary
  exact Safe.skip (safe_curveHeader c) fun _ => Safe.skip (safe_eatWhiteSpace _) fun _ => Safe.skip (safe_resize' cfg _ _ _).any fun _ =>
    Safe.skip (safe_readDoubles _) fun _ => Safe.pure trivial
theorem safe_patchBinary [F.Any] (cfg : Cfg) (c : Patch) : Safe F (loadPatchBinary cfg c) fun _ => True := by
  unfold loadPatchBinary
  exact Safe.skip (safe_patchHeader c) fun _ => Safe.skip (safe_resize' cfg _ _ _).any fun _ => Safe.skip (safe_eatWhiteSpace _) fun _ =>
    Safe.skip (safe_readDoubles _) fun _ => Safe.pure trivial

/-- What follows a word: white space or nothing. -/
def WsNext (r : Bytes) : Prop := ∀ c ∈ r.head?, isSpace c = true

theorem WsNext.at {name r : Bytes} (h : WsNext r) (hr : name ++ r <:+ F.bytes) : F.At r :=
  ⟨(List.suffix_append name r).trans hr, fun _ ⟨_, _, d, t, _, e, hd, _⟩ => by
    subst e
    rw [(isDigit_space (h d rfl)).1] at hd
    cases hd⟩

/-- Either nothing follows, or there is something to read. -/
theorem sentry_after (r : Bytes) : Blank r ∨ ∃ c t, sentry ⟨r, r.isEmpty, false⟩ = (true, gs (c :: t)) := by
  cases e : r.dropWhile isSpace with
  | nil => exact Or.inl fun c hc => List.dropWhile_eq_nil_iff.mp e c hc
  | cons c t =>
    have hne : r.isEmpty = false := by
      cases r with
      | nil => simp at e
      | cons _ _ => rfl
    refine Or.inr ⟨c, t, ?_⟩
    rw [hne]
    unfold sentry
    simp only [Stream.good, Bool.not_false, Bool.and_self, if_true, e]

theorem sentry_blank {r : Bytes} (h : Blank r) : ∃ s, sentry ⟨r, r.isEmpty, false⟩ = (false, s) := by
  unfold sentry
  have e : r.dropWhile isSpace = [] := List.dropWhile_eq_nil_iff.mpr h
  split
  · rw [e]; exact ⟨_, rfl⟩
  · exact ⟨_, rfl⟩

theorem extractSize_blank {r : Bytes} (h : Blank r) {f : Option UInt64 → Rd β} (hn : ∀ s, f none s = .ub) : (extractSize >>= f) ⟨r, r.isEmpty, false⟩ = .ub := by
  obtain ⟨s, e⟩ := sentry_blank h
  rw [Rd.bind_ok (show extractSize ⟨r, r.isEmpty, false⟩ = .ok (none, s) by unfold extractSize; rw [e])]
  exact hn s

theorem extractInt_blank {r : Bytes} (h : Blank r) {f : Option Int32 → Rd β} (hn : ∀ s, f none s = .ub) : (extractInt >>= f) ⟨r, r.isEmpty, false⟩ = .ub := by
  obtain ⟨s, e⟩ := sentry_blank h
  rw [Rd.bind_ok (show extractInt ⟨r, r.isEmpty, false⟩ = .ok (none, s) by unfold extractInt; rw [e])]
  exact hn s

/-- Right after the word `buf` the reader is undefined only if `H` holds of what follows. -/
def SafeAfter (H : Bytes → Prop) (F : Ends) (buf : Bytes) (m : Rd α) (Q : α → Prop) : Prop := ∀ r, buf ++ r <:+ F.bytes → WsNext r →
  (m ⟨r, r.isEmpty, false⟩ = .ub → H r) ∧ ∀ a s', m ⟨r, r.isEmpty, false⟩ = .ok (a, s') → F.At s'.rem ∧ Q a

variable {H : Bytes → Prop}

theorem Safe.after {buf : Bytes} {m : Rd α} {Q : α → Prop} (h : Safe F m Q) : SafeAfter H F buf m Q :=
  fun r hr hw => ⟨fun hu => absurd hu (h _ (hw.at hr)).1, (h _ (hw.at hr)).2⟩

theorem SafeAfter.bind {buf : Bytes} {m : Rd α} {f : α → Rd β} {P : α → Prop} {Q : β → Prop} (hm : SafeAfter H F buf m P) (hf : ∀ a, P a → Safe F (f a) Q) :
    SafeAfter H F buf (m >>= f) Q := by
  intro r hr hw
  rw [Rd.bind_def]
  obtain ⟨h1, h2⟩ := hm r hr hw
  cases h : m ⟨r, r.isEmpty, false⟩ with
  | ok x =>
    obtain ⟨a, t⟩ := x
    have := hf a (h2 a t h).2 t (h2 a t h).1
    exact ⟨fun hu => absurd hu this.1, this.2⟩
  | throw x => simp
  | abort => simp
  | ub => exact ⟨fun _ => h1 h, fun a s' e => by cases e⟩
  | hang => simp

theorem SafeAfter.weaken {H' : Bytes → Prop} {buf : Bytes} {m : Rd α} {Q : α → Prop} (h : SafeAfter H F buf m Q) (hH : ∀ r, H r → H' r) : SafeAfter H' F buf m Q :=
  fun r hr hw => ⟨fun hu => hH r ((h r hr hw).1 hu), (h r hr hw).2⟩

theorem SafeAfter.absent {buf : Bytes} {m : Rd α} {Q : α → Prop} (h : ¬ buf <:+: F.bytes) : SafeAfter H F buf m Q :=
  fun r hr _ => absurd ((List.prefix_append buf r).isInfix.trans hr.isInfix) h

theorem SafeAfter.ite {buf : Bytes} {c : Prop} [Decidable c] {m n : Rd α} {Q : α → Prop} (h1 : c → SafeAfter H F buf m Q) (h2 : ¬ c → SafeAfter H F buf n Q) :
    SafeAfter H F buf (if c then m else n) Q := by
  split
  · exact h1 ‹_›
  · exact h2 ‹_›

theorem extractSize_after {name : Bytes} {f : Option UInt64 → Rd β} {Q : β → Prop} (hn : ∀ s, f none s = .ub) (hf : ∀ v, Safe F (f (some v)) Q) :
    SafeAfter Blank F name (extractSize >>= f) Q := by
  intro r hr hw
  rcases sentry_after r with hb | ⟨c, t, e⟩
  · rw [extractSize_blank hb hn]
    exact ⟨fun _ => hb, fun a s' e => by cases e⟩
  have hs : F.At (⟨r, r.isEmpty, false⟩ : Stream).rem := hw.at hr
  rw [Rd.bind_def]
  rcases extractSize_cases ⟨r, r.isEmpty, false⟩ with h' | ⟨c', t', _, _, h'⟩
  · exfalso
    unfold extractSize at h'
    rw [e] at h'
    simp at h'
  · have := ((safe_extractSize _ hs).2 _ _ h').1
    rw [h']
    exact ⟨fun hu => absurd hu (hf _ _ this).1, (hf _ _ this).2⟩

theorem extractInt_after {name : Bytes} {f : Option Int32 → Rd β} {Q : β → Prop} (hn : ∀ s, f none s = .ub) (hf : ∀ v, Safe F (f (some v)) Q) :
    SafeAfter Blank F name (extractInt >>= f) Q := by
  intro r hr hw
  rcases sentry_after r with hb | ⟨c, t, e⟩
  · rw [extractInt_blank hb hn]
    exact ⟨fun _ => hb, fun a s' e => by cases e⟩
  have hs : F.At (⟨r, r.isEmpty, false⟩ : Stream).rem := hw.at hr
  rw [Rd.bind_def]
  rcases extractInt_cases ⟨r, r.isEmpty, false⟩ with h' | ⟨c', t', _, _, h'⟩
  · exfalso
    unfold extractInt at h'
    rw [e] at h'
    simp at h'
  · have := ((safe_extractInt _ hs).2 _ _ h').1
    rw [h']
    exact ⟨fun hu => absurd hu (hf _ _ this).1, (hf _ _ this).2⟩

theorem useVar_none (f : α → Rd β) (s : Stream) : (useVar (none : Option α) >>= f) s = .ub := rfl

theorem after_physicalGroups (cfg : Cfg) {buf : Bytes} (gs : List PhysicalGroup) : SafeAfter Blank F buf (loadPhysicalGroups cfg gs) fun _ => True := by
  unfold loadPhysicalGroups
  exact extractInt_after (useVar_none _) fun v => Safe.skip (safe_useVar v) fun _ => Safe.skip (safe_resize' cfg _ _ _).any fun _ =>
    Safe.skip (Safe.each safe_physicalGroup _) fun _ => Safe.skip (safe_assertGood cfg) fun _ => Safe.pure trivial

theorem physicalGroups_blank (cfg : Cfg) (gs : List PhysicalGroup) {r : Bytes} (h : Blank r) : loadPhysicalGroups cfg gs ⟨r, r.isEmpty, false⟩ = .ub := by
  unfold loadPhysicalGroups
  exact extractInt_blank h (useVar_none _)

theorem after_curves (cfg : Cfg) {buf : Bytes} {f : MeshFormat} (hf : f.fileType ≠ 0 → F.whole = false) (cs : List Curve) :
    SafeAfter (fun r => cfg.nanospline = true ∧ Blank r) F buf (loadCurves cfg f cs) fun _ => True := by
  unfold loadCurves
  refine SafeAfter.ite (fun hc => SafeAfter.weaken ?_ fun r h => ⟨hc, h⟩) fun _ => (Safe.pure trivial).after
  exact extractSize_after (useVar_none _) fun v => Safe.skip (safe_useVar v) fun _ => Safe.skip (safe_resize' cfg _ _ _).any fun _ =>
    Safe.ite (fun _ => Safe.each (safe_curveAscii cfg) _) fun h => have : F.Any := ⟨hf h⟩; Safe.each (safe_curveBinary cfg) _

theorem curves_blank {cfg : Cfg} (hc : cfg.nanospline = true) (f : MeshFormat) (cs : List Curve) {r : Bytes} (h : Blank r) : loadCurves cfg f cs ⟨r, r.isEmpty, false⟩ = .ub := by
  unfold loadCurves
  rw [if_pos hc]
  exact extractSize_blank h (useVar_none _)

theorem after_patches (cfg : Cfg) {buf : Bytes} {f : MeshFormat} (hf : f.fileType ≠ 0 → F.whole = false) (cs : List Patch) :
    SafeAfter (fun r => cfg.nanospline = true ∧ Blank r) F buf (loadPatches cfg f cs) fun _ => True := by
  unfold loadPatches
  refine SafeAfter.ite (fun hc => SafeAfter.weaken ?_ fun r h => ⟨hc, h⟩) fun _ => (Safe.pure trivial).after
  exact extractSize_after (useVar_none _) fun v => Safe.skip (safe_useVar v) fun _ => Safe.skip (safe_resize' cfg _ _ _).any fun _ =>
    Safe.ite (fun _ => Safe.each (safe_patchAscii cfg) _) fun h => have : F.Any := ⟨hf h⟩; Safe.each (safe_patchBinary cfg) _

theorem patches_blank {cfg : Cfg} (hc : cfg.nanospline = true) (f : MeshFormat) (cs : List Patch) {r : Bytes} (h : Blank r) : loadPatches cfg f cs ⟨r, r.isEmpty, false⟩ = .ub := by
  unfold loadPatches
  rw [if_pos hc]
  exact extractSize_blank h (useVar_none _)

/-! ## Whole files -/

theorem loadNodes_calm {n : Nodes} : n.Calm → Nodes.Calm (if n.entityBlocks.length = 0 then
      { n with minNodeTag := sizeMax, maxNodeTag := 0, numNodes := 0 } else n) := by
  intro h; split <;> exact h
theorem loadElements_calm {n : Elements} : n.Calm → Elements.Calm (if n.entityBlocks.length = 0 then
      { n with minElementTag := sizeMax, maxElementTag := 0 } else n) := by
  intro h; split <;> exact h

/-- What the loader keeps while it reads a text file. -/
structure MshSpec.Calm (s : MshSpec) : Prop where
  version : s.meshFormat.version = b! "4.1"
  ascii : s.meshFormat.fileType = 0
  nodes : s.nodes.Calm
  elements : s.elements.Calm

theorem forwardToFuel_at {flag : Bytes} : ∀ (k : Nat) (buf : Bytes) (s s' : Stream), F.At s.rem → forwardToFuel flag k buf s = .ok ((), s') → F.At s'.rem := by
  intro k
  induction k with
  | zero => intro _ _ _ _ e; cases e
  | succ k ih =>
    intro buf s s' hs e
    unfold forwardToFuel at e
    split at e
    · cases e; exact hs
    · obtain ⟨b, s1, h1⟩ : ∃ b s1, inString buf s = .ok (b, s1) := by unfold inString; split <;> exact ⟨_, _, rfl⟩
      rw [Rd.bind_ok h1] at e
      exact ih _ _ _ (inString_at' hs h1) e

theorem safe_forwardTo (flag : Bytes) : Safe F (forwardTo flag) fun _ => True := by
  intro s hs
  refine ⟨?_, fun a s' e => ⟨forwardToFuel_at _ _ _ _ hs e, trivial⟩⟩
  rw [forwardTo_eq]
  rcases fwd_cases flag [] s with h | ⟨s', h, st⟩ <;> rw [h] <;> simp

theorem forwardTo_ne_ub (flag : Bytes) (s : Stream) : forwardTo flag s ≠ .ub := (safe_forwardTo (F := ⟨s.rem, false⟩) flag s (Ends.At.refl _)).1

end MshIO
