import Verif.Model.Load
import Verif.Proofs.Num
import Verif.Proofs.Reads
import Verif.Proofs.Loop
import Verif.Proofs.Loops

/-! # What holds of the result of a reader, whatever the input -/

namespace MshIO

variable {α β σ : Type}

/-- Whatever a reader returns satisfies `Q`. -/
def Post (m : Rd α) (Q : α → Prop) : Prop := ∀ s a s', m s = .ok (a, s') → Q a

/-- Whatever a computation returns satisfies `Q`. -/
def OPost (x : Outcome α) (Q : α → Prop) : Prop := ∀ a, x = .ok a → Q a

theorem Post.pure {a : α} {Q : α → Prop} (h : Q a) : Post (pure a) Q := by
  intro s b s' e
  cases e
  exact h

theorem Post.bind {m : Rd α} {f : α → Rd β} {P : α → Prop} {Q : β → Prop} (hm : Post m P) (hf : ∀ a, P a → Post (f a) Q) :
    Post (m >>= f) Q := by
  intro s b s' e
  rw [Rd.bind_def] at e
  cases h : m s with
  | ok r => obtain ⟨a, t⟩ := r; rw [h] at e; exact hf a (hm s a t h) t b s' e
  | throw x => rw [h] at e; cases e
  | abort => rw [h] at e; cases e
  | ub => rw [h] at e; cases e
  | hang => rw [h] at e; cases e

/-- Nothing is known about the first result. -/
theorem Post.skip {m : Rd α} {f : α → Rd β} {Q : β → Prop} (hf : ∀ a, Post (f a) Q) : Post (m >>= f) Q :=
  Post.bind (P := fun _ => True) (fun _ _ _ _ => trivial) fun a _ => hf a

theorem Post.mono {m : Rd α} {P Q : α → Prop} (h : Post m P) (hq : ∀ a, P a → Q a) : Post m Q :=
  fun s a s' e => hq a (h s a s' e)

theorem Post.and {m : Rd α} {P Q : α → Prop} (h : Post m P) (hq : Post m Q) : Post m fun a => P a ∧ Q a :=
  fun s a s' e => ⟨h s a s' e, hq s a s' e⟩

theorem Post.throw {e : Exc} {Q : α → Prop} : Post (Rd.throw e) Q := by intro s a s' h; cases h
theorem Post.ub {Q : α → Prop} : Post (Rd.ub) Q := by intro s a s' h; cases h

theorem Post.lift {x : Outcome α} {Q : α → Prop} (h : OPost x Q) : Post (Rd.lift x) Q := by
  intro s a s' e
  unfold Rd.lift at e
  cases x with
  | ok b => cases e; exact h _ rfl
  | throw x => cases e
  | abort => cases e
  | ub => cases e
  | hang => cases e

theorem Post.ite {c : Prop} [Decidable c] {m n : Rd α} {Q : α → Prop} (h1 : c → Post m Q) (h2 : ¬ c → Post n Q) :
    Post (if c then m else n) Q := by
  split
  · exact h1 ‹_›
  · exact h2 ‹_›

theorem OPost.pure {a : α} {Q : α → Prop} (h : Q a) : OPost (pure a) Q := by
  intro b e
  cases e
  exact h

theorem OPost.ok {a : α} {Q : α → Prop} (h : Q a) : OPost (.ok a) Q := OPost.pure h
theorem OPost.throw {e : Exc} {Q : α → Prop} : OPost (.throw e) Q := by intro a h; cases h
theorem OPost.abort {Q : α → Prop} : OPost .abort Q := by intro a h; cases h
theorem OPost.ub {Q : α → Prop} : OPost .ub Q := by intro a h; cases h

theorem OPost.bind {m : Outcome α} {f : α → Outcome β} {P : α → Prop} {Q : β → Prop} (hm : OPost m P)
    (hf : ∀ a, P a → OPost (f a) Q) : OPost (m >>= f) Q := by
  intro b e
  cases h : m with
  | ok a => rw [h] at e; exact hf a (hm a h) b e
  | throw x => rw [h] at e; cases e
  | abort => rw [h] at e; cases e
  | ub => rw [h] at e; cases e
  | hang => rw [h] at e; cases e

theorem OPost.skip {m : Outcome α} {f : α → Outcome β} {Q : β → Prop} (hf : ∀ a, OPost (f a) Q) : OPost (m >>= f) Q :=
  OPost.bind (P := fun _ => True) (fun _ _ => trivial) fun a _ => hf a

theorem OPost.mono {m : Outcome α} {P Q : α → Prop} (h : OPost m P) (hq : ∀ a, P a → Q a) : OPost m Q :=
  fun a e => hq a (h a e)

theorem OPost.ite {c : Prop} [Decidable c] {m n : Outcome α} {Q : α → Prop} (h1 : c → OPost m Q) (h2 : ¬ c → OPost n Q) :
    OPost (if c then m else n) Q := by
  split
  · exact h1 ‹_›
  · exact h2 ‹_›

/-! ## Loops -/

theorem Post.forEach {f : α → Rd α} {Q : α → Prop} (h : ∀ a, Post (f a) Q) (l : List α) :
    Post (forEach f l) fun l' => l'.length = l.length ∧ ∀ a ∈ l', Q a := by
  induction l with
  | nil => exact Post.pure ⟨rfl, by simp⟩
  | cons a l ih =>
    unfold MshIO.forEach
    refine Post.bind (h a) fun a' ha => Post.bind ih fun l' hl => Post.pure ⟨by simp [hl.1], ?_⟩
    intro x hx
    rcases List.mem_cons.mp hx with rfl | hx
    · exact ha
    · exact hl.2 x hx

theorem Post.forEach_length (f : α → Rd α) (l : List α) : Post (MshIO.forEach f l) fun l' => l'.length = l.length :=
  (Post.forEach (Q := fun _ => True) (fun _ _ _ _ _ => trivial) l).mono fun _ h => h.1

theorem Post.loopN {f : Nat → σ → Rd σ} {P : Nat → σ → Prop} (n : Nat) : ∀ i st, P i st →
    (∀ j st, i ≤ j → j < i + n → P j st → Post (f j st) (P (j + 1))) → Post (loopN f n i st) (P (i + n)) := by
  induction n with
  | zero => intro i st h _; exact Post.pure h
  | succ n ih =>
    intro i st h hf
    unfold MshIO.loopN
    refine Post.bind (hf i st (by omega) (by omega) h) fun st' h' => ?_
    have := ih (i + 1) st' h' fun j st hj hj' => hf j st (by omega) (by omega)
    rw [show i + (n + 1) = i + 1 + n by omega]
    exact this

theorem Post.loopN_inv {f : Nat → σ → Rd σ} {P : σ → Prop} (hf : ∀ j st, P st → Post (f j st) P) (n i : Nat) (st : σ)
    (h : P st) : Post (MshIO.loopN f n i st) P :=
  Post.loopN (P := fun _ => P) n i st h fun j st _ _ => hf j st

theorem OPost.loopO {f : Nat → σ → Outcome σ} {P : σ → Prop} (hf : ∀ j st, P st → OPost (f j st) P) (n : Nat) : ∀ i st, P st →
    OPost (loopO f n i st) P := by
  induction n with
  | zero => intro i st h; exact OPost.ok h
  | succ n ih =>
    intro i st h
    unfold MshIO.loopO
    exact OPost.bind (hf i st h) fun st' h' => ih (i + 1) st' h'

theorem OPost.foldO {f : α → σ → Outcome σ} {P : σ → Prop} (l : List α) (hf : ∀ a ∈ l, ∀ st, P st → OPost (f a st) P) :
    ∀ st, P st → OPost (foldO f l st) P := by
  induction l with
  | nil => intro st h; exact OPost.ok h
  | cons a l ih =>
    intro st h
    unfold MshIO.foldO
    exact OPost.bind (hf a List.mem_cons_self st h) fun st' h' => ih (fun a ha => hf a (List.mem_cons_of_mem _ ha)) st' h'

/-! ## Vectors -/

theorem OPost.vecResize (cfg : Cfg) (v : List α) (n : UInt64) (d : α) :
    OPost (vecResize cfg v n d) fun l => l.length = n.toNat ∧ l.length ≤ cfg.maxCount := by
  unfold MshIO.vecResize
  refine OPost.ite (fun h => OPost.ok ?_) fun _ => OPost.throw
  have : (v.take n.toNat ++ List.replicate (n.toNat - v.length) d).length = n.toNat := by
    rw [List.length_append, List.length_take, List.length_replicate]; omega
  exact ⟨this, by rw [this]; exact h⟩

theorem OPost.vecPush (cfg : Cfg) (v : List α) (x : α) :
    OPost (vecPush cfg v x) fun l => l = v ++ [x] ∧ l.length ≤ cfg.maxCount := by
  unfold MshIO.vecPush
  exact OPost.ite (fun h => OPost.ok ⟨rfl, by rw [List.length_append]; exact h⟩) fun _ => OPost.throw

theorem Post.resize (cfg : Cfg) (v : List α) (n : UInt64) (d : α) :
    Post (resize cfg v n d) fun l => l.length = n.toNat ∧ l.length ≤ cfg.maxCount := Post.lift (OPost.vecResize cfg v n d)

theorem Post.pushBack (cfg : Cfg) (v : List α) (x : α) :
    Post (pushBack cfg v x) fun l => l = v ++ [x] ∧ l.length ≤ cfg.maxCount := Post.lift (OPost.vecPush cfg v x)

theorem OPost.vecSet (v : List α) (i : UInt64) (x : α) : OPost (vecSet v i x) fun l => l.length = v.length := by
  unfold MshIO.vecSet
  exact OPost.ite (fun _ => OPost.ok (by simp)) fun _ => OPost.ub

theorem OPost.vecModifyBack {v : List α} {f : α → Outcome α} {Q : α → Prop} (h : ∀ a, v.getLast? = some a → OPost (f a) Q) :
    OPost (vecModifyBack v f) fun l => v ≠ [] ∧ ∃ a, Q a ∧ l = v.dropLast ++ [a] := by
  unfold MshIO.vecModifyBack
  cases e : v.getLast? with
  | none => exact OPost.ub
  | some a => exact OPost.bind (h a e) fun b hb => OPost.pure ⟨by rintro rfl; simp at e, b, hb, rfl⟩

theorem decodeMany_len (k : Nat) (dec : Bytes → α) (n : Nat) : ∀ b, (decodeMany k dec n b).length = n := by
  induction n with
  | zero => intro b; rfl
  | succ n ih => intro b; simp [decodeMany, ih]

theorem Post.readSizes (v : List UInt64) : Post (readSizes v) fun l => l.length = v.length :=
  Post.skip fun _ => Post.pure (decodeMany_len ..)
theorem Post.readInts (v : List Int32) : Post (readInts v) fun l => l.length = v.length :=
  Post.skip fun _ => Post.pure (decodeMany_len ..)
theorem Post.readDoubles (v : List Double) : Post (readDoubles v) fun l => l.length = v.length :=
  Post.skip fun _ => Post.pure (decodeMany_len ..)

theorem Post.inDoubleAt (i : UInt64) (v : List Double) : Post (inDoubleAt i v) fun l => l.length = v.length := by
  unfold MshIO.inDoubleAt
  split
  · exact Post.ub
  · exact Post.skip fun _ => Post.pure (by simp)
theorem Post.inSizeAt (i : UInt64) (v : List UInt64) : Post (inSizeAt i v) fun l => l.length = v.length := by
  unfold MshIO.inSizeAt
  split
  · exact Post.ub
  · exact Post.skip fun _ => Post.pure (by simp)

theorem Post.useVar {x : Option α} {Q : α → Prop} (h : ∀ a, x = some a → Q a) : Post (useVar x) Q := by
  cases x with
  | none => exact Post.ub
  | some a => exact Post.pure (h a rfl)

end MshIO
