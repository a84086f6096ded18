import Verif.Proofs.NumeralChars
import Verif.Proofs.Reads
import Verif.Spec.Consistent
import Verif.Model.Save

/-!
# What the writers put on the stream

`Writes w b`: the writer succeeds and produces exactly the bytes `b`.
`WritesT w ts`: the writer succeeds and produces the tokens `ts`, each followed by one separator
character.
-/

namespace MshIO

section monad
variable {α β γ : Type}

theorem Wr.bind_def (p : Wr α) (f : α → Wr β) : p >>= f = Wr.bind p f := rfl

theorem Wr.bind_assoc (p : Wr α) (f : α → Wr β) (g : β → Wr γ) :
    (p >>= f) >>= g = p >>= fun a => f a >>= g := by
  rcases p with ⟨b, o⟩
  cases o with
  | ok a =>
    show Wr.bind (b ++ (f a).1, (f a).2) g = (b ++ (Wr.bind (f a) g).1, (Wr.bind (f a) g).2)
    rcases h : f a with ⟨b', o'⟩
    cases o' <;> simp [Wr.bind] <;> rfl
  | throw e => rfl
  | abort => rfl
  | ub => rfl
  | hang => rfl

theorem Wr.pure_bind (a : α) (f : α → Wr β) : (pure a : Wr α) >>= f = f a := by
  rfl

theorem Wr.lift_ok_bind (a : α) (f : α → Wr β) : Wr.lift (.ok a) >>= f = f a := Wr.pure_bind a f

end monad

/-- The writer succeeds with exactly these bytes. -/
def Writes (w : Wr Unit) (b : Bytes) : Prop := w = (b, .ok ())

/-- A token: a word without white space, or a quoted string. -/
def IsTok (t : Bytes) : Prop := Word t ∨ ∃ n, t = quoteText n

@[simp] theorem isTok_quoteText (n : Bytes) : IsTok (quoteText n) := Or.inr ⟨n, rfl⟩

theorem Word.isTok {t : Bytes} (h : Word t) : IsTok t := Or.inl h

theorem decNat_word (n : ℕ) : Word (decNat n) :=
  ⟨decNat_ne_nil n, fun c hc => isSpace_of_isDigit (decNat_digits n c hc)⟩

@[simp] theorem isTok_decU64 (x : UInt64) : IsTok (decU64 x) := (decNat_word _).isTok

@[simp] theorem isTok_decI32 (x : Int32) : IsTok (decI32 x) := by
  refine Word.isTok ?_
  unfold decI32
  split
  · refine ⟨by simp, fun c hc => ?_⟩
    rcases List.mem_cons.mp hc with rfl | hc
    · decide
    · exact (decNat_word _).2 c hc
  · exact decNat_word _

theorem fmtDouble_word (p : Fmt) (d : Double) : Word (fmtDouble p d) := by
  by_cases hd : d.isFinite = true
  · obtain ⟨n, hn, e⟩ := fmtDouble_numeral p hd
    rw [e]
    exact ⟨Numeral.text_ne_nil hn, fun c hc => (n.text_chars c hc).not_space⟩
  · unfold fmtDouble
    rw [if_neg hd]
    cases d.neg <;> by_cases h : d.mag = Double.infMag <;> simp only [h, if_true, if_false] <;>
      exact ⟨by simp, by decide⟩

@[simp] theorem isTok_fmtDouble (p : Fmt) (d : Double) : IsTok (fmtDouble p d) := (fmtDouble_word p d).isTok

/-- The writer succeeds with these tokens, each followed by one separator character. -/
def WritesT (w : Wr Unit) (ts : List Bytes) : Prop :=
  ∃ ps : List (Bytes × Bytes), ps.map Prod.fst = ts ∧ (∀ q ∈ ps, IsTok q.1 ∧ One q.2) ∧ Writes w (flat ps)

theorem Writes.emit (b : Bytes) : Writes (emit b) b := rfl
theorem Writes.pure : Writes (pure ()) [] := rfl

theorem Writes.bind {a b : Wr Unit} {x y : Bytes} (ha : Writes a x) (hb : Writes b y) :
    Writes (a >>= fun _ => b) (x ++ y) := by
  unfold Writes at *; subst ha hb; rfl

theorem Writes.lift {α : Type} {x : Outcome α} {a : α} {f : α → Wr Unit} {b : Bytes} (hx : x = .ok a)
    (h : Writes (f a) b) : Writes (Wr.lift x >>= f) b := by
  subst hx; rw [Wr.lift_ok_bind]; exact h

theorem Writes.cast {a : Wr Unit} {x y : Bytes} (ha : Writes a x) (h : x = y) : Writes a y := h ▸ ha

theorem Writes.forW {α : Type} {f : α → Wr Unit} {enc : α → Bytes} (v : List α)
    (h : ∀ a ∈ v, Writes (f a) (enc a)) : Writes (forW f v) (v.flatMap enc) := by
  induction v with
  | nil => rfl
  | cons a v ih =>
    exact Writes.bind (h a List.mem_cons_self) (ih fun b hb => h b (List.mem_cons_of_mem _ hb))

theorem Writes.loopW {f : Nat → Wr Unit} {enc : Nat → Bytes} (n : Nat) : ∀ i,
    (∀ j, i ≤ j → j < i + n → Writes (f j) (enc j)) →
    Writes (loopW f n i) ((List.range' i n).flatMap enc) := by
  induction n with
  | zero => intro i _; rfl
  | succ n ih =>
    intro i h
    exact Writes.bind (h i le_rfl (by omega)) (ih (i + 1) fun j h1 h2 => h j (by omega) (by omega))

theorem WritesT.pure : WritesT (pure ()) [] := ⟨[], rfl, by simp, rfl⟩

theorem WritesT.emit (ps : List (Bytes × Bytes)) (h : ∀ q ∈ ps, IsTok q.1 ∧ One q.2) {b : Bytes}
    (hb : b = flat ps) : WritesT (emit b) (ps.map Prod.fst) := ⟨ps, rfl, h, by rw [hb]; rfl⟩

theorem WritesT.bind {a b : Wr Unit} {x y : List Bytes} (ha : WritesT a x) (hb : WritesT b y) :
    WritesT (a >>= fun _ => b) (x ++ y) := by
  obtain ⟨p, rfl, hp, wp⟩ := ha
  obtain ⟨q, rfl, hq, wq⟩ := hb
  refine ⟨p ++ q, by simp, ?_, ?_⟩
  · intro r hr; rcases List.mem_append.mp hr with h | h
    · exact hp r h
    · exact hq r h
  · rw [flat_append]; exact Writes.bind wp wq

theorem WritesT.lift {α : Type} {x : Outcome α} {a : α} {f : α → Wr Unit} {b : List Bytes}
    (hx : x = .ok a) (h : WritesT (f a) b) : WritesT (Wr.lift x >>= f) b := by
  subst hx; rw [Wr.lift_ok_bind]; exact h

theorem WritesT.cast {a : Wr Unit} {x y : List Bytes} (ha : WritesT a x) (h : x = y) : WritesT a y :=
  h ▸ ha

theorem WritesT.forW {α : Type} {f : α → Wr Unit} {toks : α → List Bytes} (v : List α)
    (h : ∀ a ∈ v, WritesT (f a) (toks a)) : WritesT (forW f v) (v.flatMap toks) := by
  induction v with
  | nil => exact WritesT.pure
  | cons a v ih =>
    exact WritesT.bind (h a List.mem_cons_self) (ih fun b hb => h b (List.mem_cons_of_mem _ hb))

theorem WritesT.loopW {f : Nat → Wr Unit} {toks : Nat → List Bytes} (n : Nat) : ∀ i,
    (∀ j, i ≤ j → j < i + n → WritesT (f j) (toks j)) →
    WritesT (loopW f n i) ((List.range' i n).flatMap toks) := by
  induction n with
  | zero => intro i _; exact WritesT.pure
  | succ n ih =>
    intro i h
    exact WritesT.bind (h i le_rfl (by omega)) (ih (i + 1) fun j h1 h2 => h j (by omega) (by omega))

/-! ## Indexing -/

theorem vecGet_ok {α : Type} {v : List α} {i : UInt64} {k : Nat} (hi : i.toNat = k) (h : k < v.length) :
    vecGet v i = .ok v[k] := by
  subst hi
  unfold vecGet
  rw [List.getElem?_eq_getElem h]

theorem ofNat_toNat_lt {n : Nat} (h : n < 2 ^ 64) : (UInt64.ofNat n).toNat = n := by
  simp; omega

theorem sizeU_toNat {α : Type} {v : List α} (h : v.length < 2 ^ 64) : (sizeU v).toNat = v.length :=
  ofNat_toNat_lt h

/-- `UInt64` index arithmetic `j * e + k` does not wrap below `2^64`. -/
theorem idx_toNat {j k : Nat} {e : UInt64} (h : j * e.toNat + k < 2 ^ 64) :
    (UInt64.ofNat j * e + UInt64.ofNat k).toNat = j * e.toNat + k := by
  rw [UInt64.toNat_add, UInt64.toNat_mul, UInt64.toNat_ofNat', UInt64.toNat_ofNat']
  rw [Nat.mod_mul_mod, Nat.add_mod_mod, Nat.mod_add_mod, Nat.mod_eq_of_lt h]

theorem range'_map_get {α : Type} (v : List α) (d : α) :
    (List.range' 0 v.length).map (fun i => v.getD i d) = v := by
  apply List.ext_getElem
  · simp
  · intro i h1 h2; simp at h1; simp [h1]

/-- `loopBlocks` over all blocks. -/
theorem loopBlocks_eq {α : Type} (v : List α) (n : UInt64) (f : α → Wr Unit) (h : n.toNat = v.length) :
    loopBlocks v n f = forW f v := by
  have hlt : v.length < 2 ^ 64 := h ▸ n.toNat_lt
  unfold loopBlocks
  rw [h]
  have key : ∀ (pre post : List α), v = pre ++ post →
      MshIO.loopW (fun i => do let b ← Wr.lift (vecGet v (UInt64.ofNat i)); f b) post.length pre.length
        = MshIO.forW f post := by
    intro pre post
    induction post generalizing pre with
    | nil => intro _; rfl
    | cons a post ih =>
      intro hv
      have hl : pre.length < v.length := by rw [hv]; simp
      have hg : vecGet v (UInt64.ofNat pre.length) = .ok a := by
        rw [vecGet_ok (ofNat_toNat_lt (by omega)) hl]
        congr 1
        subst hv
        simp
      have ih' := ih (pre ++ [a]) (by simp [hv])
      rw [List.length_append, List.length_singleton] at ih'
      show (Wr.lift (vecGet v (UInt64.ofNat pre.length)) >>= fun b => f b) >>= (fun _ =>
        MshIO.loopW _ post.length (pre.length + 1)) = _
      rw [ih', hg, Wr.lift_ok_bind]
      rfl
  simpa using key [] v rfl

theorem flatMap_range'_mul (e : Nat) : ∀ n j0, (List.range' j0 n).flatMap
    (fun j => (List.range' 0 e).map (fun k => j * e + k)) = List.range' (j0 * e) (n * e) := by
  intro n
  induction n with
  | zero => intro j0; simp
  | succ n ih =>
    intro j0
    rw [List.range'_succ, List.flatMap_cons, ih]
    have : (List.range' 0 e).map (fun k => j0 * e + k) = List.range' (j0 * e) e := by
      rw [List.map_add_range']; simp
    rw [this, Nat.succ_mul, Nat.add_mul, Nat.one_mul, Nat.add_comm (n * e) e]
    exact List.range'_append_1

/-- Tokens of a `num × e` nested index loop over `data`. -/
theorem WritesT.nested {α : Type} {data : List α} {num : Nat} {e : UInt64} {txt : α → Bytes}
    {body : Nat → Nat → Wr Unit} (hlen : data.length = num * e.toNat) (hlt : data.length < 2 ^ 64)
    (h : ∀ j k, j < num → k < e.toNat → ∀ a, vecGet data (UInt64.ofNat j * e + UInt64.ofNat k) = .ok a →
      WritesT (body j k) [txt a]) :
    WritesT (MshIO.loopW (fun j => MshIO.loopW (fun k => body j k) e.toNat 0) num 0) (data.map txt) := by
  cases hd : data with
  | nil =>
    have : num * e.toNat = 0 := by rw [← hlen, hd]; rfl
    rcases Nat.mul_eq_zero.mp this with h0 | h0
    · subst h0; exact WritesT.pure
    · refine WritesT.cast (WritesT.loopW (toks := fun _ => []) num 0 fun j _ _ => ?_) (by simp)
      rw [h0]; exact WritesT.pure
  | cons d0 _ =>
    rw [← hd]
    have := WritesT.loopW (f := fun j => MshIO.loopW (fun k => body j k) e.toNat 0)
      (toks := fun j => (List.range' 0 e.toNat).map (fun k => txt (data.getD (j * e.toNat + k) d0))) num 0 ?_
    · refine this.cast ?_
      have e1 : (fun j => (List.range' 0 e.toNat).map (fun k => txt (data.getD (j * e.toNat + k) d0)))
          = fun j => ((List.range' 0 e.toNat).map (fun k => j * e.toNat + k)).map
            (fun i => txt (data.getD i d0)) := by
        funext j; simp
      rw [e1, ← List.map_flatMap, flatMap_range'_mul, Nat.zero_mul, ← hlen]
      conv_rhs => rw [← range'_map_get data d0]
      simp
    · intro j _ hj
      have hj' : j < num := by omega
      refine (WritesT.loopW (toks := fun k => [txt (data.getD (j * e.toNat + k) d0)]) e.toNat 0 ?_).cast ?_
      · intro k _ hk
        have hk' : k < e.toNat := by omega
        have hb : j * e.toNat + k < data.length := by
          rw [hlen]
          calc j * e.toNat + k < j * e.toNat + e.toNat := by omega
            _ = (j + 1) * e.toNat := by rw [Nat.add_mul, Nat.one_mul]
            _ ≤ num * e.toNat := Nat.mul_le_mul_right _ hj'
        refine h j k hj' hk' _ ?_
        rw [vecGet_ok (idx_toNat (by omega)) hb]
        simp [hb]
      · rw [← List.map_eq_flatMap]

end MshIO
