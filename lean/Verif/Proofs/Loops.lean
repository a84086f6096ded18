import Verif.Proofs.Write
import Mathlib.Data.Fintype.Basic

/-!
# Index loops, element tables, small arithmetic facts
-/

namespace MshIO

/-! ## Nested index loops -/

theorem loopN_append {σ : Type} (f : Nat → σ → Rd σ) (a b : Nat) : ∀ i st,
    loopN f (a + b) i st = (loopN f a i st >>= fun st => loopN f b (i + a) st) := by
  induction a with
  | zero => intro i st; simp [loopN]
  | succ a ih =>
    intro i st
    rw [Nat.succ_add]
    show (f i st >>= fun st => loopN f (a + b) (i + 1) st) =
      ((f i st >>= fun st => loopN f a (i + 1) st) >>= fun st => loopN f b (i + (a + 1)) st)
    rw [Rd.bind_assoc]
    congr 1
    funext st
    rw [ih]
    congr 1
    funext st
    congr 1
    omega

theorem loopN_shift {σ : Type} (f : Nat → σ → Rd σ) (n : Nat) (c : Nat) : ∀ i st,
    loopN (fun k st => f (c + k) st) n i st = loopN f n (c + i) st := by
  induction n with
  | zero => intro i st; rfl
  | succ n ih =>
    intro i st
    show (f (c + i) st >>= fun st => loopN _ n (i + 1) st) = (f (c + i) st >>= fun st => loopN f n (c + i + 1) st)
    congr 1
    funext st
    rw [ih]
    congr 1

theorem loopN_nested {σ : Type} (f : Nat → σ → Rd σ) (e : Nat) (n : Nat) : ∀ i st,
    loopN (fun j st => loopN (fun k st => f (j * e + k) st) e 0 st) n i st =
      loopN f (n * e) (i * e) st := by
  induction n with
  | zero => intro i st; simp [loopN]
  | succ n ih =>
    intro i st
    rw [Nat.succ_mul, Nat.add_comm (n * e) e, loopN_append f]
    show (loopN (fun k st => f (i * e + k) st) e 0 st >>= fun st => loopN _ n (i + 1) st) = _
    rw [loopN_shift f e (i * e), Nat.add_zero]
    congr 1
    funext st
    rw [ih, Nat.succ_mul]

theorem ofNat_idx (j k : Nat) (e : UInt64) :
    UInt64.ofNat j * e + UInt64.ofNat k = UInt64.ofNat (j * e.toNat + k) := by
  apply UInt64.toNat_inj.mp
  simp [UInt64.toNat_add, UInt64.toNat_mul]

/-- The `num × e` loop of the readers is one loop over the flat index. -/
theorem loopN_flat {σ : Type} (at' : UInt64 → σ → Rd σ) (num : Nat) (e : UInt64) (st : σ) :
    loopN (fun j st => loopN (fun k st => at' (UInt64.ofNat j * e + UInt64.ofNat k) st) e.toNat 0 st)
      num 0 st = loopN (fun i st => at' (UInt64.ofNat i) st) (num * e.toNat) 0 st := by
  simp only [ofNat_idx]
  rw [loopN_nested (fun i st => at' (UInt64.ofNat i) st), Nat.zero_mul]

/-- Filling a vector by index, one token per element. -/
theorem readsT_fill {α γ : Type} {at' : UInt64 → List α → Rd (List α)} {txt : γ → Bytes} {g : γ → α}
    (cs : List γ) (old : List α)
    (hat : ∀ (i : UInt64) v c, i.toNat < v.length → c ∈ cs → ReadsT (at' i v) [txt c] (v.set i.toNat (g c)))
    (h : old.length = cs.length) (hlt : cs.length < 2 ^ 64) :
    ReadsT (loopN (fun i v => at' (UInt64.ofNat i) v) cs.length 0 old) (cs.map txt) (cs.map g) := by
  have key : ∀ (cs' : List γ) (pre old : List α), (∀ c ∈ cs', c ∈ cs) → old.length = cs'.length →
      pre.length + cs'.length < 2 ^ 64 →
      ReadsT (loopN (fun i v => at' (UInt64.ofNat i) v) cs'.length pre.length (pre ++ old))
        (cs'.map txt) (pre ++ cs'.map g) := by
    intro cs'
    induction cs' with
    | nil =>
      intro pre old _ h _
      have : old = [] := List.length_eq_zero_iff.mp h
      subst this
      rw [List.append_nil]
      have h3 := ReadsT.pure pre
      exact ReadsT.cast (p := loopN (fun i v => at' (UInt64.ofNat i) v) 0 pre.length pre) h3 rfl (by simp)
    | cons c cs' ih =>
      intro pre old hmem h hl
      cases old with
      | nil => simp at h
      | cons o old =>
        simp only [List.length_cons] at h hl
        have hn : (UInt64.ofNat pre.length).toNat = pre.length := ofNat_toNat_lt (by omega)
        have h1 := hat (UInt64.ofNat pre.length) (pre ++ o :: old) c (by rw [hn]; simp) (hmem c (by simp))
        rw [hn] at h1
        have e1 : (pre ++ o :: old).set pre.length (g c) = (pre ++ [g c]) ++ old := by simp
        rw [e1] at h1
        have h2 := ih (pre ++ [g c]) old (fun x hx => hmem x (by simp [hx])) (by omega)
          (by simp; omega)
        rw [List.length_append, List.length_singleton] at h2
        have h3 := ReadsT.bind h1 h2
        refine ReadsT.cast (p := loopN (fun i v => at' (UInt64.ofNat i) v) (cs'.length + 1) pre.length (pre ++ o :: old)) h3 (by simp) (by simp)
  simpa using key cs [] old (fun _ h => h) h (by simpa using hlt)

/-- How the text of the doubles `d` of a file is read back. -/
def DTok (P : Fmt) (rd : Double → Double) (d : Double) : Prop :=
  ∀ old, Tok (inDouble old) (fmtDouble P d) (rd d)

theorem inDoubleAt_reads {P : Fmt} {rd : Double → Double} {d : Double} (hd : DTok P rd d)
    (i : UInt64) (v : List Double) (h : i.toNat < v.length) :
    ReadsT (inDoubleAt i v) [fmtDouble P d] (v.set i.toNat (rd d)) := by
  unfold inDoubleAt
  rw [List.getElem?_eq_getElem h]
  exact ReadsT.map (hd _).readsT rfl

theorem inSizeAt_reads (x : UInt64) (i : UInt64) (v : List UInt64) (h : i.toNat < v.length) :
    ReadsT (inSizeAt i v) [decU64 x] (v.set i.toNat x) := by
  unfold inSizeAt
  rw [List.getElem?_eq_getElem h]
  exact ReadsT.map (inSize_tok _ x).readsT rfl

theorem readsT_nestedDoubles {P : Fmt} {rd : Double → Double} (cs : List Double)
    (hd : ∀ d ∈ cs, DTok P rd d) (old : List Double) (num : Nat) (e : UInt64)
    (h : old.length = cs.length) (hn : cs.length = num * e.toNat) (hlt : cs.length < 2 ^ 64) :
    ReadsT (loopN (fun j data => loopN (fun k data =>
        inDoubleAt (UInt64.ofNat j * e + UInt64.ofNat k) data) e.toNat 0 data) num 0 old)
      (cs.map (fmtDouble P)) (cs.map rd) := by
  rw [loopN_flat, ← hn]
  exact readsT_fill cs old (fun i v c hi hc => inDoubleAt_reads (hd c hc) i v hi) h hlt

theorem readsT_nestedSizes (cs : List UInt64) (old : List UInt64) (num : Nat) (e : UInt64)
    (h : old.length = cs.length) (hn : cs.length = num * e.toNat) (hlt : cs.length < 2 ^ 64) :
    ReadsT (loopN (fun j data => loopN (fun k data =>
        inSizeAt (UInt64.ofNat j * e + UInt64.ofNat k) data) e.toNat 0 data) num 0 old)
      (cs.map decU64) cs := by
  rw [loopN_flat, ← hn]
  have := readsT_fill (txt := decU64) (g := id) cs old (fun i v c hi _ => inSizeAt_reads c i v hi) h hlt
  simpa using this

theorem readsT_doubles {P : Fmt} {rd : Double → Double} (cs : List Double)
    (hd : ∀ d ∈ cs, DTok P rd d) :
    ReadsT (forEach inDouble (List.replicate cs.length Double.zero)) (cs.map (fmtDouble P)) (cs.map rd) := by
  have := ReadsT.forEach (f := inDouble) (toks := fun d => [fmtDouble P d]) (g := rd) (d := Double.zero)
    cs (fun c hc => (hd c hc _).readsT)
  rwa [← List.map_eq_flatMap] at this

theorem readsT_ints (cs : List Int32) :
    ReadsT (forEach inInt (List.replicate cs.length 0)) (cs.map decI32) cs := by
  have := ReadsT.forEach (f := inInt) (toks := fun d => [decI32 d]) (g := id) (d := 0)
    cs (fun c hc => (inInt_tok _ c).readsT)
  rwa [← List.map_eq_flatMap, List.map_id] at this

theorem readsT_sizes (cs : List UInt64) :
    ReadsT (forEach inSize (List.replicate cs.length 0)) (cs.map decU64) cs := by
  have := ReadsT.forEach (f := inSize) (toks := fun d => [decU64 d]) (g := id) (d := 0)
    cs (fun c hc => (inSize_tok _ c).readsT)
  rwa [← List.map_eq_flatMap, List.map_id] at this

theorem readsT_quoted (cs : List Bytes) :
    ReadsT (forEach inQuoted (List.replicate cs.length [])) (cs.map quoteText) cs := by
  have := ReadsT.forEach (f := inQuoted) (toks := fun d => [quoteText d]) (g := id) (d := [])
    cs (fun c hc => (inQuoted_tok _ c).readsT)
  rwa [← List.map_eq_flatMap, List.map_id] at this

/-! ## The element tables -/

theorem mshNodes_range {t : Int32} {n : Nat} (h : mshNodes t = some n) :
    1 ≤ t.toInt ∧ t.toInt ≤ 31 := by
  unfold mshNodes readmeElement at h
  split at h <;> first | omega | simp at h

theorem int32_cases {t : Int32} (h1 : 1 ≤ t.toInt) (h2 : t.toInt ≤ 31) {P : Int32 → Prop}
    (h : ∀ k : Fin 31, P (Int32.ofInt (k + 1))) : P t := by
  have e : t = Int32.ofInt (((⟨(t.toInt - 1).toNat, by omega⟩ : Fin 31) : Nat) + 1) := by
    have : (((t.toInt - 1).toNat : Nat) : Int) + 1 = t.toInt := by omega
    simp only
    rw [this, Int32.ofInt_toInt]
  rw [e]
  exact h _

theorem nodesPerElement_of_mshNodes {t : Int32} {n : Nat} (h : mshNodes t = some n) :
    nodesPerElement t = .ok (UInt64.ofNat n) ∧ n ≤ 56 ∧ 1 ≤ n := by
  obtain ⟨h1, h2⟩ := mshNodes_range h
  revert h
  refine int32_cases h1 h2 (P := fun t => mshNodes t = some n →
    nodesPerElement t = .ok (UInt64.ofNat n) ∧ n ≤ 56 ∧ 1 ≤ n) ?_
  intro k h
  have key : ∀ k : Fin 31, nodesPerElement (Int32.ofInt (k + 1)) =
      .ok (UInt64.ofNat ((mshNodes (Int32.ofInt (k + 1))).getD 0)) ∧
      (mshNodes (Int32.ofInt (k + 1))).getD 0 ≤ 56 ∧ 1 ≤ (mshNodes (Int32.ofInt (k + 1))).getD 0 := by
    decide
  have := key k
  rw [h] at this
  exact this

theorem getElementDim_of_mshDim {t : Int32} {n : Nat} (h : mshDim t = some n) :
    getElementDim t = .ok (Int32.ofNat n) ∧ n ≤ 3 := by
  have hr : 1 ≤ t.toInt ∧ t.toInt ≤ 31 := by
    unfold mshDim readmeElement at h
    split at h <;> first | omega | simp at h
  revert h
  refine int32_cases hr.1 hr.2 (P := fun t => mshDim t = some n →
    getElementDim t = .ok (Int32.ofNat n) ∧ n ≤ 3) ?_
  intro k h
  have key : ∀ k : Fin 31, getElementDim (Int32.ofInt (k + 1)) =
      .ok (Int32.ofNat ((mshDim (Int32.ofInt (k + 1))).getD 0)) ∧
      (mshDim (Int32.ofInt (k + 1))).getD 0 ≤ 3 := by decide
  have := key k
  rw [h] at this
  exact this

theorem mshNodes_of_range {t : Int32} (h1 : 1 ≤ t.toInt) (h2 : t.toInt ≤ 31) :
    ∃ n d, mshNodes t = some n ∧ mshDim t = some d := by
  refine int32_cases h1 h2 (P := fun t => ∃ n d, mshNodes t = some n ∧ mshDim t = some d) ?_
  intro k
  have key : ∀ k : Fin 31, (mshNodes (Int32.ofInt (k + 1))).isSome = true ∧
      (mshDim (Int32.ofInt (k + 1))).isSome = true := by decide
  obtain ⟨n, hn⟩ := Option.isSome_iff_exists.mp (key k).1
  obtain ⟨d, hd⟩ := Option.isSome_iff_exists.mp (key k).2
  exact ⟨n, d, hn, hd⟩

/-! ## Entries per node -/

theorem sizeOfInt_toNat {x : Int32} (h : 0 ≤ x.toInt) : (sizeOfInt x).toNat = x.toInt.toNat := by
  have := toNat_sizeOfInt x; have := x.toInt_lt; split at * <;> omega

theorem entriesPerNode_ok {b : NodeBlock} (h : b.parametric = 1 → 0 ≤ b.entityDim.toInt ∧ b.entityDim.toInt < 2 ^ 31 - 3) :
    ∃ e, entriesPerNode b.parametric b.entityDim = .ok e ∧ e.toNat = b.coords ∧ b.coords < 2 ^ 31 := by
  unfold entriesPerNode NodeBlock.coords
  by_cases hp : b.parametric = 1
  · obtain ⟨h1, h2⟩ := h hp
    rw [if_pos hp, if_neg (by omega), if_pos hp]
    refine ⟨_, rfl, ?_, by omega⟩
    have e : (3 + b.entityDim).toInt = 3 + b.entityDim.toInt := by
      rw [Int32.toInt_add]
      have : (3 : Int32).toInt = 3 := by decide
      rw [this]
      exact Int.bmod_eq_of_le (by omega) (by omega)
    rw [sizeOfInt_toNat (by omega), e]
    omega
  · rw [if_neg hp, if_neg hp]
    exact ⟨3, rfl, rfl, by omega⟩

theorem mul_toNat {a b : UInt64} (h : a.toNat * b.toNat < 2 ^ 64) : (a * b).toNat = a.toNat * b.toNat := by
  rw [UInt64.toNat_mul, Nat.mod_eq_of_lt h]

theorem add_toNat {a b : UInt64} (h : a.toNat + b.toNat < 2 ^ 64) : (a + b).toNat = a.toNat + b.toNat := by
  rw [UInt64.toNat_add, Nat.mod_eq_of_lt h]

end MshIO
