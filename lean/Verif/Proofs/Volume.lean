import Verif.Spec.Volume
import Verif.Proofs.Cut
import Verif.Proofs.Replace
import Verif.Proofs.Post

/-!
# What is read is paid for with bytes

`Pays k m w`: if `m` comes back with a stream that has not failed, then the weight `w` of what it returns is at most the weight `k` there was before plus the number of bytes
it consumed.
-/

namespace MshIO

variable {α β σ : Type}

/-- The weight of the result is covered by `k` and the bytes consumed, unless the stream fails. -/
structure Pays (k : Nat) (m : Rd α) (w : α → Nat) : Prop where
  of ::
  sticky : Sticky m
  all : ∀ s a s', m s = .ok (a, s') → s'.fail = false → w a + s'.rem.length ≤ k + s.rem.length

namespace Pays

variable {k : Nat}

theorem mono {m : Rd α} {w w' : α → Nat} (h : Pays k m w) (hw : ∀ a, w' a ≤ w a) : Pays k m w' :=
  ⟨h.sticky, fun s a s' e hf => Nat.le_trans (Nat.add_le_add_right (hw a) _) (h.all s a s' e hf)⟩

theorem post {m : Rd α} {w w' : α → Nat} {P : α → Prop} (h : Pays k m w) (hp : Post m P) (hw : ∀ a, P a → w' a ≤ w a) : Pays k m w' :=
  ⟨h.sticky, fun s a s' e hf => Nat.le_trans (Nat.add_le_add_right (hw a (hp s a s' e)) _) (h.all s a s' e hf)⟩

theorem pure {a : α} {w : α → Nat} (h : w a ≤ k) : Pays k (Pure.pure a : Rd α) w := by
  refine ⟨(Tame.pure a).sticky, fun s b s' e _ => ?_⟩
  cases e
  omega

theorem bind {m : Rd α} {f : α → Rd β} {w : β → Nat} (v : α → Nat) (h1 : Pays k m v) (h2 : ∀ a, Pays (v a) (f a) w) : Pays k (m >>= f) w := by
  refine ⟨h1.sticky.bind fun a => (h2 a).sticky, fun s b s' e hf => ?_⟩
  obtain ⟨a, s1, e1, e2⟩ := Rd.bind_eq_ok e
  have hf1 : s1.fail = false := by
    cases h : s1.fail with
    | false => rfl
    | true => rw [(h2 a).sticky.all _ _ _ e2 h] at hf; cases hf
  have := h1.all _ _ _ e1 hf1
  have := (h2 a).all _ _ _ e2 hf
  omega

/-- The same with something known of every result. -/
theorem bindP {m : Rd α} {f : α → Rd β} {w : β → Nat} {P : α → Prop} (v : α → Nat) (h1 : Pays k m v) (hp : Post m P) (hs : ∀ a, Sticky (f a))
    (h2 : ∀ a, P a → Pays (v a) (f a) w) : Pays k (m >>= f) w := by
  refine ⟨h1.sticky.bind hs, fun s b s' e hf => ?_⟩
  obtain ⟨a, s1, e1, e2⟩ := Rd.bind_eq_ok e
  have h2 := h2 a (hp _ _ _ e1)
  have hf1 : s1.fail = false := by
    cases h : s1.fail with
    | false => rfl
    | true => rw [h2.sticky.all _ _ _ e2 h] at hf; cases hf
  have := h1.all _ _ _ e1 hf1
  have := h2.all _ _ _ e2 hf
  omega

theorem throw {e : Exc} {w : α → Nat} : Pays k (Rd.throw e : Rd α) w := ⟨(Tame.throw e).sticky, fun _ _ _ h => by cases h⟩
theorem ub {w : α → Nat} : Pays k (Rd.ub : Rd α) w := ⟨Tame.ub.sticky, fun _ _ _ h => by cases h⟩

theorem lift {x : Outcome α} {w : α → Nat} (h : OPost x fun a => w a ≤ k) : Pays k (Rd.lift x) w := by
  have key : ∀ s a s', Rd.lift x s = .ok (a, s') → s' = s ∧ x = .ok a := by
    intro s a s' e
    unfold Rd.lift at e
    cases x <;> cases e
    exact ⟨rfl, rfl⟩
  refine ⟨⟨fun s a s' e hf => by rw [(key s a s' e).1]; exact hf⟩, fun s a s' e _ => ?_⟩
  obtain ⟨hs, e⟩ := key s a s' e
  have : w a ≤ k := h a e
  rw [hs]
  omega

theorem ite {c : Prop} [Decidable c] {m n : Rd α} {w : α → Nat} (h1 : c → Pays k m w) (h2 : ¬ c → Pays k n w) : Pays k (if c then m else n) w := by
  split
  · exact h1 ‹_›
  · exact h2 ‹_›

/-- Readers that return nothing to be paid for. -/
theorem free {m : Rd α} (h : Tame m) : Pays k m fun _ => k :=
  ⟨h.sticky, fun s a s' e _ => Nat.add_le_add_left (((h.all s).2 a s' e).length_le) k⟩

theorem skip {m : Rd α} {f : α → Rd β} {w : β → Nat} (h1 : Tame m) (h2 : ∀ a, Pays k (f a) w) : Pays k (m >>= f) w :=
  bind _ (free h1) h2

/-- A number was read. -/
theorem one {m : Rd α} {f : α → Rd β} {w : β → Nat} (h1 : Pays k m fun _ => k + 1) (h2 : ∀ a, Pays (k + 1) (f a) w) : Pays k (m >>= f) w :=
  bind _ h1 h2

theorem forEach {f : α → Rd α} {v : α → Nat} (h : ∀ a k, Pays k (f a) fun a' => k + v a') (l : List α) :
    ∀ k, Pays k (MshIO.forEach f l) fun l' => k + (l'.map v).sum := by
  induction l with
  | nil => intro k; exact Pays.pure (by simp)
  | cons a l ih =>
    intro k
    unfold MshIO.forEach
    exact bind _ (h a k) fun a' => bind _ (ih _) fun l' => Pays.pure (by simp [Nat.add_assoc])

theorem forEach_len {f : α → Rd α} (h : ∀ a k, Pays k (f a) fun _ => k + 1) (l : List α) : Pays k (MshIO.forEach f l) fun l' => k + l'.length :=
  (forEach (v := fun _ => 1) h l k).mono fun l' => by simp

theorem loopN {f : Nat → σ → Rd σ} {P : σ → Prop} (c : Nat) (hs : ∀ i a, Sticky (f i a)) (hp : ∀ i a, P a → Post (f i a) P)
    (h : ∀ i a k, P a → Pays k (f i a) fun _ => k + c) (n : Nat) : ∀ i k a, P a → Pays k (MshIO.loopN f n i a) fun _ => k + n * c := by
  induction n with
  | zero => intro i k a _; exact Pays.pure (by simp)
  | succ n ih =>
    intro i k a ha
    unfold MshIO.loopN
    refine bindP _ (h i a k ha) (hp i a ha) (fun a' => ?_) fun a' ha' => (ih (i + 1) (k + c) a' ha').mono fun _ => ?_
    · clear ih
      generalize i + 1 = j
      induction n generalizing j a' with
      | zero => exact (Tame.pure _).sticky
      | succ n ih => unfold MshIO.loopN; exact (hs j a').bind fun a'' => ih _ _
    · rw [Nat.add_mul]; omega

end Pays

/-! ## Single values -/

theorem sentry_true {s s' : Stream} (h : sentry s = (true, s')) : s'.rem.length ≤ s.rem.length ∧ ∃ c r, s'.rem = c :: r ∧ isSpace c = false := by
  unfold sentry at h
  split at h
  · split at h
    · cases h
    · rename_i c r e
      cases h
      refine ⟨?_, c, r, rfl, ?_⟩
      · have := (List.dropWhile_suffix (l := s.rem) isSpace).length_le
        rw [e] at this
        exact this
      · have := List.head?_dropWhile_not isSpace s.rem
        rw [e] at this
        simpa using this
  · cases h

theorem takeWhile_dropWhile_length (p : UInt8 → Bool) (l : Bytes) : (l.takeWhile p).length + (l.dropWhile p).length = l.length := by
  rw [← List.length_append, List.takeWhile_append_dropWhile]

theorem scanInt_length (b : Bytes) : (scanInt b).2.1.length + (scanInt b).2.2.length ≤ b.length := by
  unfold scanInt
  have := (scanSign_suffix b).length_le
  have := takeWhile_dropWhile_length isDigit (scanSign b).2
  simp only
  omega

theorem scanFloat_length (b : Bytes) : (scanFloat b).ip.length + (scanFloat b).fp.length + (scanFloat b).rest.length ≤ b.length := by
  have h1 := (scanSign_suffix b).length_le
  have h2 := takeWhile_dropWhile_length isDigit (scanSign b).2
  have h3 : (scanFrac ((scanSign b).2.dropWhile isDigit)).1.length + (scanFrac ((scanSign b).2.dropWhile isDigit)).2.length ≤ ((scanSign b).2.dropWhile isDigit).length := by
    generalize (scanSign b).2.dropWhile isDigit = r
    unfold scanFrac
    split
    · have := takeWhile_dropWhile_length isDigit ‹Bytes›
      simp only [List.length_cons]
      omega
    · simp
  unfold scanFloat
  simp only
  cases hr : (scanFrac ((scanSign b).2.dropWhile isDigit)).2 with
  | nil => rw [hr] at h3; simp only [List.length_nil] at h3 ⊢; omega
  | cons c r =>
    rw [hr] at h3
    simp only [List.length_cons] at h3 ⊢
    split
    · have := (scanSign_suffix r).length_le
      have := takeWhile_dropWhile_length isDigit (scanSign r).2
      simp only
      omega
    · simp only [List.length_cons]
      omega

/-- A reader that runs the sentry and then consumes at least one character unless it fails. -/
theorem pays_of_sentry {p : Rd α} (ht : Tame p) (fallback : α) (g : Stream → Outcome (α × Stream)) (w : α → Nat) (k : Nat)
    (hp : ∀ s, p s = match sentry s with
      | (false, s') => .ok (fallback, s')
      | (true, s') => g s')
    (hg : ∀ s a s', (∃ c r, s.rem = c :: r ∧ isSpace c = false) → g s = .ok (a, s') → s'.fail = false → w a + s'.rem.length ≤ k + s.rem.length) : Pays k p w := by
  refine ⟨ht.sticky, fun s a s' e hf => ?_⟩
  rw [hp] at e
  rcases hs : sentry s with ⟨b, s1⟩
  rw [hs] at e
  cases b with
  | false => cases e; rw [sentry_false hs] at hf; cases hf
  | true =>
    obtain ⟨h1, h2⟩ := sentry_true hs
    have := hg s1 a s' h2 e hf
    omega

theorem pays_extractSize (k : Nat) : Pays k extractSize fun _ => k + 1 := by
  refine pays_of_sentry tame_extractSize none _ _ k (fun s => rfl) fun s a s' _ e hf => ?_
  simp only [Outcome.ok.injEq, Prod.mk.injEq] at e
  rw [← e.2] at hf ⊢
  have h := scanInt_length s.rem
  simp only at hf ⊢
  cases hd : (scanInt s.rem).2.1 with
  | nil => rw [hd] at hf; simp [convertU64] at hf
  | cons c r =>
    rw [hd] at h
    simp only [List.length_cons] at h
    show k + 1 + (scanInt s.rem).2.2.length ≤ _
    omega

theorem pays_extractInt (k : Nat) : Pays k extractInt fun _ => k + 1 := by
  refine pays_of_sentry tame_extractInt none _ _ k (fun s => rfl) fun s a s' _ e hf => ?_
  simp only [Outcome.ok.injEq, Prod.mk.injEq] at e
  rw [← e.2] at hf ⊢
  have h := scanInt_length s.rem
  simp only at hf ⊢
  cases hd : (scanInt s.rem).2.1 with
  | nil => rw [hd] at hf; simp [convertI32] at hf
  | cons c r =>
    rw [hd] at h
    simp only [List.length_cons] at h
    show k + 1 + (scanInt s.rem).2.2.length ≤ _
    omega

theorem pays_extractDouble (k : Nat) : Pays k extractDouble fun _ => k + 1 := by
  refine pays_of_sentry tame_extractDouble none _ _ k (fun s => rfl) fun s a s' _ e hf => ?_
  simp only [Outcome.ok.injEq, Prod.mk.injEq] at e
  rw [← e.2] at hf ⊢
  have h := scanFloat_length s.rem
  simp only at hf ⊢
  by_cases hd : (scanFloat s.rem).ip = [] ∧ (scanFloat s.rem).fp = []
  · simp [convertFloat, hd.1, hd.2] at hf
  · have : 0 < (scanFloat s.rem).ip.length ∨ 0 < (scanFloat s.rem).fp.length := by
      rw [List.length_pos_iff, List.length_pos_iff]
      exact not_and_or.mp hd
    omega

theorem pays_inSize (o : UInt64) (k : Nat) : Pays k (inSize o) fun _ => k + 1 := (pays_extractSize k).one fun _ => Pays.pure (Nat.le_refl _)
theorem pays_inInt (o : Int32) (k : Nat) : Pays k (inInt o) fun _ => k + 1 := (pays_extractInt k).one fun _ => Pays.pure (Nat.le_refl _)
theorem pays_inDouble (o : Double) (k : Nat) : Pays k (inDouble o) fun _ => k + 1 := (pays_extractDouble k).one fun _ => Pays.pure (Nat.le_refl _)
theorem pays_inIntVar (o : Option Int32) (k : Nat) : Pays k (inIntVar o) fun _ => k + 1 :=
  (pays_extractInt k).one fun a => by cases a <;> exact Pays.pure (Nat.le_refl _)

theorem pays_inDoubleAt (i : UInt64) (v : List Double) (k : Nat) : Pays k (inDoubleAt i v) fun _ => k + 1 := by
  unfold inDoubleAt
  split
  · exact Pays.ub
  · exact (pays_inDouble _ k).one fun _ => Pays.pure (Nat.le_refl _)

theorem pays_inSizeAt (i : UInt64) (v : List UInt64) (k : Nat) : Pays k (inSizeAt i v) fun _ => k + 1 := by
  unfold inSizeAt
  split
  · exact Pays.ub
  · exact (pays_inSize _ k).one fun _ => Pays.pure (Nat.le_refl _)

/-- The weight of a string: its characters, at least one. -/
def wString (t : Bytes) : Nat := max 1 t.length

theorem quotedBody_length (b : Bytes) : (quotedBody b).2.fail = false → (quotedBody b).1.length + (quotedBody b).2.rem.length + 1 ≤ b.length := by
  fun_induction quotedBody b with
  | case1 => intro h; cases h
  | case2 r => intro _; simp
  | case3 => intro h; cases h
  | case4 c r t s e ih => rw [e] at ih; intro h; have := ih h; simp only [List.length_cons] at *; omega
  | case5 c r _ _ _ t s e ih => rw [e] at ih; intro h; have := ih h; simp only [List.length_cons] at *; omega

theorem pays_inString (o : Bytes) (k : Nat) : Pays k (inString o) fun t => k + wString t := by
  refine pays_of_sentry (tame_inString o) o _ _ k (fun s => rfl) fun s a s' hc e hf => ?_
  cases e
  obtain ⟨c, r, e, hc⟩ := hc
  have := takeWhile_dropWhile_length (fun c => !isSpace c) s.rem
  have : 0 < (s.rem.takeWhile fun c => !isSpace c).length := by rw [e, List.takeWhile_cons_of_pos (by simp [hc])]; simp
  simp only [wString]
  omega

theorem pays_inQuoted (o : Bytes) (k : Nat) : Pays k (inQuoted o) fun t => k + wString t := by
  refine pays_of_sentry (tame_inQuoted o) o _ _ k (fun s => rfl) fun s a s' hc e hf => ?_
  split at e
  · rename_i r hr
    cases e
    have := quotedBody_length r hf
    rw [hr]
    simp only [wString, List.length_cons]
    omega
  · exact (pays_inString o k).all s a s' e hf

theorem pays_readRaw (o : Bytes) (k : Nat) : Pays k (readRaw o) fun _ => k + o.length := by
  refine ⟨(tame_readRaw o).sticky, fun s a s' e hf => ?_⟩
  unfold readRaw at e
  split at e
  · split at e <;> cases e
    · simp only [List.length_drop]; omega
    · cases hf
  · cases e; cases hf

theorem pays_readInt4 (o : Int32) (k : Nat) : Pays k (readInt o) fun _ => k + 4 :=
  Pays.bind _ (pays_readRaw _ k) fun _ => Pays.pure (by rw [encI32_length])
theorem pays_readInt (o : Int32) (k : Nat) : Pays k (readInt o) fun _ => k + 1 := (pays_readInt4 o k).mono fun _ => by omega
theorem pays_readSize (o : UInt64) (k : Nat) : Pays k (readSize o) fun _ => k + 1 :=
  Pays.bind _ (pays_readRaw _ k) fun _ => Pays.pure (by rw [encU64_length]; omega)
theorem pays_readDouble (o : Double) (k : Nat) : Pays k (readDouble o) fun _ => k + 1 :=
  Pays.bind _ (pays_readRaw _ k) fun _ => Pays.pure (by rw [encU64_length]; omega)

theorem flatMap_length {enc : α → Bytes} {m : Nat} (h : ∀ a, (enc a).length = m) (l : List α) : (l.flatMap enc).length = l.length * m := by
  induction l with
  | nil => simp
  | cons a l ih => rw [List.flatMap_cons, List.length_append, h, ih, List.length_cons, Nat.add_mul]; omega

theorem pays_readSizes (o : List UInt64) (k : Nat) : Pays k (readSizes o) fun v => k + v.length :=
  Pays.bind _ (pays_readRaw _ k) fun _ => Pays.pure (by rw [decodeMany_len, flatMap_length encU64_length]; omega)
theorem pays_readInts (o : List Int32) (k : Nat) : Pays k (readInts o) fun v => k + v.length :=
  Pays.bind _ (pays_readRaw _ k) fun _ => Pays.pure (by rw [decodeMany_len, flatMap_length encI32_length]; omega)
theorem pays_readDoubles (o : List Double) (k : Nat) : Pays k (readDoubles o) fun v => k + v.length :=
  Pays.bind _ (pays_readRaw _ k) fun _ => Pays.pure (by rw [decodeMany_len, flatMap_length fun d : Double => encU64_length d.bits]; omega)

theorem pays_readIntVar4 (o : Option Int32) (k : Nat) : Pays k (readIntVar o) fun _ => k + 4 := by
  refine ⟨(tame_readIntVar o).sticky, fun s a s' e hf => ?_⟩
  unfold readIntVar at e
  cases o with
  | some v =>
    simp only at e
    cases h : readInt v s with
    | ok x => rw [h] at e; cases e; exact (pays_readInt4 v k).all s x.1 x.2 h hf
    | throw x => rw [h] at e; cases e
    | abort => rw [h] at e; cases e
    | ub => rw [h] at e; cases e
    | hang => rw [h] at e; cases e
  | none =>
    simp only at e
    split at e
    · split at e <;> cases e
      · simp only [List.length_drop]; omega
      · cases hf
    · cases e; cases hf

theorem pays_readIntVar (o : Option Int32) (k : Nat) : Pays k (readIntVar o) fun _ => k + 1 := (pays_readIntVar4 o k).mono fun _ => by omega

theorem pays_readSizeVar (k : Nat) : Pays k readSizeVar fun _ => k + 1 := by
  refine ⟨tame_readSizeVar.sticky, fun s a s' e hf => ?_⟩
  unfold readSizeVar at e
  split at e
  · split at e <;> cases e
    · simp only [List.length_drop]; omega
    · cases hf
  · cases e; cases hf

/-! ## Weights -/

def wGroup (g : PhysicalGroup) : Nat := 1 + g.name.length
def wPoint (p : PointEntity) : Nat := 1 + p.physicalGroupTags.length
def wBox (b : BoxEntity) : Nat := 1 + b.physicalGroupTags.length + b.boundaryTags.length
def wNodeBlock (b : NodeBlock) : Nat := 1 + b.tags.length + b.data.length
def wElementBlock (b : ElementBlock) : Nat := 1 + b.data.length
def wEntry (e : DataEntry) : Nat := 1 + e.data.length
def wHeader (h : DataHeader) : Nat := (h.stringTags.map wString).sum + h.realTags.length + h.intTags.length
def wData (d : Data) : Nat := 1 + wHeader d.header + (d.entries.map wEntry).sum
def wCurve (c : Curve) : Nat := 1 + c.data.length
def wPatch (p : Patch) : Nat := 1 + p.data.length
def wEntities (e : Entities) : Nat := (e.points.map wPoint).sum + (e.curves.map wBox).sum + (e.surfaces.map wBox).sum + (e.volumes.map wBox).sum
def wNodes (n : Nodes) : Nat := (n.entityBlocks.map wNodeBlock).sum
def wElements (e : Elements) : Nat := (e.entityBlocks.map wElementBlock).sum

/-- The weight of a spec. -/
def wSpec (s : MshSpec) : Nat :=
  (s.physicalGroups.map wGroup).sum + wEntities s.entities + wNodes s.nodes + wElements s.elements + (s.nodeData.map wData).sum +
    (s.elementData.map wData).sum + (s.elementNodeData.map wData).sum + (s.curves.map wCurve).sum + (s.patches.map wPatch).sum

/-! ## Sections of version 4.1 -/

/-- What is not touched. -/
theorem Pays.frame {k : Nat} {m : Rd α} {w : α → Nat} (c : Nat) (h : Pays k m w) : Pays (k + c) m fun a => w a + c :=
  ⟨h.sticky, fun s a s' e hf => by have := h.all s a s' e hf; omega⟩

theorem pays_physicalGroups (cfg : Cfg) (gs : List PhysicalGroup) (k : Nat) : Pays k (loadPhysicalGroups cfg gs) fun l => k + (l.map wGroup).sum := by
  unfold loadPhysicalGroups
  refine Pays.skip tame_extractInt fun a => Pays.skip (tame_useVar a) fun n => Pays.skip (tame_resize _ _ _ _) fun l => ?_
  refine Pays.bind _ (Pays.forEach (v := wGroup) (fun g k => ?_) l k) fun l' => Pays.skip (tame_assertGood cfg) fun _ => Pays.pure (Nat.le_refl _)
  unfold loadPhysicalGroup
  refine (pays_inInt _ k).one fun dim => Pays.skip (tame_inInt _) fun tag => Pays.bind _ (pays_inQuoted _ _) fun name => Pays.pure ?_
  simp only [wGroup, wString]
  omega

theorem pays_intListAscii (cfg : Cfg) (v : List Int32) (k : Nat) : Pays k (loadIntListAscii cfg v) fun l => k + l.length := by
  unfold loadIntListAscii
  exact Pays.skip tame_extractSize fun a => Pays.skip (tame_useVar a) fun n => Pays.skip (tame_resize _ _ _ _) fun l => Pays.forEach_len pays_inInt l

theorem pays_intListBinary (cfg : Cfg) (v : List Int32) (k : Nat) : Pays k (loadIntListBinary cfg v) fun l => k + l.length := by
  unfold loadIntListBinary
  exact Pays.skip tame_readSizeVar fun a => Pays.skip (tame_assertGood cfg) fun _ => Pays.skip (tame_useVar a) fun n => Pays.skip (tame_resize _ _ _ _) fun l =>
    Pays.bind _ (pays_readInts l k) fun l' => Pays.skip (tame_assertGood cfg) fun _ => Pays.pure (Nat.le_refl _)

theorem pays_pointAscii (cfg : Cfg) (p : PointEntity) (k : Nat) : Pays k (loadPointAscii cfg p) fun q => k + wPoint q := by
  unfold loadPointAscii
  refine (pays_inInt _ k).one fun tag => Pays.skip (tame_inDouble _) fun x => Pays.skip (tame_inDouble _) fun y => Pays.skip (tame_inDouble _) fun z =>
    Pays.bind _ (pays_intListAscii cfg _ _) fun l => Pays.pure ?_
  simp only [wPoint]; omega

theorem pays_boxAscii (cfg : Cfg) (p : BoxEntity) (k : Nat) : Pays k (loadBoxAscii cfg p) fun q => k + wBox q := by
  unfold loadBoxAscii
  refine (pays_inInt _ k).one fun tag => Pays.skip (tame_inDouble _) fun x => Pays.skip (tame_inDouble _) fun y => Pays.skip (tame_inDouble _) fun z =>
    Pays.skip (tame_inDouble _) fun x => Pays.skip (tame_inDouble _) fun y => Pays.skip (tame_inDouble _) fun z =>
    Pays.bind _ (pays_intListAscii cfg _ _) fun l => Pays.bind _ (pays_intListAscii cfg _ _) fun l => Pays.pure ?_
  simp only [wBox]; omega

theorem pays_pointBinary (cfg : Cfg) (p : PointEntity) (k : Nat) : Pays k (loadPointBinary cfg p) fun q => k + wPoint q := by
  unfold loadPointBinary
  refine (pays_readInt _ k).one fun tag => Pays.skip (tame_readDouble _) fun x => Pays.skip (tame_readDouble _) fun y => Pays.skip (tame_readDouble _) fun z =>
    Pays.bind _ (pays_intListBinary cfg _ _) fun l => Pays.pure ?_
  simp only [wPoint]; omega

theorem pays_boxBinary (cfg : Cfg) (p : BoxEntity) (k : Nat) : Pays k (loadBoxBinary cfg p) fun q => k + wBox q := by
  unfold loadBoxBinary
  refine (pays_readInt _ k).one fun tag => Pays.skip (tame_readDouble _) fun x => Pays.skip (tame_readDouble _) fun y => Pays.skip (tame_readDouble _) fun z =>
    Pays.skip (tame_readDouble _) fun x => Pays.skip (tame_readDouble _) fun y => Pays.skip (tame_readDouble _) fun z =>
    Pays.bind _ (pays_intListBinary cfg _ _) fun l => Pays.bind _ (pays_intListBinary cfg _ _) fun l => Pays.pure ?_
  simp only [wBox]; omega

theorem pays_entities (cfg : Cfg) (f : MeshFormat) (e : Entities) : Pays (wEntities e) (loadEntities cfg f e) wEntities := by
  unfold loadEntities
  refine Pays.ite (fun _ => Pays.ite (fun _ => ?_) fun _ => ?_) fun _ => Pays.ite (fun _ => Pays.throw) fun _ => Pays.pure (Nat.le_refl _)
  · unfold loadEntitiesAscii41
    refine Pays.skip tame_extractSize fun a => Pays.skip tame_extractSize fun b => Pays.skip tame_extractSize fun c => Pays.skip tame_extractSize fun d =>
      Pays.skip (tame_assertGood cfg) fun _ => Pays.skip (tame_useVar _) fun _ => Pays.skip (tame_resize _ _ _ _) fun _ => Pays.skip (tame_useVar _) fun _ =>
      Pays.skip (tame_resize _ _ _ _) fun _ => Pays.skip (tame_useVar _) fun _ => Pays.skip (tame_resize _ _ _ _) fun _ => Pays.skip (tame_useVar _) fun _ =>
      Pays.skip (tame_resize _ _ _ _) fun _ => Pays.bind _ (Pays.forEach (pays_pointAscii cfg) _ _) fun _ => Pays.bind _ (Pays.forEach (pays_boxAscii cfg) _ _) fun _ =>
      Pays.bind _ (Pays.forEach (pays_boxAscii cfg) _ _) fun _ => Pays.bind _ (Pays.forEach (pays_boxAscii cfg) _ _) fun _ => Pays.skip (tame_assertGood cfg) fun _ => Pays.pure ?_
    simp only [wEntities]; omega
  · unfold loadEntitiesBinary41
    refine Pays.skip (tame_eatWhiteSpace 1) fun _ => Pays.skip tame_readSizeVar fun a => Pays.skip tame_readSizeVar fun b => Pays.skip tame_readSizeVar fun c => Pays.skip tame_readSizeVar fun d =>
      Pays.skip (tame_assertGood cfg) fun _ => Pays.skip (tame_useVar _) fun _ => Pays.skip (tame_resize _ _ _ _) fun _ => Pays.skip (tame_useVar _) fun _ =>
      Pays.skip (tame_resize _ _ _ _) fun _ => Pays.skip (tame_useVar _) fun _ => Pays.skip (tame_resize _ _ _ _) fun _ => Pays.skip (tame_useVar _) fun _ =>
      Pays.skip (tame_resize _ _ _ _) fun _ => Pays.bind _ (Pays.forEach (pays_pointBinary cfg) _ _) fun _ => Pays.bind _ (Pays.forEach (pays_boxBinary cfg) _ _) fun _ =>
      Pays.bind _ (Pays.forEach (pays_boxBinary cfg) _ _) fun _ => Pays.bind _ (Pays.forEach (pays_boxBinary cfg) _ _) fun _ => Pays.pure ?_
    simp only [wEntities]; omega

/-! ### Tables -/

theorem post_resize (cfg : Cfg) (v : List α) (n : UInt64) (d : α) : Post (resize cfg v n d) fun l => l.length = n.toNat :=
  Post.lift ((OPost.vecResize cfg v n d).mono fun _ h => h.1)

theorem post_inDoubleAt (i : UInt64) (v : List Double) (n : Nat) (h : v.length = n) : Post (inDoubleAt i v) fun l => l.length = n := by
  unfold inDoubleAt
  split
  · exact Post.ub
  · exact Post.skip fun _ => Post.pure (by simpa using h)

theorem post_inSizeAt (i : UInt64) (v : List UInt64) (n : Nat) (h : v.length = n) : Post (inSizeAt i v) fun l => l.length = n := by
  unfold inSizeAt
  split
  · exact Post.ub
  · exact Post.skip fun _ => Post.pure (by simpa using h)

/-- A table of `n` rows of `m` cells: every cell is read, and there are no more of them than the vector has entries. -/
theorem pays_table {f : Nat → Nat → List α → Rd (List α)} (ht : ∀ j i v, Tame (f j i v)) (hp : ∀ j i v n, v.length = n → Post (f j i v) fun l => l.length = n)
    (h : ∀ j i v k, Pays k (f j i v) fun _ => k + 1) (n m : Nat) (v : List α) (hv : v.length ≤ n * m) (k : Nat) :
    Pays k (loopN (fun j v => loopN (f j) m 0 v) n 0 v) fun l => k + l.length := by
  refine Pays.post (P := fun l => l.length = v.length) (Pays.loopN (P := fun _ => True) m (fun j a => (Tame.loopN (ht j) m 0 a).sticky) (fun _ _ _ _ _ _ _ => trivial) (fun j a k _ => ?_) n 0 k v trivial)
    (Post.loopN_inv (fun j a ha => Post.loopN_inv (fun i b hb => hp j i b _ hb) m 0 a ha) n 0 v rfl) fun l hl => by rw [hl]; omega
  exact (Pays.loopN (P := fun _ => True) 1 (fun i a => (ht j i a).sticky) (fun _ _ _ _ _ _ _ => trivial) (fun i a k _ => h j i a k) m 0 k a trivial).mono fun _ => by omega

/-! ### Nodes and elements -/

theorem pays_nodeBlockAscii (cfg : Cfg) (b : NodeBlock) (k : Nat) : Pays k (loadNodeBlockAscii41 cfg b) fun b' => k + wNodeBlock b' := by
  unfold loadNodeBlockAscii41
  refine (pays_inInt _ k).one fun dim => Pays.skip (tame_inInt _) fun tag => Pays.skip (tame_inInt _) fun par => Pays.skip (tame_inSize _) fun num =>
    Pays.skip (tame_assertGood cfg) fun _ => Pays.skip (tame_resize _ _ _ _) fun tags => Pays.bind _ (Pays.forEach_len pays_inSize tags) fun tags =>
    Pays.skip (tame_assertGood cfg) fun _ => Pays.skip (tame_assertC cfg _) fun _ => Pays.skip (Tame.lift ?_) fun e =>
    Pays.bindP _ (Pays.free (tame_resize _ _ _ _)) (post_resize _ _ _ _) (fun data => ?_) fun data hd => ?_
  · exact NoHang.entriesPerNode _ _
  · exact Tame.sticky (by tame)
  · refine Pays.bind _ (pays_table (fun j i v => tame_inDoubleAt _ _) (fun j i v n h => post_inDoubleAt _ _ n h) (fun j i v k => pays_inDoubleAt _ _ k) num.toNat e.toNat data ?_ _) fun data' =>
      Pays.skip (tame_assertGood cfg) fun _ => Pays.pure ?_
    · rw [hd, UInt64.toNat_mul]; exact Nat.mod_le _ _
    · simp only [wNodeBlock]; omega

theorem pays_nodeBlockBinary (cfg : Cfg) (b : NodeBlock) (k : Nat) : Pays k (loadNodeBlockBinary41 cfg b) fun b' => k + wNodeBlock b' := by
  unfold loadNodeBlockBinary41
  refine (pays_readInt _ k).one fun dim => Pays.skip (tame_readInt _) fun tag => Pays.skip (tame_readInt _) fun par => Pays.skip (tame_readSize _) fun num =>
    Pays.skip (tame_assertGood cfg) fun _ => Pays.skip (tame_resize _ _ _ _) fun tags => Pays.bind _ (pays_readSizes tags _) fun tags =>
    Pays.skip (tame_assertGood cfg) fun _ => Pays.skip (Tame.lift (NoHang.entriesPerNode _ _)) fun e => Pays.skip (tame_resize _ _ _ _) fun data =>
    Pays.bind _ (pays_readDoubles data _) fun data => Pays.skip (tame_assertGood cfg) fun _ => Pays.pure ?_
  simp only [wNodeBlock]; omega

theorem pays_elementBlockAscii (cfg : Cfg) (b : ElementBlock) (k : Nat) : Pays k (loadElementBlockAscii41 cfg b) fun b' => k + wElementBlock b' := by
  unfold loadElementBlockAscii41
  refine (pays_inInt _ k).one fun dim => Pays.skip (tame_inInt _) fun tag => Pays.skip (tame_inInt _) fun ty => Pays.skip (tame_inSize _) fun num =>
    Pays.skip (Tame.lift (NoHang.nodesPerElement _)) fun n =>
    Pays.bindP _ (Pays.free (tame_resize _ _ _ _)) (post_resize _ _ _ _) (fun data => Tame.sticky (by tame)) fun data hd => ?_
  refine Pays.bind _ (pays_table (fun j i v => tame_inSizeAt _ _) (fun j i v n h => post_inSizeAt _ _ n h) (fun j i v k => pays_inSizeAt _ _ k) num.toNat (n.toNat + 1) data ?_ _) fun data' =>
      Pays.skip (tame_assertGood cfg) fun _ => Pays.pure ?_
  · rw [hd, UInt64.toNat_mul, UInt64.toNat_add]
    exact Nat.le_trans (Nat.mod_le _ _) (Nat.mul_le_mul_left _ (Nat.mod_le _ _))
  · simp only [wElementBlock]; omega

theorem pays_elementBlockBinary (cfg : Cfg) (b : ElementBlock) (k : Nat) : Pays k (loadElementBlockBinary41 cfg b) fun b' => k + wElementBlock b' := by
  unfold loadElementBlockBinary41
  refine (pays_readInt _ k).one fun dim => Pays.skip (tame_readInt _) fun tag => Pays.skip (tame_readInt _) fun ty => Pays.skip (tame_readSize _) fun num =>
    Pays.skip (Tame.lift (NoHang.nodesPerElement _)) fun n => Pays.skip (tame_resize _ _ _ _) fun data =>
    Pays.bind _ (pays_readSizes data _) fun data => Pays.skip (tame_assertGood cfg) fun _ => Pays.pure ?_
  simp only [wElementBlock]; omega

theorem pays_nodes41 (cfg : Cfg) (n : Nodes) (k : Nat) : Pays k (loadNodesAscii41 cfg n) (fun n' => k + wNodes n') ∧ Pays k (loadNodesBinary41 cfg n) (fun n' => k + wNodes n') := by
  constructor
  · unfold loadNodesAscii41
    exact Pays.skip (tame_inSize _) fun _ => Pays.skip (tame_inSize _) fun _ => Pays.skip (tame_inSize _) fun _ => Pays.skip (tame_inSize _) fun _ =>
      Pays.skip (tame_assertGood cfg) fun _ => Pays.skip (tame_resize _ _ _ _) fun _ => Pays.bind _ (Pays.forEach (pays_nodeBlockAscii cfg) _ _) fun _ => Pays.pure (Nat.le_refl _)
  · unfold loadNodesBinary41
    exact Pays.skip (tame_eatWhiteSpace 1) fun _ => Pays.skip (tame_readSize _) fun _ => Pays.skip (tame_readSize _) fun _ => Pays.skip (tame_readSize _) fun _ => Pays.skip (tame_readSize _) fun _ =>
      Pays.skip (tame_assertGood cfg) fun _ => Pays.skip (tame_resize _ _ _ _) fun _ => Pays.bind _ (Pays.forEach (pays_nodeBlockBinary cfg) _ _) fun _ => Pays.pure (Nat.le_refl _)

theorem pays_elements41 (cfg : Cfg) (n : Elements) (k : Nat) :
    Pays k (loadElementsAscii41 cfg n) (fun n' => k + wElements n') ∧ Pays k (loadElementsBinary41 cfg n) (fun n' => k + wElements n') := by
  constructor
  · unfold loadElementsAscii41
    exact Pays.skip (tame_inSize _) fun _ => Pays.skip (tame_inSize _) fun _ => Pays.skip (tame_inSize _) fun _ => Pays.skip (tame_inSize _) fun _ =>
      Pays.skip (tame_assertGood cfg) fun _ => Pays.skip (tame_resize _ _ _ _) fun _ => Pays.bind _ (Pays.forEach (pays_elementBlockAscii cfg) _ _) fun _ => Pays.pure (Nat.le_refl _)
  · unfold loadElementsBinary41
    exact Pays.skip (tame_eatWhiteSpace 1) fun _ => Pays.skip (tame_readSize _) fun _ => Pays.skip (tame_readSize _) fun _ => Pays.skip (tame_readSize _) fun _ => Pays.skip (tame_readSize _) fun _ =>
      Pays.skip (tame_assertGood cfg) fun _ => Pays.skip (tame_resize _ _ _ _) fun _ => Pays.bind _ (Pays.forEach (pays_elementBlockBinary cfg) _ _) fun _ => Pays.pure (Nat.le_refl _)

/-! ## Data, curves, patches -/

theorem pays_header (cfg : Cfg) (h : DataHeader) (k : Nat) : Pays k (loadDataHeader cfg h) fun h' => k + 1 + wHeader h' := by
  unfold loadDataHeader
  refine (pays_extractSize k).one fun a => Pays.skip (tame_useVar a) fun ns => Pays.skip (tame_resize _ _ _ _) fun st =>
    Pays.bind _ (Pays.forEach pays_inQuoted st _) fun st => Pays.skip tame_extractSize fun a => Pays.skip (tame_useVar a) fun nr => Pays.skip (tame_resize _ _ _ _) fun rt =>
    Pays.bind _ (Pays.forEach_len pays_inDouble rt) fun rt => Pays.skip tame_extractSize fun a => Pays.skip (tame_useVar a) fun nr => Pays.skip (tame_resize _ _ _ _) fun it =>
    Pays.bind _ (Pays.forEach_len pays_inInt it) fun it => Pays.skip (tame_assertGood cfg) fun _ => Pays.pure ?_
  simp only [wHeader]; omega

theorem pays_entryBinary (cfg : Cfg) (f : UInt64) (b : Bool) (e : DataEntry) (k : Nat) :
    Pays k (loadDataEntryBinary41 cfg f b e) (fun e' => k + wEntry e') ∧ Pays k (loadDataEntryBinary22 cfg f b e) (fun e' => k + wEntry e') := by
  constructor
  · unfold loadDataEntryBinary41
    refine (pays_readIntVar none k).one fun a => Pays.skip (tame_useVar a) fun tag => Pays.ite (fun _ => Pays.skip (tame_readInt _) fun npe => ?_) fun _ => ?_
    all_goals
      refine Pays.skip (tame_resize _ _ _ _) fun d => Pays.bind _ (pays_readDoubles d _) fun d => Pays.pure ?_
      simp only [wEntry]; omega
  · unfold loadDataEntryBinary22
    refine (pays_readIntVar none k).one fun a => Pays.skip (tame_useVar a) fun tag => Pays.ite (fun _ => Pays.skip (tame_readIntVar _) fun a => Pays.skip (tame_useVar a) fun npe => ?_) fun _ => ?_
    all_goals
      refine Pays.skip (tame_resize _ _ _ _) fun d => Pays.bind _ (pays_readDoubles d _) fun d => Pays.pure ?_
      simp only [wEntry]; omega

theorem pays_entryAscii (cfg : Cfg) (f : UInt64) (b : Bool) (e : DataEntry) (k : Nat) : Pays k (loadDataEntryAscii cfg f b e) fun e' => k + wEntry e' := by
  unfold loadDataEntryAscii
  refine (pays_inSize _ k).one fun tag => Pays.ite (fun _ => Pays.skip (tame_inInt _) fun npe => ?_) fun _ => ?_
  · refine Pays.bindP _ (Pays.free (tame_resize _ _ _ _)) (post_resize _ _ _ _) (fun data => Tame.sticky (by tame)) fun data hd => ?_
    refine Pays.bind _ (pays_table (fun j i v => tame_inDoubleAt _ _) (fun j i v n h => post_inDoubleAt _ _ n h) (fun j i v k => pays_inDoubleAt _ _ k) (sizeOfInt npe).toNat f.toNat data ?_ _)
      fun data' => Pays.pure ?_
    · rw [hd, UInt64.toNat_mul, Nat.mul_comm]; exact Nat.mod_le _ _
    · simp only [wEntry]; omega
  · refine Pays.skip (tame_resize _ _ _ _) fun d => Pays.bind _ (Pays.forEach_len pays_inDouble d) fun d => Pays.pure ?_
    simp only [wEntry]; omega

theorem pays_data (cfg : Cfg) (f : MeshFormat) (b : Bool) (k : Nat) : Pays k (loadData cfg f b) fun d => k + wData d := by
  unfold loadData
  refine Pays.bind _ (pays_header cfg {} k) fun h => ?_
  split
  · refine Pays.skip (tame_resize _ _ _ _) fun es => Pays.ite (fun _ => Pays.skip (tame_eatWhiteSpace 1) fun _ => Pays.ite (fun _ => ?_) fun _ => Pays.ite (fun _ => ?_) fun _ => Pays.throw) fun _ => ?_
    · refine Pays.bind _ (Pays.forEach (fun e k => (pays_entryBinary cfg _ b e k).1) es _) fun es => Pays.skip (tame_assertGood cfg) fun _ => Pays.pure ?_
      simp only [wData]; omega
    · refine Pays.bind _ (Pays.forEach (fun e k => (pays_entryBinary cfg _ b e k).2) es _) fun es => Pays.skip (tame_assertGood cfg) fun _ => Pays.pure ?_
      simp only [wData]; omega
    · refine Pays.bind _ (Pays.forEach (fun e k => pays_entryAscii cfg _ b e k) es _) fun es => Pays.skip (tame_assertGood cfg) fun _ => Pays.pure ?_
      simp only [wData]; omega
  · exact Pays.throw

theorem post_pushBack (cfg : Cfg) (v : List α) (x : α) : Post (pushBack cfg v x) fun l => l = v ++ [x] := by
  refine Post.lift ?_
  unfold vecPush
  exact OPost.ite (fun _ => OPost.ok rfl) fun _ => OPost.throw

theorem pays_dataSection (cfg : Cfg) (f : MeshFormat) (b : Bool) (ds : List Data) :
    Pays (ds.map wData).sum (loadDataSection cfg f b ds) fun ds' => (ds'.map wData).sum := by
  unfold loadDataSection
  refine Pays.bindP _ (Pays.free (tame_pushBack _ _ _)) (post_pushBack _ _ _) (fun l => (pays_data cfg f b 0).sticky.bind fun _ => (Tame.pure _).sticky) fun l hl => ?_
  refine Pays.bind _ (pays_data cfg f b _) fun d => Pays.pure ?_
  rw [hl, List.dropLast_concat]
  simp

theorem pays_curveHeader (c : Curve) (k : Nat) : Pays k (loadCurveHeader c) fun _ => k + 1 := by
  unfold loadCurveHeader
  exact (pays_inSize _ k).one fun _ => Pays.skip (tame_inSize _) fun _ => Pays.skip (tame_inSize _) fun _ => Pays.skip (tame_inSize _) fun _ => Pays.skip (tame_inSize _) fun _ =>
    Pays.skip (tame_inSize _) fun _ => Pays.pure (Nat.le_refl _)

theorem pays_curves (cfg : Cfg) (f : MeshFormat) (cs : List Curve) : Pays (cs.map wCurve).sum (loadCurves cfg f cs) fun cs' => (cs'.map wCurve).sum := by
  unfold loadCurves
  refine Pays.ite (fun _ => Pays.skip tame_extractSize fun a => Pays.skip (tame_useVar a) fun n => Pays.skip (tame_resize _ _ _ _) fun l => Pays.ite (fun _ => ?_) fun _ => ?_) fun _ => Pays.pure (Nat.le_refl _)
  · refine (Pays.forEach (v := wCurve) (fun c k => ?_) l _).mono fun _ => by omega
    unfold loadCurveAscii
    refine Pays.bind _ (pays_curveHeader c k) fun c => Pays.skip (tame_resize _ _ _ _) fun d => Pays.bind _ (Pays.forEach_len pays_inDouble d) fun d => Pays.pure ?_
    simp only [wCurve]; omega
  · refine (Pays.forEach (v := wCurve) (fun c k => ?_) l _).mono fun _ => by omega
    unfold loadCurveBinary
    refine Pays.bind _ (pays_curveHeader c k) fun c => Pays.skip (tame_eatWhiteSpace 1) fun _ => Pays.skip (tame_resize _ _ _ _) fun d => Pays.bind _ (pays_readDoubles d _) fun d => Pays.pure ?_
    simp only [wCurve]; omega

theorem pays_patchHeader (c : Patch) (k : Nat) : Pays k (loadPatchHeader c) fun _ => k + 1 := by
  unfold loadPatchHeader
  exact (pays_inSize _ k).one fun _ => Pays.skip (tame_inSize _) fun _ => Pays.skip (tame_inSize _) fun _ => Pays.skip (tame_inSize _) fun _ => Pays.skip (tame_inSize _) fun _ =>
    Pays.skip (tame_inSize _) fun _ => Pays.skip (tame_inSize _) fun _ => Pays.skip (tame_inSize _) fun _ => Pays.pure (Nat.le_refl _)

theorem pays_patches (cfg : Cfg) (f : MeshFormat) (cs : List Patch) : Pays (cs.map wPatch).sum (loadPatches cfg f cs) fun cs' => (cs'.map wPatch).sum := by
  unfold loadPatches
  refine Pays.ite (fun _ => Pays.skip tame_extractSize fun a => Pays.skip (tame_useVar a) fun n => Pays.skip (tame_resize _ _ _ _) fun l => Pays.ite (fun _ => ?_) fun _ => ?_) fun _ => Pays.pure (Nat.le_refl _)
  · refine (Pays.forEach (v := wPatch) (fun c k => ?_) l _).mono fun _ => by omega
    unfold loadPatchAscii
    refine Pays.bind _ (pays_patchHeader c k) fun c => Pays.skip (tame_resize _ _ _ _) fun d => Pays.bind _ (Pays.forEach_len pays_inDouble d) fun d => Pays.pure ?_
    simp only [wPatch]; omega
  · refine (Pays.forEach (v := wPatch) (fun c k => ?_) l _).mono fun _ => by omega
    unfold loadPatchBinary
    refine Pays.bind _ (pays_patchHeader c k) fun c => Pays.skip (tame_resize _ _ _ _) fun d => Pays.skip (tame_eatWhiteSpace 1) fun _ => Pays.bind _ (pays_readDoubles d _) fun d => Pays.pure ?_
    simp only [wPatch]; omega

end MshIO
