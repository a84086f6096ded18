import Verif.Proofs.BrokenTwin

/-!
# Input that can fail: nothing on a broken stream sees the end of the file
-/

namespace MshIO.Broken

/-- `s'` is a possible later state of the broken stream `s`. -/
structure Step (s s' : Stream) : Prop where
  broken : s'.broken = true
  eof : s'.eof = false
  len : s'.rem.length ≤ s.rem.length
  fail : s.fail = true → s'.fail = true

/-- On a broken stream: never hangs, and normal exits leave it broken and not at the end. -/
structure Open {α : Type} (p : Rd α) : Prop where
  all : ∀ s, s.broken = true → s.eof = false → p s ≠ .hang ∧ ∀ a s', p s = .ok (a, s') → Step s s'

theorem Step.refl {s : Stream} (hb : s.broken = true) (he : s.eof = false) : Step s s := ⟨hb, he, Nat.le_refl _, id⟩

theorem Step.trans {a b c : Stream} (h : Step a b) (k : Step b c) : Step a c := ⟨k.broken, k.eof, Nat.le_trans k.len h.len, fun x => k.fail (h.fail x)⟩

theorem bind_def {α β : Type} (p : Rd α) (f : α → Rd β) (s : Stream) : (p >>= f) s =
    match p s with
    | .ok (a, s') => f a s'
    | .throw e => .throw e
    | .abort => .abort
    | .ub => .ub
    | .hang => .hang := rfl

namespace Open

variable {α β : Type}

theorem pure (a : α) : Open (Pure.pure a : Rd α) := ⟨fun s hb he => ⟨nofun, fun _ _ h => by cases h; exact .refl hb he⟩⟩
theorem throw (e : Exc) : Open (Rd.throw e : Rd α) := ⟨fun _ _ _ => ⟨nofun, nofun⟩⟩
theorem ub : Open (Rd.ub : Rd α) := ⟨fun _ _ _ => ⟨nofun, nofun⟩⟩

theorem bind {p : Rd α} {f : α → Rd β} (h : Open p) (hf : ∀ a, Open (f a)) : Open (p >>= f) := ⟨fun s hb he => by
  rw [bind_def]
  have k := h.all s hb he
  cases e : p s with
  | ok r =>
    have k1 := k.2 _ _ e
    have k2 := (hf r.1).all r.2 k1.broken k1.eof
    exact ⟨k2.1, fun a s' h' => k1.trans (k2.2 a s' h')⟩
  | hang => exact absurd e k.1
  | throw e => exact ⟨nofun, nofun⟩
  | abort => exact ⟨nofun, nofun⟩
  | ub => exact ⟨nofun, nofun⟩⟩

theorem lift {x : Outcome α} (h : NoHang x) : Open (Rd.lift x) := ⟨fun s hb he => by
  unfold Rd.lift
  cases x with
  | ok a => exact ⟨nofun, fun _ _ h => by cases h; exact .refl hb he⟩
  | hang => exact absurd rfl h.ne
  | throw e => exact ⟨nofun, nofun⟩
  | abort => exact ⟨nofun, nofun⟩
  | ub => exact ⟨nofun, nofun⟩⟩

theorem ite {c : Prop} [Decidable c] {p q : Rd α} (h1 : Open p) (h2 : Open q) : Open (if c then p else q) := by split <;> assumption

theorem forEach {f : α → Rd α} (h : ∀ a, Open (f a)) (l : List α) : Open (Broken.forEach f l) := by
  induction l with
  | nil => exact pure _
  | cons a l ih => exact bind (h a) fun _ => bind ih fun _ => pure _

theorem loopN {f : Nat → α → Rd α} (h : ∀ i a, Open (f i a)) (n i : Nat) (a : α) : Open (Broken.loopN f n i a) := by
  induction n generalizing i a with
  | zero => exact pure _
  | succ n ih => exact bind (h i a) fun _ => ih _ _

theorem useVar (x : Option α) : Open (Broken.useVar x) := by
  cases x
  · exact ub
  · exact pure _

theorem assertC (cfg : Cfg) (c : Bool) : Open (Broken.assertC cfg c) := ⟨fun s hb he => by
  unfold Broken.assertC
  split
  · exact ⟨nofun, nofun⟩
  · exact ⟨nofun, fun _ _ h => by cases h; exact .refl hb he⟩⟩

theorem assertGood (cfg : Cfg) : Open (Broken.assertGood cfg) := ⟨fun s hb he => by
  unfold Broken.assertGood
  split
  · exact ⟨nofun, nofun⟩
  · exact ⟨nofun, fun _ _ h => by cases h; exact .refl hb he⟩⟩

/-- An operation that always comes back. -/
theorem always {p : Rd α} (h : ∀ s, s.broken = true → s.eof = false → ∃ a s', p s = .ok (a, s') ∧ Step s s') : Open p := ⟨fun s hb he => by
  obtain ⟨a, s', h1, h2⟩ := h s hb he
  rw [h1]
  exact ⟨nofun, fun _ _ h => by cases h; exact h2⟩⟩

end Open

theorem Step.failed {s : Stream} (hb : s.broken = true) (he : s.eof = false) : Step s { s with fail := true } := ⟨hb, he, Nat.le_refl _, fun _ => rfl⟩

theorem Step.past {s : Stream} (hb : s.broken = true) (g : Bool) : Step s (s.past g) := by
  unfold Stream.past
  rw [if_pos hb]
  exact ⟨rfl, rfl, Nat.zero_le _, fun _ => rfl⟩

theorem Step.ahead {s : Stream} (hb : s.broken = true) (hg : s.good = true) {r : Bytes} (hr : r <:+ s.rem) (f : Bool) : Step s ⟨r, false, f, s.broken⟩ := by
  refine ⟨hb, rfl, hr.length_le, fun h => ?_⟩
  simp [Stream.good, h] at hg

theorem Step.look {s : Stream} (hb : s.broken = true) (hg : s.good = true) {r : Bytes} (hr : r <:+ s.rem) (f : Bool) : Step s (s.look r f) := by
  unfold Stream.look
  split
  · exact .past hb f
  · exact .ahead hb hg hr f

theorem sentry_step {s : Stream} (hb : s.broken = true) (he : s.eof = false) : (∃ s', sentry s = (false, s') ∧ Step s s' ∧ s'.fail = true) ∨
    (∃ c r, s.good = true ∧ sentry s = (true, ⟨c :: r, false, false, s.broken⟩) ∧ Step s ⟨c :: r, false, false, s.broken⟩) := by
  unfold sentry
  cases hg : s.good with
  | false => exact .inl ⟨_, rfl, .failed hb he, rfl⟩
  | true =>
    simp only [if_true]
    cases hd : s.rem.dropWhile isSpace with
    | nil => exact .inl ⟨_, rfl, .past hb _, by unfold Stream.past; rw [if_pos hb]⟩
    | cons c r => exact .inr ⟨c, r, trivial, rfl, .ahead hb hg (hd ▸ List.dropWhile_suffix _) _⟩

theorem open_extractSize : Open extractSize := .always fun s hb he => by
  unfold extractSize
  rcases sentry_step hb he with ⟨s', h, k, _⟩ | ⟨c, r, hg, h, k⟩
  · rw [h]; exact ⟨_, _, rfl, k⟩
  · rw [h]
    simp only
    split
    · exact ⟨_, _, rfl, k.trans (.past k.broken _)⟩
    · exact ⟨_, _, rfl, k.trans (.look k.broken rfl ((List.dropWhile_suffix _).trans (scanSign_suffix _)) _)⟩

theorem open_extractInt : Open extractInt := .always fun s hb he => by
  unfold extractInt
  rcases sentry_step hb he with ⟨s', h, k, _⟩ | ⟨c, r, hg, h, k⟩
  · rw [h]; exact ⟨_, _, rfl, k⟩
  · rw [h]
    simp only
    split
    · exact ⟨_, _, rfl, k.trans (.past k.broken _)⟩
    · exact ⟨_, _, rfl, k.trans (.look k.broken rfl ((List.dropWhile_suffix _).trans (scanSign_suffix _)) _)⟩

theorem open_extractDouble : Open extractDouble := .always fun s hb he => by
  unfold extractDouble
  rcases sentry_step hb he with ⟨s', h, k, _⟩ | ⟨c, r, hg, h, k⟩
  · rw [h]; exact ⟨_, _, rfl, k⟩
  · rw [h]
    simp only
    split
    · exact ⟨_, _, rfl, k.trans (.past k.broken _)⟩
    · exact ⟨_, _, rfl, k.trans (.look k.broken rfl (scanFloat_suffix _) _)⟩

/-- `in >> str`: the stream fails, or at least one byte is gone. -/
theorem inString_step (old : Bytes) {s : Stream} (hb : s.broken = true) (he : s.eof = false) :
    ∃ t s', inString old s = .ok (t, s') ∧ Step s s' ∧ (s'.fail = true ∨ s'.rem.length < s.rem.length) := by
  unfold inString
  rcases sentry_step hb he with ⟨s', h, k, hf⟩ | ⟨c, r, hg, h, k⟩
  · rw [h]; exact ⟨_, _, rfl, k, .inl hf⟩
  · have hc : isSpace c = false := by
      unfold sentry at h
      rw [hg] at h
      simp only [if_true] at h
      cases hd : s.rem.dropWhile isSpace with
      | nil => rw [hd] at h; simp at h
      | cons d q =>
        rw [hd] at h
        simp only [Prod.mk.injEq, true_and, Stream.mk.injEq, List.cons.injEq, and_true] at h
        have := List.head_dropWhile_not isSpace (l := s.rem) (by rw [hd]; simp)
        simp only [hd, List.head_cons] at this
        rw [← h.1]
        simpa using this
    rw [h]
    refine ⟨_, _, rfl, k.trans (.look k.broken rfl (List.dropWhile_suffix _) _), ?_⟩
    unfold Stream.look
    split
    · left; unfold Stream.past; rw [if_pos k.broken]
    · right
      have h1 := k.len
      simp only [List.dropWhile_cons, hc, Bool.not_false, if_true, List.length_cons] at h1 ⊢
      have := (List.dropWhile_suffix (l := r) fun c => !isSpace c).length_le
      omega

theorem open_inString (old : Bytes) : Open (inString old) := .always fun _ hb he =>
  let ⟨t, s', h, k, _⟩ := inString_step old hb he
  ⟨t, s', h, k⟩

theorem open_inQuoted (old : Bytes) : Open (inQuoted old) := .always fun s hb he => by
  unfold inQuoted
  rcases sentry_step hb he with ⟨s', h, k, _⟩ | ⟨c, r, hg, h, k⟩
  · rw [h]; exact ⟨_, _, rfl, k⟩
  · rw [h]
    simp only
    split
    · rename_i r' e
      cases e
      rcases quotedBody_some r with ⟨t, r', h3, h4, h5⟩ | ⟨t, h3, h4⟩
      · rw [h3]; exact ⟨_, _, rfl, k.trans (.ahead k.broken rfl (h5.trans (List.suffix_cons _ _)) _)⟩
      · rw [h3]; exact ⟨_, _, rfl, k.trans (.past k.broken _)⟩
    · obtain ⟨t, s', h3, h4, _⟩ := inString_step old (s := ⟨c :: r, false, false, s.broken⟩) hb rfl
      exact ⟨t, s', h3, k.trans h4⟩

theorem open_readRaw (old : Bytes) : Open (readRaw old) := .always fun s hb he => by
  unfold readRaw
  cases hg : s.good with
  | false => exact ⟨_, _, rfl, .failed hb he⟩
  | true =>
    simp only [if_true]
    split
    · exact ⟨_, _, rfl, .ahead hb hg (List.drop_suffix _ _) _⟩
    · exact ⟨_, _, rfl, .past hb _⟩

theorem open_readSizeVar : Open readSizeVar := .always fun s hb he => by
  unfold readSizeVar
  cases hg : s.good with
  | false => exact ⟨_, _, rfl, .failed hb he⟩
  | true =>
    simp only [if_true]
    split
    · exact ⟨_, _, rfl, .ahead hb hg (List.drop_suffix _ _) _⟩
    · exact ⟨_, _, rfl, .past hb _⟩

theorem open_eatWhiteSpace (n : Nat) : Open (eatWhiteSpace n) := .always fun s hb he => by
  unfold eatWhiteSpace
  cases hg : s.good with
  | false => exact ⟨_, _, rfl, .failed hb he⟩
  | true =>
    simp only [if_true]
    rcases eatLoop_some n s.rem with ⟨r, h1, h2, h3⟩ | ⟨h1, h2⟩
    · rw [h1]; exact ⟨_, _, rfl, .ahead hb hg h3 _⟩
    · rw [h1]; exact ⟨_, _, rfl, .past hb _⟩

theorem open_inSize (old : UInt64) : Open (inSize old) := open_extractSize.bind fun _ => .pure _
theorem open_inInt (old : Int32) : Open (inInt old) := open_extractInt.bind fun _ => .pure _
theorem open_inDouble (old : Double) : Open (inDouble old) := open_extractDouble.bind fun _ => .pure _
theorem open_inIntVar (old : Option Int32) : Open (inIntVar old) := open_extractInt.bind fun x => by cases x <;> exact .pure _
theorem open_readSize (old : UInt64) : Open (readSize old) := (open_readRaw _).bind fun _ => .pure _
theorem open_readInt (old : Int32) : Open (readInt old) := (open_readRaw _).bind fun _ => .pure _
theorem open_readDouble (old : Double) : Open (readDouble old) := (open_readRaw _).bind fun _ => .pure _
theorem open_readSizes (old : List UInt64) : Open (readSizes old) := (open_readRaw _).bind fun _ => .pure _
theorem open_readInts (old : List Int32) : Open (readInts old) := (open_readRaw _).bind fun _ => .pure _
theorem open_readDoubles (old : List Double) : Open (readDoubles old) := (open_readRaw _).bind fun _ => .pure _

theorem open_readIntVar (old : Option Int32) : Open (readIntVar old) := by
  cases old with
  | none =>
    refine .always fun s hb he => ?_
    unfold readIntVar
    simp only
    cases hg : s.good with
    | false => exact ⟨_, _, rfl, .failed hb he⟩
    | true =>
      simp only [if_true]
      split
      · exact ⟨_, _, rfl, .ahead hb hg (List.drop_suffix _ _) _⟩
      · exact ⟨_, _, rfl, .past hb _⟩
  | some v =>
    refine ⟨fun s hb he => ?_⟩
    unfold readIntVar
    simp only
    have k := (open_readInt v).all s hb he
    cases e : readInt v s with
    | ok r => exact ⟨nofun, fun _ _ h => by cases h; exact k.2 _ _ e⟩
    | hang => exact absurd e k.1
    | throw e => exact ⟨nofun, nofun⟩
    | abort => exact ⟨nofun, nofun⟩
    | ub => exact ⟨nofun, nofun⟩

theorem open_resize {α : Type} (cfg : Cfg) (v : List α) (n : UInt64) (d : α) : Open (resize cfg v n d) := .lift (NoHang.vecResize ..)
theorem open_pushBack {α : Type} (cfg : Cfg) (v : List α) (d : α) : Open (pushBack cfg v d) := .lift (NoHang.vecPush ..)
theorem open_inDoubleAt (i : UInt64) (v : List Double) : Open (inDoubleAt i v) := by
  unfold inDoubleAt; split
  · exact .ub
  · exact (open_inDouble _).bind fun _ => .pure _
theorem open_inSizeAt (i : UInt64) (v : List UInt64) : Open (inSizeAt i v) := by
  unfold inSizeAt; split
  · exact .ub
  · exact (open_inSize _).bind fun _ => .pure _

/-- Proves `Open` of a reader built from the readers above. -/
macro "opens" : tactic => `(tactic| repeat' (first
  | with_reducible exact Open.pure _
  | with_reducible exact Open.throw _
  | with_reducible exact Open.ub
  | with_reducible exact open_extractSize
  | with_reducible exact open_extractInt
  | with_reducible exact open_extractDouble
  | with_reducible exact open_inSize _
  | with_reducible exact open_inInt _
  | with_reducible exact open_inDouble _
  | with_reducible exact open_inIntVar _
  | with_reducible exact open_inString _
  | with_reducible exact open_inQuoted _
  | with_reducible exact open_readSize _
  | with_reducible exact open_readInt _
  | with_reducible exact open_readDouble _
  | with_reducible exact open_readSizes _
  | with_reducible exact open_readInts _
  | with_reducible exact open_readDoubles _
  | with_reducible exact open_readSizeVar
  | with_reducible exact open_readIntVar _
  | with_reducible exact open_eatWhiteSpace _
  | with_reducible exact Open.assertGood _
  | with_reducible exact Open.assertC _ _
  | with_reducible exact Open.useVar _
  | with_reducible exact open_resize _ _ _ _
  | with_reducible exact open_pushBack _ _ _
  | with_reducible exact open_inDoubleAt _ _
  | with_reducible exact open_inSizeAt _ _
  | with_reducible exact Open.lift (NoHang.nodesPerElement _)
  | with_reducible exact Open.lift (NoHang.getElementDim _)
  | with_reducible exact Open.lift (NoHang.entriesPerNode _ _)
  | with_reducible exact Open.lift (NoHang.vecGet _ _)
  | with_reducible exact Open.lift (NoHang.vecSet _ _ _)
  | with_reducible exact Open.lift (NoHang.vecReserve _ _)
  | with_reducible exact Open.lift (NoHang.makeElement22 _ _ _ _ _ _ _)
  | with_reducible exact Open.lift (NoHang.createAllEntities _ _ _)
  | with_reducible apply Open.bind
  | with_reducible apply Open.ite
  | with_reducible apply Open.forEach
  | with_reducible apply Open.loopN
  | with_reducible assumption
  | with_reducible apply_assumption
  | intro _
  | split))

theorem open_loadMeshFormat (f : MeshFormat) : Open (loadMeshFormat f) := by
  unfold loadMeshFormat; opens
theorem open_loadPhysicalGroups (cfg : Cfg) (g : List PhysicalGroup) : Open (loadPhysicalGroups cfg g) := by
  unfold loadPhysicalGroups loadPhysicalGroup; opens
theorem open_loadIntListAscii (cfg : Cfg) (v : List Int32) : Open (loadIntListAscii cfg v) := by
  unfold loadIntListAscii; opens
theorem open_loadIntListBinary (cfg : Cfg) (v : List Int32) : Open (loadIntListBinary cfg v) := by
  unfold loadIntListBinary; opens
theorem open_loadEntities (cfg : Cfg) (f : MeshFormat) (e : Entities) : Open (loadEntities cfg f e) := by
  have := open_loadIntListAscii cfg
  have := open_loadIntListBinary cfg
  unfold loadEntities loadEntitiesAscii41 loadEntitiesBinary41 loadPointAscii loadBoxAscii loadPointBinary loadBoxBinary; opens
theorem open_loadNodes (cfg : Cfg) (f : MeshFormat) (n : Nodes) : Open (loadNodes cfg f n) := by
  unfold loadNodes loadNodesAscii41 loadNodesBinary41 loadNodesAscii22 loadNodesBinary22 loadNodeBlockAscii41 loadNodeBlockBinary41 loadNodeBinary22; simp only; opens
theorem open_loadElementAscii22 (cfg : Cfg) (st : Ascii22) : Open (loadElementAscii22 cfg st) := by
  unfold loadElementAscii22; opens
theorem open_loadElementBinary22 (cfg : Cfg) (n : UInt64) (a b : Int32) (st : Option Int32 × Binary22) : Open (loadElementBinary22 cfg n a b st) := by
  unfold loadElementBinary22; opens
theorem open_loadElementGroupBinary22 (cfg : Cfg) (n : UInt64) (st : Binary22) : Open (loadElementGroupBinary22 cfg n st) := by
  have := open_loadElementBinary22 cfg n
  unfold loadElementGroupBinary22; opens

theorem bind_eq_ok {α β : Type} {p : Rd α} {f : α → Rd β} {s : Stream} {r : β × Stream} (h : (p >>= f) s = .ok r) : ∃ a s', p s = .ok (a, s') ∧ f a s' = .ok r := by
  rw [bind_def] at h
  cases hp : p s with
  | ok q => rw [hp] at h; exact ⟨q.1, q.2, rfl, h⟩
  | throw e => rw [hp] at h; cases h
  | abort => rw [hp] at h; cases h
  | ub => rw [hp] at h; cases h
  | hang => rw [hp] at h; cases h

theorem useVar_eq_ok {α : Type} {x : Option α} {s s' : Stream} {a : α} (h : useVar x s = .ok (a, s')) : x = some a ∧ s' = s := by
  cases x with
  | none => cases h
  | some b => cases h; exact ⟨rfl, rfl⟩

theorem readIntVar_none_some {s s' : Stream} {v : Int32} (h : readIntVar none s = .ok (some v, s')) : s'.rem.length + 4 = s.rem.length := by
  unfold readIntVar at h
  simp only at h
  split at h
  · split at h
    · simp only [Outcome.ok.injEq, Prod.mk.injEq] at h
      rw [← h.2]
      simp only [List.length_drop]
      omega
    · simp at h
  · simp at h

/-- Every round of the v2.2 binary element loop consumes at least 12 bytes. -/
theorem loadElementGroupBinary22_consumes {cfg : Cfg} {n : UInt64} {st st' : Binary22} {s s' : Stream} (hb : s.broken = true) (he : s.eof = false)
    (h : loadElementGroupBinary22 cfg n st s = .ok (st', s')) : s'.rem.length + 12 ≤ s.rem.length := by
  unfold loadElementGroupBinary22 at h
  obtain ⟨et, s1, h1, k1⟩ := bind_eq_ok h
  have t1 := ((open_readIntVar none).all _ hb he).2 _ _ h1
  obtain ⟨nb, s2, h2, k2⟩ := bind_eq_ok k1
  have t2 := ((open_readIntVar none).all _ t1.broken t1.eof).2 _ _ h2
  obtain ⟨nt, s3, h3, k3⟩ := bind_eq_ok k2
  have t3 := ((open_readIntVar none).all _ t2.broken t2.eof).2 _ _ h3
  obtain ⟨ntv, s4, h4, k4⟩ := bind_eq_ok k3
  obtain ⟨e4, e4'⟩ := useVar_eq_ok h4
  subst e4 e4'
  obtain ⟨tags, s5, h5, k5⟩ := bind_eq_ok k4
  have t5 := ((open_resize cfg st.tags (sizeOfInt ntv) 0).all _ t3.broken t3.eof).2 _ _ h5
  obtain ⟨etv, s6, h6, k6⟩ := bind_eq_ok k5
  obtain ⟨e6, e6'⟩ := useVar_eq_ok h6
  subst e6 e6'
  obtain ⟨n', s7, h7, k7⟩ := bind_eq_ok k6
  have t7 := ((Open.lift (NoHang.nodesPerElement etv)).all _ t5.broken t5.eof).2 _ _ h7
  obtain ⟨ids, s8, h8, k8⟩ := bind_eq_ok k7
  have t8 := ((open_resize cfg st.nodeIds n' 0).all _ t7.broken t7.eof).2 _ _ h8
  obtain ⟨nbv, s9, h9, k9⟩ := bind_eq_ok k8
  obtain ⟨e9, e9'⟩ := useVar_eq_ok h9
  subst e9 e9'
  obtain ⟨r, s10, h10, k10⟩ := bind_eq_ok k9
  have t10 := ((Open.loopN (fun _ st => open_loadElementBinary22 cfg n etv ntv st) _ _ _).all _ t8.broken t8.eof).2 _ _ h10
  have e11 : s10 = s' := by cases k10; rfl
  subst e11
  have e1 := readIntVar_none_some h1
  have e2 := readIntVar_none_some h2
  have e3 := readIntVar_none_some h3
  have := t5.len
  have := t7.len
  have := t8.len
  have := t10.len
  omega

theorem loadElementGroups22_open {cfg : Cfg} {n : UInt64} (fuel : Nat) (st : Binary22) (s : Stream) (hb : s.broken = true) (he : s.eof = false) (hf : s.rem.length < fuel) :
    loadElementGroups22 cfg n fuel st s ≠ .hang ∧ ∀ a s', loadElementGroups22 cfg n fuel st s = .ok (a, s') → Step s s' := by
  induction fuel generalizing st s with
  | zero => omega
  | succ fuel ih =>
    rw [loadElementGroups22]
    split
    · exact (Open.pure _).all s hb he
    · rw [bind_def]
      have ht := (open_loadElementGroupBinary22 cfg n st).all s hb he
      cases h : loadElementGroupBinary22 cfg n st s with
      | ok r =>
        obtain ⟨st', s'⟩ := r
        have hl := loadElementGroupBinary22_consumes hb he h
        have h2 := ht.2 _ _ h
        obtain ⟨i1, i2⟩ := ih st' s' h2.broken h2.eof (by omega)
        exact ⟨i1, fun a s'' h' => h2.trans (i2 a s'' h')⟩
      | hang => exact absurd h ht.1
      | throw e => simp
      | abort => simp
      | ub => simp

theorem open_loadElementsBinary22 (cfg : Cfg) (e : Elements) (ents : Entities) : Open (loadElementsBinary22 cfg e ents) := by
  unfold loadElementsBinary22
  refine (open_inSize _).bind fun n => (Open.lift (NoHang.vecReserve ..)).bind fun _ => (open_eatWhiteSpace 1).bind fun _ => Open.bind ?_ fun st => ?_
  · exact ⟨fun s hb he => loadElementGroups22_open _ _ s hb he (by omega)⟩
  · exact (Open.lift (NoHang.createAllEntities ..)).bind fun _ => .pure _

theorem open_loadElements (cfg : Cfg) (f : MeshFormat) (e : Elements) (ents : Entities) : Open (loadElements cfg f e ents) := by
  have := open_loadElementAscii22 cfg
  have := open_loadElementsBinary22 cfg
  unfold loadElements loadElementsAscii41 loadElementsBinary41 loadElementBlockAscii41 loadElementBlockBinary41 loadElementsAscii22
  simp only
  opens
theorem open_loadDataHeader (cfg : Cfg) (h : DataHeader) : Open (loadDataHeader cfg h) := by
  unfold loadDataHeader; opens
theorem open_loadData (cfg : Cfg) (f : MeshFormat) (b : Bool) : Open (loadData cfg f b) := by
  have := open_loadDataHeader cfg
  unfold loadData loadDataEntryBinary41 loadDataEntryBinary22 loadDataEntryAscii; opens
theorem open_loadDataSection (cfg : Cfg) (f : MeshFormat) (b : Bool) (ds : List Data) : Open (loadDataSection cfg f b ds) := by
  have := open_loadData cfg
  unfold loadDataSection; opens
theorem open_loadCurves (cfg : Cfg) (f : MeshFormat) (c : List Curve) : Open (loadCurves cfg f c) := by
  unfold loadCurves loadCurveAscii loadCurveBinary loadCurveHeader; opens
theorem open_loadPatches (cfg : Cfg) (f : MeshFormat) (c : List Patch) : Open (loadPatches cfg f c) := by
  unfold loadPatches loadPatchAscii loadPatchBinary loadPatchHeader; opens

theorem open_loadSection (cfg : Cfg) (buf : Bytes) (spec : MshSpec) : Open (loadSection cfg buf spec) := by
  have := open_loadMeshFormat
  have := open_loadPhysicalGroups cfg
  have := open_loadEntities cfg
  have := open_loadNodes cfg
  have := open_loadElements cfg
  have := open_loadDataSection cfg
  have := open_loadCurves cfg
  have := open_loadPatches cfg
  unfold loadSection loadNanosplineFormat
  opens

/-! ## The two loops -/

theorem forwardToFuel_succ (flag : Bytes) (n : Nat) (buf : Bytes) (s : Stream) : forwardToFuel flag (n + 1) buf s =
    if (s.eof || buf == flag) = true then .ok ((), s) else (inString buf >>= forwardToFuel flag n : Rd Unit) s := rfl

theorem loadLoop_succ (cfg : Cfg) (n : Nat) (spec : MshSpec) (s : Stream) : loadLoop cfg (n + 1) spec s =
    if s.eof = true then .ok (spec, s) else (loadRound cfg spec >>= loadLoop cfg n : Rd MshSpec) s := rfl

/-- A stream that has failed keeps `forward_to` busy for any number of rounds. -/
theorem forwardToFuel_stuck {flag buf : Bytes} {s : Stream} (hf : s.fail = true) (he : s.eof = false) (h : buf ≠ flag) (n : Nat) : forwardToFuel flag n buf s = .hang := by
  induction n with
  | zero => rfl
  | succ n ih =>
    have h1 : inString buf s = .ok (buf, s) := by
      obtain ⟨r, e, f, b⟩ := s
      simp only at hf he
      subst hf he
      rfl
    rw [forwardToFuel_succ, if_neg (by simp [he, h]), bind_def, h1]
    exact ih

/-- A stream that has failed keeps the main loop busy for any number of rounds. -/
theorem loadLoop_stuck (cfg : Cfg) {s : Stream} (hf : s.fail = true) (he : s.eof = false) (spec : MshSpec) (n : Nat) : loadLoop cfg n spec s = .hang := by
  induction n with
  | zero => rfl
  | succ n ih =>
    have h1 : loadRound cfg spec s = .ok (spec, s) := by
      obtain ⟨r, e, f, b⟩ := s
      simp only at hf he
      subst hf he
      rfl
    rw [loadLoop_succ, if_neg (by simp [he]), bind_def, h1]
    exact ih

/-- `forward_to` on a broken stream: rounds beyond the number of bytes do not matter. -/
theorem forwardToFuel_enough {flag : Bytes} (n m : Nat) {buf : Bytes} {s : Stream} (hb : s.broken = true) (he : s.eof = false) (hn : s.rem.length + 1 < n) (hm : s.rem.length + 1 < m) :
    forwardToFuel flag n buf s = forwardToFuel flag m buf s ∧ ∀ a s', forwardToFuel flag n buf s = .ok (a, s') → Step s s' := by
  induction n generalizing m buf s with
  | zero => omega
  | succ n ih =>
    obtain ⟨m, rfl⟩ : ∃ k, m = k + 1 := ⟨m - 1, by omega⟩
    rw [forwardToFuel_succ, forwardToFuel_succ]
    by_cases h : (s.eof || buf == flag) = true
    · rw [if_pos h, if_pos h]
      exact ⟨rfl, fun _ _ e => by cases e; exact .refl hb he⟩
    · rw [if_neg h, if_neg h, bind_def, bind_def]
      obtain ⟨t, s', h1, h2, h3⟩ := inString_step buf hb he
      rw [h1]
      simp only
      rcases h3 with hf | hl
      · by_cases ht : t = flag
        · obtain ⟨k, rfl⟩ : ∃ k, n = k + 1 := ⟨n - 1, by omega⟩
          obtain ⟨j, rfl⟩ : ∃ k, m = k + 1 := ⟨m - 1, by omega⟩
          rw [forwardToFuel_succ, forwardToFuel_succ, if_pos (by simp [ht]), if_pos (by simp [ht])]
          exact ⟨rfl, fun _ _ e => by cases e; exact h2⟩
        · rw [forwardToFuel_stuck hf h2.eof ht, forwardToFuel_stuck hf h2.eof ht]
          exact ⟨rfl, nofun⟩
      · have := ih m h2.broken h2.eof (buf := t) (s := s') (by omega) (by omega)
        exact ⟨this.1, fun a s'' h => h2.trans (this.2 a s'' h)⟩

/-- One round of the main loop on a broken stream that is still good ends with the stream failed or shorter. -/
theorem loadRound_step (cfg : Cfg) (spec : MshSpec) {s : Stream} (hb : s.broken = true) (he : s.eof = false) {spec' : MshSpec} {s' : Stream}
    (h : loadRound cfg spec s = .ok (spec', s')) : Step s s' ∧ (s'.fail = true ∨ s'.rem.length < s.rem.length) := by
  unfold loadRound at h
  obtain ⟨t, s1, h1, h2, h3⟩ := inString_step [] hb he
  rw [bind_def, h1] at h
  simp only at h
  have key : Step s1 s' := by
    split at h
    · obtain ⟨sp, s2, h4, h5⟩ := bind_eq_ok h
      obtain ⟨_, s3, h6, h7⟩ := bind_eq_ok h5
      cases h7
      have k1 := ((open_loadSection cfg _ spec).all s1 h2.broken h2.eof).2 _ _ h4
      exact k1.trans ((forwardToFuel_enough _ (s2.rem.length + 2) k1.broken k1.eof (by omega) (by omega)).2 _ _ h6)
    · cases h
      exact .refl h2.broken h2.eof
  refine ⟨h2.trans key, ?_⟩
  rcases h3 with h3 | h3
  · exact .inl (key.fail h3)
  · exact .inr (Nat.lt_of_le_of_lt key.len h3)

/-- The main loop on a broken stream never comes to its end, and rounds beyond the number of bytes do not matter. -/
theorem loadLoop_open (cfg : Cfg) (n : Nat) (spec : MshSpec) {s : Stream} (hb : s.broken = true) (he : s.eof = false) : ∀ r, loadLoop cfg n spec s ≠ .ok r := by
  induction n generalizing spec s with
  | zero => exact nofun
  | succ n ih =>
    intro r h
    rw [loadLoop_succ, if_neg (by simp [he])] at h
    obtain ⟨sp, s1, h1, h2⟩ := bind_eq_ok h
    have k := (loadRound_step cfg spec hb he h1).1
    exact ih sp k.broken k.eof r h2

theorem loadLoop_enough (cfg : Cfg) (n m : Nat) (spec : MshSpec) {s : Stream} (hb : s.broken = true) (he : s.eof = false) (hn : s.rem.length < n) (hm : s.rem.length < m) :
    loadLoop cfg n spec s = loadLoop cfg m spec s := by
  induction n generalizing m spec s with
  | zero => omega
  | succ n ih =>
    obtain ⟨m, rfl⟩ : ∃ k, m = k + 1 := ⟨m - 1, by omega⟩
    rw [loadLoop_succ, loadLoop_succ, if_neg (by simp [he]), if_neg (by simp [he]), bind_def, bind_def]
    cases h : loadRound cfg spec s with
    | ok r =>
      obtain ⟨k, hk⟩ := loadRound_step cfg spec hb he h
      simp only
      rcases hk with hf | hl
      · rw [loadLoop_stuck cfg hf k.eof, loadLoop_stuck cfg hf k.eof]
      · exact ih m r.1 k.broken k.eof (by omega) (by omega)
    | throw e => rfl
    | abort => rfl
    | ub => rfl
    | hang => rfl

end MshIO.Broken
