import Verif.Proofs.Endings

/-! # How reading a section in text ends -/

namespace MshIO

variable {α β : Type} {k : Ending}

/-! ## Nodes of version 4.1 -/

theorem EndsAt.nodeData {cfg : Cfg} {p dim : Int32} {num : UInt64} {v : List Double} {K : List Double → Rd α} {x : Place} {P : Place → Prop} (h : ∀ v y, EndsAt k (K v) y (P y)) :
    EndsAt k (Rd.lift (entriesPerNode p dim) >>= fun e => MshIO.resize cfg v (num * e) Double.zero >>= fun data =>
        loopN (fun j data => loopN (fun k data => inDoubleAt (UInt64.ofNat j * e + UInt64.ofNat k) data) e.toNat 0 data) num.toNat 0 data >>= K) x
      (¬ (p = 1 ∧ 2 ^ 31 ≤ dim.toInt + 3) ∧ ∃ total y, total = num.toNat * (if p = 1 then (3 + dim.toInt) % 2 ^ 64 else 3).toNat ∧ total ≤ cfg.maxCount ∧
        Many TakesReal total x y ∧ P y) := by
  by_cases hu : p = 1 ∧ 2 ^ 31 ≤ dim.toInt + 3
  · intro st _
    have : entriesPerNode p dim = .ub := by unfold entriesPerNode; rw [if_pos hu.1, if_pos hu.2]
    rw [this]
    exact ⟨fun h => absurd h Ending.not_ub, fun h => absurd hu h.1⟩
  · obtain ⟨e, he, hw⟩ := entries_width hu
    refine (EndsAt.lift he (EndsAt.table inDoubleAt_fills rfl (UInt64.toNat_mul num e) rfl h)).iff ?_
    rw [← hw]
    exact ⟨fun ⟨y, h⟩ => ⟨hu, _, y, rfl, h⟩, fun ⟨_, _, y, e, h⟩ => ⟨y, e ▸ h⟩⟩

theorem ends_nodeBlock (cfg : Cfg) (b : NodeBlock) (K : NodeBlock → Rd α) (Q : Place → Prop) (x : Place) (hK : ∀ b' y, EndsAt k (K b') y (Q y)) :
    EndsAt k (loadNodeBlockAscii41 cfg b >>= K) x (∃ d x1 x2 p x3 v x4, TakesInt x d x1 ∧ SkipsInt x1 x2 ∧ TakesInt x2 p x3 ∧ TakesSize x3 v x4 ∧ Asserted cfg k x4
      ((v.getD b.numNodesInBlock).toNat ≤ cfg.maxCount ∧ ∃ x5, Many SkipsSize (v.getD b.numNodesInBlock).toNat x4 x5 ∧ Asserted cfg k x5
        (if cfg.asserts = true ∧ ¬ (0 ≤ (p.getD b.parametric).toInt ∧ (p.getD b.parametric).toInt ≤ 3) then k = .stops
        else ¬ (p.getD b.parametric = 1 ∧ 2 ^ 31 ≤ (d.getD b.entityDim).toInt + 3) ∧ ∃ total y,
          total = (v.getD b.numNodesInBlock).toNat * (if p.getD b.parametric = 1 then (3 + (d.getD b.entityDim).toInt) % 2 ^ 64 else 3).toNat ∧ total ≤ cfg.maxCount ∧
          Many TakesReal total x5 y ∧ Asserted cfg k y (Q y)))) := by
  simp only [loadNodeBlockAscii41, Rd.bind_assoc]
  refine (EndsAt.yields (inInt_yields b.entityDim) fun d x1 _ => EndsAt.passes (inInt_passes b.entityTag) fun _ x2 => EndsAt.yields (inInt_yields b.parametric) fun p x3 _ =>
    EndsAt.yields (inSize_yields b.numNodesInBlock) fun num x4 _ => EndsAt.assertGood (EndsAt.resize fun _ => EndsAt.passes (forEach_many inSize_passes size_total (resized_length ..))
      fun tags x5 => EndsAt.assertGood (EndsAt.assertC (int32_range p) (EndsAt.nodeData fun v y => EndsAt.assertGood (hK _ y))))).iff ?_
  constructor
  · rintro ⟨_, x1, ⟨d, hd, rfl⟩, x2, ht, _, x3, ⟨p, hp, rfl⟩, _, x4, ⟨v, hv, rfl⟩, h⟩
    exact ⟨d, x1, x2, p, x3, v, x4, hd, ht, hp, hv, h⟩
  · rintro ⟨d, x1, x2, p, x3, v, x4, hd, ht, hp, hv, h⟩
    exact ⟨_, x1, ⟨d, hd, rfl⟩, x2, ht, _, x3, ⟨p, hp, rfl⟩, _, x4, ⟨v, hv, rfl⟩, h⟩

theorem ends_nodeBlocks (cfg : Cfg) (l : List NodeBlock) (x : Place) : EndsAt k (forEach (loadNodeBlockAscii41 cfg) l) x (BlocksTextEnd cfg k l x) :=
  EndsAt.forEach (fun b Q x => ∃ d x1 x2 p x3 v x4, TakesInt x d x1 ∧ SkipsInt x1 x2 ∧ TakesInt x2 p x3 ∧ TakesSize x3 v x4 ∧ Asserted cfg k x4
      ((v.getD b.numNodesInBlock).toNat ≤ cfg.maxCount ∧ ∃ x5, Many SkipsSize (v.getD b.numNodesInBlock).toNat x4 x5 ∧ Asserted cfg k x5
        (if cfg.asserts = true ∧ ¬ (0 ≤ (p.getD b.parametric).toInt ∧ (p.getD b.parametric).toInt ≤ 3) then k = .stops
        else ¬ (p.getD b.parametric = 1 ∧ 2 ^ 31 ≤ (d.getD b.entityDim).toInt + 3) ∧ ∃ total y,
          total = (v.getD b.numNodesInBlock).toNat * (if p.getD b.parametric = 1 then (3 + (d.getD b.entityDim).toInt) % 2 ^ 64 else 3).toNat ∧ total ≤ cfg.maxCount ∧
          Many TakesReal total x5 y ∧ Asserted cfg k y (Q y))))
    (ends_nodeBlock cfg) (BlocksTextEnd cfg k) (fun _ => Iff.rfl) (fun _ _ _ => Iff.rfl) l x

theorem ends_nodes41 (cfg : Cfg) (n : Nodes) (x : Place) : EndsAt k (loadNodesAscii41 cfg n) x (Nodes41TextEnds cfg k n x) := by
  unfold loadNodesAscii41
  refine (EndsAt.yields (inSize_yields n.numEntityBlocks) fun v x1 _ => EndsAt.passes (inSize_passes _) fun _ x2 => EndsAt.passes (inSize_passes _) fun _ x3 =>
    EndsAt.passes (inSize_passes _) fun _ y => EndsAt.assertGood (EndsAt.resize fun _ => (ends_nodeBlocks cfg _ y).last fun _ _ => ⟨_, rfl⟩)).iff ?_
  unfold Nodes41TextEnds
  simp only [many_three]
  constructor
  · rintro ⟨_, x1, ⟨v, hv, rfl⟩, x2, h2, x3, h3, y, h4, h5⟩
    exact ⟨v, x1, y, hv, ⟨x2, x3, h2, h3, h4⟩, h5⟩
  · rintro ⟨v, x1, y, hv, ⟨x2, x3, h2, h3, h4⟩, h5⟩
    exact ⟨_, x1, ⟨v, hv, rfl⟩, x2, h2, x3, h3, y, h4, h5⟩

/-! ## Entities -/

theorem ends_intList (cfg : Cfg) (v : List Int32) (K : List Int32 → Rd α) (Q : Place → Prop) (x : Place) (hK : ∀ l y, EndsAt k (K l) y (Q y)) :
    EndsAt k (loadIntListAscii cfg v >>= K) x (CounterRead cfg x fun n y => ∃ z, Many SkipsInt n y z ∧ Q z) := by
  simp only [loadIntListAscii, Rd.bind_assoc]
  exact EndsAt.counter fun n y _ => EndsAt.passes (forEach_many inInt_passes int_total (resized_length ..)) fun l z => hK l z

theorem counterRead_exists {γ : Type} {cfg : Cfg} {x : Place} {P : γ → Nat → Place → Prop} : (CounterRead cfg x fun n y => ∃ c, P c n y) ↔ ∃ c, CounterRead cfg x (P c) :=
  ⟨fun ⟨n, y, h1, h2, c, h⟩ => ⟨c, n, y, h1, h2, h⟩, fun ⟨c, n, y, h1, h2, h⟩ => ⟨n, y, h1, h2, c, h⟩⟩

theorem counterRead_and {cfg : Cfg} {x : Place} {P : Nat → Place → Prop} {Q : Prop} : (CounterRead cfg x fun n y => P n y ∧ Q) ↔ CounterRead cfg x P ∧ Q :=
  ⟨fun ⟨n, y, h1, h2, h, q⟩ => ⟨⟨n, y, h1, h2, h⟩, q⟩, fun ⟨⟨n, y, h1, h2, h⟩, q⟩ => ⟨n, y, h1, h2, h, q⟩⟩

/-- One list, and what comes after it. -/
theorem skipsLists_cons {cfg : Cfg} {R : Place → Place → Prop} {more : List (Place → Place → Prop)} {Q : Place → Prop} {x : Place} :
    (∃ y, R x y ∧ CounterRead cfg y fun n y => ∃ y', Many SkipsInt n y y' ∧ ∃ z, SkipsLists cfg more y' z ∧ Q z) ↔ ∃ z, SkipsLists cfg (R :: more) x z ∧ Q z := by
  constructor
  · rintro ⟨y, h1, n, y1, h2, h3, y', h4, z, h5, h6⟩
    exact ⟨z, ⟨y, h1, n, y1, h2, h3, y', h4, h5⟩, h6⟩
  · rintro ⟨z, ⟨y, h1, n, y1, h2, h3, y', h4, h5⟩, h6⟩
    exact ⟨y, h1, n, y1, h2, h3, y', h4, z, h5, h6⟩

theorem ends_points (cfg : Cfg) (l : List PointEntity) (K : List PointEntity → Rd α) (more : List (Place → Place → Prop)) (Q : Place → Prop) (x : Place)
    (hK : ∀ l y, EndsAt k (K l) y (∃ z, SkipsLists cfg more y z ∧ Q z)) :
    EndsAt k (forEach (loadPointAscii cfg) l >>= K) x (∃ z, SkipsLists cfg (List.replicate l.length (SkipsHead 3) ++ more) x z ∧ Q z) := by
  induction l generalizing x K with
  | nil => exact hK [] x
  | cons p l ih =>
    simp only [forEach, loadPointAscii, Rd.bind_assoc]
    refine (EndsAt.passes (inInt_passes _) fun _ x1 => EndsAt.passes (inDouble_passes _) fun _ x2 => EndsAt.passes (inDouble_passes _) fun _ x3 => EndsAt.passes (inDouble_passes _) fun _ x4 =>
      ends_intList cfg _ _ _ x4 fun _ y => ih _ y fun l y => hK _ y).iff ?_
    rw [List.length_cons, List.replicate_succ, List.cons_append, ← skipsLists_cons]
    unfold SkipsHead
    simp only [many_three]
    constructor
    · rintro ⟨x1, h1, x2, h2, x3, h3, x4, h4, h⟩
      exact ⟨x4, ⟨x1, h1, x2, x3, h2, h3, h4⟩, h⟩
    · rintro ⟨x4, ⟨x1, h1, x2, x3, h2, h3, h4⟩, h⟩
      exact ⟨x1, h1, x2, h2, x3, h3, x4, h4, h⟩

theorem ends_boxes (cfg : Cfg) (l : List BoxEntity) (K : List BoxEntity → Rd α) (more : List (Place → Place → Prop)) (Q : Place → Prop) (x : Place)
    (hK : ∀ l y, EndsAt k (K l) y (∃ z, SkipsLists cfg more y z ∧ Q z)) :
    EndsAt k (forEach (loadBoxAscii cfg) l >>= K) x (∃ z, SkipsLists cfg ((List.replicate l.length [SkipsHead 6, Eq]).flatten ++ more) x z ∧ Q z) := by
  induction l generalizing x K with
  | nil => exact hK [] x
  | cons p l ih =>
    simp only [forEach, loadBoxAscii, Rd.bind_assoc]
    refine (EndsAt.passes (inInt_passes _) fun _ x1 => EndsAt.passes (inDouble_passes _) fun _ x2 => EndsAt.passes (inDouble_passes _) fun _ x3 => EndsAt.passes (inDouble_passes _) fun _ x4 =>
      EndsAt.passes (inDouble_passes _) fun _ x5 => EndsAt.passes (inDouble_passes _) fun _ x6 => EndsAt.passes (inDouble_passes _) fun _ x7 =>
      ends_intList cfg _ _ _ x7 fun _ y => ends_intList cfg _ _ _ y fun _ y => ih _ y fun l y => hK _ y).iff ?_
    rw [List.length_cons, List.replicate_succ, List.flatten_cons, List.append_assoc]
    simp only [List.cons_append, List.nil_append]
    rw [← skipsLists_cons]
    unfold SkipsHead
    simp only [show (6 : Nat) = 3 + 3 from rfl, many_add, many_three]
    constructor
    · rintro ⟨x1, h1, x2, h2, x3, h3, x4, h4, x5, h5, x6, h6, x7, h7, n, y, hv, hn, z, h8, h9⟩
      exact ⟨x7, ⟨x1, h1, x4, ⟨x2, x3, h2, h3, h4⟩, x5, x6, h5, h6, h7⟩, n, y, hv, hn, z, h8, skipsLists_cons.mp ⟨z, rfl, h9⟩⟩
    · rintro ⟨x7, ⟨x1, h1, x4, ⟨x2, x3, h2, h3, h4⟩, x5, x6, h5, h6, h7⟩, n, y, hv, hn, z, h8, h9⟩
      obtain ⟨_, e, h9⟩ := skipsLists_cons.mpr h9
      cases e
      exact ⟨x1, h1, x2, h2, x3, h3, x4, h4, x5, h5, x6, h6, x7, h7, n, y, hv, hn, z, h8, h9⟩

theorem ends_entities41 (cfg : Cfg) (e : Entities) (x : Place) : EndsAt k (loadEntitiesAscii41 cfg e) x (EntitiesTextEnds cfg k x) := by
  unfold loadEntitiesAscii41
  refine (EndsAt.yields extractSize_yields fun np x1 _ => EndsAt.yields extractSize_yields fun nc x2 _ => EndsAt.yields extractSize_yields fun ns x3 _ =>
    EndsAt.yields extractSize_yields fun nv y _ => EndsAt.assertGood (EndsAt.useVar fun p _ => EndsAt.resize fun _ => EndsAt.useVar fun c _ => EndsAt.resize fun _ =>
      EndsAt.useVar fun s _ => EndsAt.resize fun _ => EndsAt.useVar fun v _ => EndsAt.resize fun _ =>
      ends_points cfg _ _ _ (fun z => Asserted cfg k z (ReadTo k z)) y fun _ y => ends_boxes cfg _ _ _ _ y fun _ y => ends_boxes cfg _ _ _ _ y fun _ y => ends_boxes cfg _ _ [] _ y fun _ y =>
        (?_ : EndsAt k _ y (∃ z, SkipsLists cfg [] y z ∧ Asserted cfg k z (ReadTo k z))))).iff ?_
  · refine EndsAt.iff (Q := Asserted cfg k y (ReadTo k y)) (EndsAt.assertGood ?_) ⟨fun h => ⟨y, rfl, h⟩, fun ⟨_, e, h⟩ => by cases e; exact h⟩
    exact EndsAt.pure _ y
  simp only [resized_length, List.append_nil]
  unfold EntitiesTextEnds
  simp only [List.replicate_add, List.flatten_append, List.append_assoc]
  constructor
  · rintro ⟨np, x1, h1, nc, x2, h2, ns, x3, h3, nv, y, h4, h⟩
    refine ⟨np, x1, nc, x2, ns, x3, nv, y, h1, h2, h3, h4, h.imp id fun ⟨hg, p, hp, h1, c, hc, h2, s, hs, h3, v, hv, h4, h⟩ => ⟨hg, p, hp, c, hc, s, hs, v, hv, h1, h2, h3, h4, h⟩⟩
  · rintro ⟨np, x1, nc, x2, ns, x3, nv, y, h1, h2, h3, h4, h⟩
    refine ⟨np, x1, h1, nc, x2, h2, ns, x3, h3, nv, y, h4, h.imp id fun ⟨hg, p, hp, c, hc, s, hs, v, hv, h1, h2, h3, h4, h⟩ => ⟨hg, p, hp, h1, c, hc, h2, s, hs, h3, v, hv, h4, h⟩⟩

/-! ## Physical names -/

/-- A quoted string whose closing quote is the last byte of the file. -/
def Closes (x : Place) : Prop := ∃ lead t s, x = .on (lead ++ (b! "\"" ++ (t ++ b! "\""))) ∧ Blank lead ∧ Spells t s

theorem inQuoted_closes {x : Place} {st : Stream} (old : Bytes) (h : Closes x) (hc : Cur x st) : ∃ v, inQuoted old st = .ok (v, gs []) := by
  obtain ⟨lead, t, s, rfl, hl, hs⟩ := h
  have e := sentry_on (c := 34) hc rfl hl (by decide)
  unfold inQuoted
  rw [e]
  refine ⟨s, ?_⟩
  have := quotedBody_spells hs []
  simp only [gs] at this ⊢
  show (match quotedBody (t ++ [34]) with | (t, s') => Outcome.ok (t, s')) = _
  rw [this]

theorem inQuoted_word {st : Stream} (old : Bytes) {lead w r' : Bytes} {c : UInt8} (hl : Blank lead) (hq : [c] ≠ b! "\"") (hw : ∀ d ∈ c :: w, isSpace d = false)
    (hr : ∀ d ∈ r'.head?, isSpace d = true) (hc : Cur (.on (lead ++ (c :: w ++ r'))) st) : inQuoted old st = .ok (c :: w, payload r') := by
  have hsp : isSpace c = false := hw c (by simp)
  have e := sentry_on (c := c) (t := w ++ r') hc rfl hl hsp
  have e2 : sentry (gs (c :: (w ++ r'))) = (true, gs (c :: (w ++ r'))) := sentry_gs (w := []) Ws.nil hsp
  have e3 : (c :: (w ++ r')).takeWhile (fun c => !isSpace c) = c :: w ∧ (c :: (w ++ r')).dropWhile (fun c => !isSpace c) = r' := by
    have := takeWhile_word (w := c :: w) (r := r') hw hr
    exact this
  unfold inQuoted
  rw [e]
  have h34 : c ≠ 34 := fun e => hq (by rw [e])
  show (match (c :: (w ++ r')) with | 34 :: r => (match quotedBody r with | (t, s') => Outcome.ok (t, s')) | _ => inString old (gs (c :: (w ++ r')))) = _
  split
  · rename_i h; injection h with h _; exact absurd h h34
  · unfold inString
    rw [e2]
    show Outcome.ok ((c :: (w ++ r')).takeWhile (fun c => !isSpace c), (⟨(c :: (w ++ r')).dropWhile (fun c => !isSpace c), ((c :: (w ++ r')).dropWhile (fun c => !isSpace c)).isEmpty, false⟩ : Stream)) = _
    rw [e3.1, e3.2]
    rfl

theorem Cur.good {x : Place} {st : Stream} (h : Cur x st) (hx : x.Good) : st.good = true := by
  obtain ⟨c, r, rfl⟩ := hx
  have h2 : st.eof = false := by
    cases he : st.eof with
    | false => rfl
    | true => exact absurd (h.2.2 he) (by simp)
  simp [Stream.good, h.2.1, h2]

theorem inQuoted_good {x y : Place} {st st' : Stream} {old v : Bytes} (h : TakesQuoted x y) (hc : Cur x st) (e : inQuoted old st = .ok (v, st')) :
    st'.good = true → y.Good ∨ Closes x := by
  intro hg
  have lost : ∀ {y}, inQuoted old st = .ok (v, st') → (∃ v' s', inQuoted old st = .ok (v', s') ∧ Cur y s') → y = .stuck ∨ y = .ended → False := by
    rintro y e ⟨v', s', e', hc'⟩ hy
    rw [e] at e'
    cases e'
    rcases hy with rfl | rfl <;> simp [Stream.good, hc'.1] at hg
  have hs := inQuoted_sound old h hc
  cases h with
  | @closed lead t s r' hl hsp =>
    cases r' with
    | nil => exact Or.inr ⟨lead, t, s, rfl, hl, hsp⟩
    | cons c r => exact Or.inl ⟨c, r, rfl⟩
  | unclosed hl hn => exact (lost e hs (Or.inr rfl)).elim
  | @word lead c w r' hl hq hw hr =>
    rw [inQuoted_word old hl hq hw hr hc] at e
    cases e
    cases r' with
    | nil => cases hg
    | cons c r => exact Or.inl ⟨c, r, rfl⟩
  | blank hb => exact (lost e hs (Or.inr rfl)).elim
  | stuck => exact (lost e hs (Or.inl rfl)).elim
  | ended => exact (lost e hs (Or.inr rfl)).elim

theorem group_head {x x1 x2 : Place} {st : Stream} (g : PhysicalGroup) (h1 : SkipsInt x x1) (h2 : SkipsInt x1 x2) (hc : Cur x st) :
    ∃ d t st', At x2 st' ∧ ∀ nm s, inQuoted g.name st' = .ok (nm, s) → loadPhysicalGroup g st = .ok (⟨d, t, nm⟩, s) := by
  obtain ⟨v1, h1⟩ := h1
  obtain ⟨v2, h2⟩ := h2
  obtain ⟨st1, e1, hs1⟩ := (inInt_yields g.dim).sound ⟨v1, h1, rfl⟩ hc
  obtain ⟨st2, e2, hs2⟩ := (inInt_yields g.tag).sound ⟨v2, h2, rfl⟩ hs1.cur
  refine ⟨v1.getD g.dim, v2.getD g.tag, st2, hs2, fun nm s e3 => ?_⟩
  unfold loadPhysicalGroup
  rw [Rd.bind_ok e1, Rd.bind_ok e2, Rd.bind_ok e3]
  rfl

theorem skipsGroup_total (x : Place) : ∃ z, SkipsGroup x z := by
  obtain ⟨x1, h1⟩ := int_total x
  obtain ⟨x2, h2⟩ := int_total x1
  obtain ⟨z, h3⟩ := takesQuoted_total x2
  exact ⟨z, x1, x2, h1, h2, h3⟩

/-- The groups are read, and reading has not failed or reached the end exactly if something follows or the last one is closed by the last byte. -/
theorem groups_read (l : List PhysicalGroup) {x z : Place} {st : Stream} (h : Many SkipsGroup l.length x z) (hc : Cur x st) :
    ∃ l' st', forEach loadPhysicalGroup l st = .ok (l', st') ∧ Cur z st' ∧ (l ≠ [] → st'.good = true → z.Good ∨ LastQuote l.length x) := by
  induction l generalizing x st with
  | nil => cases h; exact ⟨[], st, rfl, hc, fun h => absurd rfl h⟩
  | cons g l ih =>
    cases h with
    | next h1 h =>
      rename_i y
      obtain ⟨x1, x2, i1, i2, q⟩ := h1
      obtain ⟨d, t, s2, hs2, e⟩ := group_head g i1 i2 hc
      obtain ⟨nm, s3, e3, hc3⟩ := inQuoted_sound g.name q hs2.cur
      have hg := inQuoted_good q hs2.cur e3
      obtain ⟨l', st', e', hc', hl'⟩ := ih h hc3
      refine ⟨⟨d, t, nm⟩ :: l', st', ?_, hc', fun _ hgood => ?_⟩
      · unfold forEach
        rw [Rd.bind_ok (e nm s3 e3), Rd.bind_ok e']
        rfl
      · by_cases hl : l = []
        · subst hl
          cases e'
          cases h
          refine (hg hgood).imp id fun ⟨lead, t, s, hx, hb, hsp⟩ => ?_
          exact ⟨0, x, x1, x2, lead, t, s, rfl, .zero, i1, i2, hx, hb, hsp⟩
        · refine (hl' hl hgood).imp id fun ⟨m, y', x1', x2', lead, u, s, hm, hM, j1, j2, hx, hb, hsp⟩ => ?_
          exact ⟨m + 1, y', x1', x2', lead, u, s, by rw [List.length_cons, hm], .next ⟨x1, x2, i1, i2, q⟩ hM, j1, j2, hx, hb, hsp⟩

theorem groups_closed (l : List PhysicalGroup) {x : Place} {st : Stream} (h : LastQuote l.length x) (hc : Cur x st) : ∃ l', forEach loadPhysicalGroup l st = .ok (l', gs []) := by
  obtain ⟨m, y, x1, x2, lead, t, s, hm, hM, i1, i2, hx, hb, hsp⟩ := h
  induction hM generalizing l st with
  | zero =>
    match l, hm with
    | [g], _ =>
      obtain ⟨d, u, s2, hs2, e⟩ := group_head g i1 i2 hc
      obtain ⟨v, e2⟩ := inQuoted_closes g.name ⟨lead, t, s, hx, hb, hsp⟩ hs2.cur
      refine ⟨[⟨d, u, v⟩], ?_⟩
      unfold forEach
      rw [Rd.bind_ok (e v _ e2)]
      rfl
  | next h1 _ ih =>
    match l, hm with
    | g :: l, hm =>
      obtain ⟨y1, y2, j1, j2, q⟩ := h1
      obtain ⟨d, u, s2, hs2, e⟩ := group_head g j1 j2 hc
      obtain ⟨nm, s3, e3, hc3⟩ := inQuoted_sound g.name q hs2.cur
      obtain ⟨l', e'⟩ := ih l hc3 (by simpa using hm) i1
      refine ⟨⟨d, u, nm⟩ :: l', ?_⟩
      unfold forEach
      rw [Rd.bind_ok (e nm s3 e3), Rd.bind_ok e']
      rfl

theorem assertGood_cases (cfg : Cfg) (st : Stream) : (MshIO.assertGood cfg st = .abort ∧ cfg.asserts = true ∧ st.good = false) ∨
    (MshIO.assertGood cfg st = .ok ((), st) ∧ (cfg.asserts = true → st.good = true)) := by
  unfold MshIO.assertGood
  cases cfg.asserts <;> cases st.good <;> simp

theorem ends_names (cfg : Cfg) (gs : List PhysicalGroup) (x : Place) : EndsAt k (loadPhysicalGroups cfg gs) x (NamesEnd cfg k x) := by
  unfold loadPhysicalGroups
  refine (EndsAt.yields extractInt_yields fun _ y _ => EndsAt.useVar fun n _ => EndsAt.resize (Q := ∃ z, Many SkipsGroup (sizeOfInt n).toNat y z ∧
    ((k = .stops ∧ cfg.asserts = true ∧ ¬ z.Good ∧ ¬ LastQuote (sizeOfInt n).toNat y) ∨ (k = .sticks ∧ cfg.asserts = false ∧ z = .stuck))) fun hn => ?_).iff ?_
  · have hl := resized_length gs (sizeOfInt n).toNat ({} : PhysicalGroup)
    generalize gs.take (sizeOfInt n).toNat ++ List.replicate ((sizeOfInt n).toNat - gs.length) ({} : PhysicalGroup) = l at hl ⊢
    rw [← hl]
    intro st hs
    have key : ∀ z, Many SkipsGroup l.length y z → (k.Of ((forEach loadPhysicalGroup l >>= fun gs => MshIO.assertGood cfg >>= fun _ => (Pure.pure gs : Rd _)) st) ↔
        ((k = .stops ∧ cfg.asserts = true ∧ ¬ z.Good ∧ ¬ LastQuote l.length y) ∨ (k = .sticks ∧ cfg.asserts = false ∧ z = .stuck))) := by
      intro z hz
      obtain ⟨l', st', e, hc, hg⟩ := groups_read l hz hs.cur
      have good : st'.good = true ↔ z.Good ∨ LastQuote l.length y := by
        constructor
        · intro h
          by_cases hl : l = []
          · subst hl
            cases e
            cases hz
            exact Or.inl (hs.good.mp h)
          · exact hg hl h
        · rintro (h | h)
          · exact hc.good h
          · obtain ⟨_, e'⟩ := groups_closed l h hs.cur
            rw [e] at e'
            cases e'
            rfl
      rw [Rd.bind_ok e]
      rcases assertGood_cases cfg st' with ⟨h1, h2, h3⟩ | ⟨h1, h2⟩
      · rw [Rd.bind_def, h1]
        refine Ending.abort.trans ⟨fun h => Or.inl ⟨h, h2, fun hz => ?_, fun hl => ?_⟩, fun h => h.elim (fun h => h.1) fun h => by rw [h2] at h; cases h.2.1⟩
        · rw [good.mpr (Or.inl hz)] at h3; cases h3
        · rw [good.mpr (Or.inr hl)] at h3; cases h3
      · rw [Rd.bind_ok h1]
        show k.Of (.ok (l', st')) ↔ _
        rw [Ending.ok, at_stuck hc]
        constructor
        · rintro ⟨rfl, hz⟩
          refine Or.inr ⟨rfl, ?_, hz⟩
          rw [← Bool.not_eq_true]
          intro ha
          have := h2 ha
          subst hz
          simp [Stream.good, hc.1] at this
        · rintro (⟨-, h3, h4, h5⟩ | h)
          · exact absurd (good.mp (h2 h3)) (not_or.mpr ⟨h4, h5⟩)
          · exact ⟨h.1, h.2.2⟩
    constructor
    · intro h
      obtain ⟨z, hz⟩ := many_total skipsGroup_total l.length y
      exact ⟨z, hz, (key z hz).mp h⟩
    · rintro ⟨z, hz, h⟩
      exact (key z hz).mpr h
  · unfold NamesEnd
    have en : ∀ n : Int32, 0 ≤ n.toInt → (sizeOfInt n).toNat = n.toInt.toNat := by
      intro n hn
      have := toNat_sizeOfInt n
      split at this <;> omega
    constructor
    · rintro ⟨_, y, hy, n, rfl, hn, z, h⟩
      have := (sizeOfInt_fits n).mp hn
      rw [en n this.1] at h
      exact ⟨n, y, z, hy, this.1, this.2, h⟩
    · rintro ⟨n, y, z, hy, h0, hn, h⟩
      rw [← en n h0] at h
      exact ⟨_, y, hy, n, rfl, (sizeOfInt_fits n).mpr ⟨h0, hn⟩, z, h⟩

/-! ## Entries of data sections -/

theorem EndsAt.replicate {f : β → Rd β} {b : β} {R : Place → Place → Prop}
    (h : ∀ (K : β → Rd α) (Q : Place → Prop) (x : Place), (∀ b' y, EndsAt k (K b') y (Q y)) → EndsAt k (f b >>= K) x (∃ z, R x z ∧ Q z)) {K : List β → Rd α} {Q : Place → Prop}
    (hK : ∀ l y, EndsAt k (K l) y (Q y)) (n : Nat) (x : Place) : EndsAt k (MshIO.forEach f (List.replicate n b) >>= K) x (∃ z, Many R n x z ∧ Q z) := by
  induction n generalizing x K with
  | zero => exact (hK [] x).iff ⟨fun h => ⟨x, .zero, h⟩, fun ⟨_, h, h'⟩ => by cases h; exact h'⟩
  | succ n ih =>
    rw [List.replicate_succ]
    simp only [MshIO.forEach, Rd.bind_assoc]
    refine (h _ _ x fun b' y => ih (fun l y => ?_) y).iff ?_
    · exact hK (b' :: l) y
    · constructor
      · rintro ⟨y, h1, z, h2, h3⟩
        exact ⟨z, .next h1 h2, h3⟩
      · rintro ⟨z, h1, h3⟩
        cases h1 with
        | next h1 h2 => exact ⟨_, h1, z, h2, h3⟩

theorem ends_entryText (cfg : Cfg) {en : Bool} {N : Prop} (hN : N ↔ en = true) (f : Int32) (K : DataEntry → Rd α) (Q : Place → Prop) (x : Place) (hK : ∀ b' y, EndsAt k (K b') y (Q y)) :
    EndsAt k (loadDataEntryAscii cfg (sizeOfInt f) en {} >>= K) x (∃ z, SkipsEntry cfg N f x z ∧ Q z) := by
  cases en with
  | true =>
    have hN' : N := hN.mpr rfl
    simp only [loadDataEntryAscii, Rd.bind_assoc, if_true]
    refine (EndsAt.passes (inSize_passes _) fun _ y => EndsAt.yields (inInt_yields 0) fun npe z _ =>
      EndsAt.table (total := asSize f * asSize npe) inDoubleAt_fills rfl (by rw [UInt64.toNat_mul, asSize_eq, asSize_eq]) (by rw [asSize_eq, asSize_eq, Nat.mul_comm])
        fun _ y => hK _ y).iff ?_
    constructor
    · rintro ⟨y, h1, _, y', ⟨w, h2, rfl⟩, z, h3, h4, h5⟩
      exact ⟨z, Or.inr ⟨hN', y, w, y', h1, h2, h3, h4⟩, h5⟩
    · rintro ⟨z, ⟨h, -⟩ | ⟨-, y, w, y', h1, h2, h3, h4⟩, h5⟩
      · exact absurd hN' h
      · exact ⟨y, h1, _, y', ⟨w, h2, rfl⟩, z, h3, h4, h5⟩
  | false =>
    have hN' : ¬ N := fun h => by cases hN.mp h
    simp only [loadDataEntryAscii, Rd.bind_assoc, Bool.false_eq_true, if_false]
    refine (EndsAt.passes (inSize_passes _) fun _ y => EndsAt.resize fun _ => EndsAt.passes (forEach_many inDouble_passes real_total (resized_length ..)) fun _ y => hK _ y).iff ?_
    rw [← asSize_eq]
    constructor
    · rintro ⟨y, h1, h2, z, h3, h4⟩
      exact ⟨z, Or.inl ⟨hN', h2, y, h1, h3⟩, h4⟩
    · rintro ⟨z, ⟨-, h2, y, h1, h3⟩ | ⟨h, -⟩, h4⟩
      · exact ⟨y, h1, h2, z, h3, h4⟩
      · exact absurd h hN'

/-! ## Nodes of version 2.2 -/

end MshIO
