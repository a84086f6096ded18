import Verif.Proofs.TextUndefined

/-! # When reading sections of text files is undefined -/

namespace MshIO

variable {α β : Type}

theorem Rd.pure_bind (a : α) (f : α → Rd β) : (pure a : Rd α) >>= f = f a := rfl

theorem forEach_many {f : α → Rd α} {R : Place → Place → Prop} (h : ∀ a, Passes (f a) R) (hR : ∀ x, ∃ y, R x y) {l : List α} {n : Nat} (hl : l.length = n) :
    Passes (forEach f l) (Many R n) := hl ▸ forEach_passes h hR l

theorem int32_range (p : Int32) : (decide (0 ≤ p) && decide (p ≤ 3)) = true ↔ 0 ≤ p.toInt ∧ p.toInt ≤ 3 := by
  rw [Bool.and_eq_true, decide_eq_true_iff, decide_eq_true_iff, Int32.le_iff_toInt_le, Int32.le_iff_toInt_le]
  rfl

/-! ## Nodes of version 4.1 -/

theorem entries_width {p dim : Int32} (h : ¬ (p = 1 ∧ 2 ^ 31 ≤ dim.toInt + 3)) :
    ∃ e, entriesPerNode p dim = .ok e ∧ e.toNat = (if p = 1 then (3 + dim.toInt) % 2 ^ 64 else 3).toNat := by
  obtain ⟨e, he, h1⟩ := entries_toNat 1 p dim h
  refine ⟨e, he, ?_⟩
  rw [UInt64.one_mul] at h1
  rw [show (1 : UInt64).toNat = 1 from rfl, Nat.cast_one, one_mul] at h1
  split at h1
  · rename_i hp; rw [if_pos hp]; omega
  · rename_i hp; rw [if_neg hp]; omega

theorem UbAt.nodeData {cfg : Cfg} {p dim : Int32} {num : UInt64} {v : List Double} {K : List Double → Rd α} {x : Place} {P : Place → Prop} (h : ∀ v y, UbAt (K v) y (P y)) :
    UbAt (Rd.lift (entriesPerNode p dim) >>= fun e => MshIO.resize cfg v (num * e) Double.zero >>= fun data =>
        loopN (fun j data => loopN (fun k data => inDoubleAt (UInt64.ofNat j * e + UInt64.ofNat k) data) e.toNat 0 data) num.toNat 0 data >>= K) x
      (if p = 1 ∧ 2 ^ 31 ≤ dim.toInt + 3 then True
        else TableUndefined cfg TakesReal (num.toNat * (if p = 1 then (3 + dim.toInt) % 2 ^ 64 else 3).toNat) x P) := by
  by_cases hu : p = 1 ∧ 2 ^ 31 ≤ dim.toInt + 3
  · rw [if_pos hu]
    intro st _
    have : entriesPerNode p dim = .ub := by unfold entriesPerNode; rw [if_pos hu.1, if_pos hu.2]
    rw [this]
    exact ⟨fun _ => trivial, fun _ => rfl⟩
  · rw [if_neg hu]
    obtain ⟨e, he, hw⟩ := entries_width hu
    rw [← hw]
    exact UbAt.lift he (UbAt.table inDoubleAt_fills rfl (UInt64.toNat_mul num e) rfl h)

theorem ub_nodeBlock (cfg : Cfg) (b : NodeBlock) (K : NodeBlock → Rd α) (Q : Place → Prop) (x : Place) (hK : ∀ b' y, UbAt (K b') y (Q y)) :
    UbAt (loadNodeBlockAscii41 cfg b >>= K) x (∃ d x1 x2 p x3 v x4 x5, TakesInt x d x1 ∧ SkipsInt x1 x2 ∧ TakesInt x2 p x3 ∧ TakesSize x3 v x4 ∧
      (cfg.asserts = true → x4.Good) ∧ (v.getD b.numNodesInBlock).toNat ≤ cfg.maxCount ∧ Many SkipsSize (v.getD b.numNodesInBlock).toNat x4 x5 ∧
      (cfg.asserts = true → x5.Good ∧ 0 ≤ (p.getD b.parametric).toInt ∧ (p.getD b.parametric).toInt ≤ 3) ∧
      if p.getD b.parametric = 1 ∧ 2 ^ 31 ≤ (d.getD b.entityDim).toInt + 3 then True
      else TableUndefined cfg TakesReal ((v.getD b.numNodesInBlock).toNat * (if p.getD b.parametric = 1 then (3 + (d.getD b.entityDim).toInt) % 2 ^ 64 else 3).toNat) x5
        fun y => (cfg.asserts = true → y.Good) ∧ Q y) := by
  simp only [loadNodeBlockAscii41, Rd.bind_assoc]
  refine (UbAt.yields (inInt_yields b.entityDim) fun d x1 _ => UbAt.passes (inInt_passes b.entityTag) fun _ x2 => UbAt.yields (inInt_yields b.parametric) fun p x3 _ =>
    UbAt.yields (inSize_yields b.numNodesInBlock) fun num x4 _ => UbAt.assertGood (UbAt.resize fun _ => UbAt.passes (forEach_many inSize_passes size_total (resized_length ..))
      fun tags x5 => UbAt.assertGood (UbAt.assertC (int32_range p) (UbAt.nodeData fun v y => UbAt.assertGood (hK _ y))))).iff ?_
  constructor
  · rintro ⟨_, x1, ⟨d, hd, rfl⟩, x2, ht, _, x3, ⟨p, hp, rfl⟩, _, x4, ⟨v, hv, rfl⟩, h1, h2, x5, h3, h4, h5, h6⟩
    exact ⟨d, x1, x2, p, x3, v, x4, x5, hd, ht, hp, hv, h1, h2, h3, fun h => ⟨h4 h, h5 h⟩, h6⟩
  · rintro ⟨d, x1, x2, p, x3, v, x4, x5, hd, ht, hp, hv, h1, h2, h3, h4, h5⟩
    exact ⟨_, x1, ⟨d, hd, rfl⟩, x2, ht, _, x3, ⟨p, hp, rfl⟩, _, x4, ⟨v, hv, rfl⟩, h1, h2, x5, h3, fun h => (h4 h).1, fun h => (h4 h).2, h5⟩

theorem ub_nodeBlocks (cfg : Cfg) (l : List NodeBlock) (x : Place) : UbAt (forEach (loadNodeBlockAscii41 cfg) l) x (BlocksTextUndefined cfg l x) :=
  UbAt.forEach (fun b Q x => ∃ d x1 x2 p x3 v x4 x5, TakesInt x d x1 ∧ SkipsInt x1 x2 ∧ TakesInt x2 p x3 ∧ TakesSize x3 v x4 ∧
      (cfg.asserts = true → x4.Good) ∧ (v.getD b.numNodesInBlock).toNat ≤ cfg.maxCount ∧ Many SkipsSize (v.getD b.numNodesInBlock).toNat x4 x5 ∧
      (cfg.asserts = true → x5.Good ∧ 0 ≤ (p.getD b.parametric).toInt ∧ (p.getD b.parametric).toInt ≤ 3) ∧
      if p.getD b.parametric = 1 ∧ 2 ^ 31 ≤ (d.getD b.entityDim).toInt + 3 then True
      else TableUndefined cfg TakesReal ((v.getD b.numNodesInBlock).toNat * (if p.getD b.parametric = 1 then (3 + (d.getD b.entityDim).toInt) % 2 ^ 64 else 3).toNat) x5
        fun y => (cfg.asserts = true → y.Good) ∧ Q y)
    (ub_nodeBlock cfg) (BlocksTextUndefined cfg) (fun _ h => h) (fun _ _ _ => Iff.rfl) l x

theorem many_three {R : Place → Place → Prop} {x z : Place} : Many R 3 x z ↔ ∃ a b, R x a ∧ R a b ∧ R b z := by
  constructor
  · intro h
    cases h with | next h1 h => cases h with | next h2 h => cases h with | next h3 h => cases h; exact ⟨_, _, h1, h2, h3⟩
  · rintro ⟨a, b, h1, h2, h3⟩
    exact .next h1 (.next h2 (.next h3 .zero))

theorem ub_nodes41 (cfg : Cfg) (n : Nodes) (x : Place) : UbAt (loadNodesAscii41 cfg n) x (Nodes41TextUndefined cfg n x) := by
  unfold loadNodesAscii41
  refine (UbAt.yields (inSize_yields n.numEntityBlocks) fun v x1 _ => UbAt.passes (inSize_passes _) fun _ x2 => UbAt.passes (inSize_passes _) fun _ x3 =>
    UbAt.passes (inSize_passes _) fun _ y => UbAt.assertGood (UbAt.resize fun _ => (ub_nodeBlocks cfg _ y).last fun _ _ h => by cases h)).iff ?_
  unfold Nodes41TextUndefined
  simp only [many_three]
  constructor
  · rintro ⟨_, x1, ⟨v, hv, rfl⟩, x2, h2, x3, h3, y, h4, h5, h6, h7⟩
    exact ⟨v, x1, y, hv, ⟨x2, x3, h2, h3, h4⟩, h5, h6, h7⟩
  · rintro ⟨v, x1, y, hv, ⟨x2, x3, h2, h3, h4⟩, h5, h6, h7⟩
    exact ⟨_, x1, ⟨v, hv, rfl⟩, x2, h2, x3, h3, y, h4, h5, h6, h7⟩

/-! ## Elements of version 4.1 -/

theorem ub_elementBlock (cfg : Cfg) (b : ElementBlock) (K : ElementBlock → Rd α) (Q : Place → Prop) (x : Place) (hK : ∀ b' y, UbAt (K b') y (Q y)) :
    UbAt (loadElementBlockAscii41 cfg b >>= K) x (∃ x1 x2 t x3 v y, SkipsInt x x1 ∧ SkipsInt x1 x2 ∧ TakesInt x2 t x3 ∧ TakesSize x3 v y ∧ ∃ k ∈ mshNodes (t.getD b.elementType),
      TableUndefined cfg SkipsSize ((v.getD b.numElementsInBlock).toNat * (k + 1)) y fun y => (cfg.asserts = true → y.Good) ∧ Q y) := by
  simp only [loadElementBlockAscii41, Rd.bind_assoc]
  refine (UbAt.passes (inInt_passes b.entityDim) fun _ x1 => UbAt.passes (inInt_passes b.entityTag) fun _ x2 => UbAt.yields (inInt_yields b.elementType) fun t x3 _ =>
    UbAt.yields (inSize_yields b.numElementsInBlock) fun num y _ => (?_ : UbAt _ y (∃ k ∈ mshNodes t, TableUndefined cfg SkipsSize (num.toNat * (k + 1)) y
      fun y => (cfg.asserts = true → y.Good) ∧ Q y))).iff ?_
  · cases hk : mshNodes t with
    | none =>
      intro st _
      rw [mshNodes_none hk]
      exact ⟨(fun h => by cases h), fun ⟨k, h, _⟩ => by cases h⟩
    | some k =>
      obtain ⟨hn, h56, -⟩ := nodesPerElement_of_mshNodes hk
      have hN : (UInt64.ofNat k).toNat = k := by rw [UInt64.toNat_ofNat']; omega
      have hN1 : (UInt64.ofNat k + 1).toNat = k + 1 := by rw [UInt64.toNat_add, hN]; show (k + 1) % 2 ^ 64 = _; omega
      refine (UbAt.lift hn (UbAt.table (w := (UInt64.ofNat k).toNat + 1) (total := num.toNat * (k + 1)) inSizeAt_fills (by rw [hN1, hN]) (by rw [UInt64.toNat_mul, hN1]) (by rw [hN])
        fun v y => UbAt.assertGood (hK _ y))).iff ?_
      exact ⟨fun h => ⟨k, rfl, h⟩, fun ⟨_, e, h⟩ => by cases e; exact h⟩
  · constructor
    · rintro ⟨x1, h1, x2, h2, _, x3, ⟨t, h3, rfl⟩, _, y, ⟨v, h4, rfl⟩, h5⟩
      exact ⟨x1, x2, t, x3, v, y, h1, h2, h3, h4, h5⟩
    · rintro ⟨x1, x2, t, x3, v, y, h1, h2, h3, h4, h5⟩
      exact ⟨x1, h1, x2, h2, _, x3, ⟨t, h3, rfl⟩, _, y, ⟨v, h4, rfl⟩, h5⟩

theorem ub_elementBlocks (cfg : Cfg) (l : List ElementBlock) (x : Place) : UbAt (forEach (loadElementBlockAscii41 cfg) l) x (ElementBlocksTextUndefined cfg l x) :=
  UbAt.forEach (fun b Q x => ∃ x1 x2 t x3 v y, SkipsInt x x1 ∧ SkipsInt x1 x2 ∧ TakesInt x2 t x3 ∧ TakesSize x3 v y ∧ ∃ k ∈ mshNodes (t.getD b.elementType),
      TableUndefined cfg SkipsSize ((v.getD b.numElementsInBlock).toNat * (k + 1)) y fun y => (cfg.asserts = true → y.Good) ∧ Q y)
    (ub_elementBlock cfg) (ElementBlocksTextUndefined cfg) (fun _ h => h) (fun _ _ _ => Iff.rfl) l x

theorem ub_elements41 (cfg : Cfg) (e : Elements) (x : Place) : UbAt (loadElementsAscii41 cfg e) x (Elements41TextUndefined cfg e x) := by
  unfold loadElementsAscii41
  refine (UbAt.yields (inSize_yields e.numEntityBlocks) fun v x1 _ => UbAt.passes (inSize_passes _) fun _ x2 => UbAt.passes (inSize_passes _) fun _ x3 =>
    UbAt.passes (inSize_passes _) fun _ y => UbAt.assertGood (UbAt.resize fun _ => (ub_elementBlocks cfg _ y).last fun _ _ h => by cases h)).iff ?_
  unfold Elements41TextUndefined
  simp only [many_three]
  constructor
  · rintro ⟨_, x1, ⟨v, hv, rfl⟩, x2, h2, x3, h3, y, h4, h5, h6, h7⟩
    exact ⟨v, x1, y, hv, ⟨x2, x3, h2, h3, h4⟩, h5, h6, h7⟩
  · rintro ⟨v, x1, y, hv, ⟨x2, x3, h2, h3, h4⟩, h5, h6, h7⟩
    exact ⟨_, x1, ⟨v, hv, rfl⟩, x2, h2, x3, h3, y, h4, h5, h6, h7⟩

/-! ## Entities -/

theorem UbAt.counter {cfg : Cfg} {v : List β} {d : β} {K : List β → Rd α} {x : Place} {P : Nat → Place → Prop}
    (h : ∀ n y, n ≤ cfg.maxCount → UbAt (K (v.take n ++ List.replicate (n - v.length) d)) y (P n y)) :
    UbAt (extractSize >>= fun a => MshIO.useVar a >>= fun n => MshIO.resize cfg v n d >>= K) x (CounterUndefined cfg x P) :=
  UbAt.yields extractSize_yields fun _ y _ => UbAt.useVar fun n _ => UbAt.resize fun hn => h n.toNat y hn

theorem ub_intList (cfg : Cfg) (v : List Int32) (K : List Int32 → Rd α) (Q : Place → Prop) (x : Place) (hK : ∀ l y, UbAt (K l) y (Q y)) :
    UbAt (loadIntListAscii cfg v >>= K) x (CounterUndefined cfg x fun n y => ∃ z, Many SkipsInt n y z ∧ Q z) := by
  simp only [loadIntListAscii, Rd.bind_assoc]
  exact UbAt.counter fun n y _ => UbAt.passes (forEach_many inInt_passes int_total (resized_length ..)) fun l z => hK l z

theorem ub_points (cfg : Cfg) (l : List PointEntity) (K : List PointEntity → Rd α) (more : List (Place → Place → Prop)) (x : Place)
    (hK : ∀ l y, UbAt (K l) y (ListsTextUndefined cfg more y)) :
    UbAt (forEach (loadPointAscii cfg) l >>= K) x (ListsTextUndefined cfg (List.replicate l.length (SkipsHead 3) ++ more) x) := by
  induction l generalizing x K with
  | nil => exact hK [] x
  | cons p l ih =>
    simp only [forEach, loadPointAscii, Rd.bind_assoc]
    refine (UbAt.passes (inInt_passes _) fun _ x1 => UbAt.passes (inDouble_passes _) fun _ x2 => UbAt.passes (inDouble_passes _) fun _ x3 => UbAt.passes (inDouble_passes _) fun _ x4 =>
      ub_intList cfg _ _ _ x4 fun _ y => ih _ y fun l y => hK _ y).iff ?_
    rw [List.length_cons, List.replicate_succ, List.cons_append]
    rw [ListsTextUndefined]
    unfold SkipsHead
    simp only [many_three]
    constructor
    · rintro ⟨x1, h1, x2, h2, x3, h3, x4, h4, h⟩
      exact ⟨x4, ⟨x1, h1, x2, x3, h2, h3, h4⟩, h⟩
    · rintro ⟨x4, ⟨x1, h1, x2, x3, h2, h3, h4⟩, h⟩
      exact ⟨x1, h1, x2, h2, x3, h3, x4, h4, h⟩

theorem ub_boxes (cfg : Cfg) (l : List BoxEntity) (K : List BoxEntity → Rd α) (more : List (Place → Place → Prop)) (x : Place)
    (hK : ∀ l y, UbAt (K l) y (ListsTextUndefined cfg more y)) :
    UbAt (forEach (loadBoxAscii cfg) l >>= K) x (ListsTextUndefined cfg ((List.replicate l.length [SkipsHead 6, Eq]).flatten ++ more) x) := by
  induction l generalizing x K with
  | nil => exact hK [] x
  | cons p l ih =>
    simp only [forEach, loadBoxAscii, Rd.bind_assoc]
    refine (UbAt.passes (inInt_passes _) fun _ x1 => UbAt.passes (inDouble_passes _) fun _ x2 => UbAt.passes (inDouble_passes _) fun _ x3 => UbAt.passes (inDouble_passes _) fun _ x4 =>
      UbAt.passes (inDouble_passes _) fun _ x5 => UbAt.passes (inDouble_passes _) fun _ x6 => UbAt.passes (inDouble_passes _) fun _ x7 =>
      ub_intList cfg _ _ _ x7 fun _ y => ub_intList cfg _ _ _ y fun _ y => ih _ y fun l y => hK _ y).iff ?_
    rw [List.length_cons, List.replicate_succ, List.flatten_cons, List.append_assoc]
    simp only [List.cons_append, List.nil_append]
    rw [ListsTextUndefined]
    unfold SkipsHead
    simp only [show (6 : Nat) = 3 + 3 from rfl, many_add, many_three]
    constructor
    · rintro ⟨x1, h1, x2, h2, x3, h3, x4, h4, x5, h5, x6, h6, x7, h7, v, y, hv, h⟩
      exact ⟨x7, ⟨x1, h1, x4, ⟨x2, x3, h2, h3, h4⟩, x5, x6, h5, h6, h7⟩, v, y, hv, fun n hn => ⟨(h n hn).1, by
        obtain ⟨z, h8, h9⟩ := (h n hn).2; exact ⟨z, h8, z, rfl, h9⟩⟩⟩
    · rintro ⟨x7, ⟨x1, h1, x4, ⟨x2, x3, h2, h3, h4⟩, x5, x6, h5, h6, h7⟩, v, y, hv, h⟩
      exact ⟨x1, h1, x2, h2, x3, h3, x4, h4, x5, h5, x6, h6, x7, h7, v, y, hv, fun n hn => ⟨(h n hn).1, by
        obtain ⟨z, h8, _, rfl, h9⟩ := (h n hn).2; exact ⟨z, h8, h9⟩⟩⟩

theorem ub_entities41 (cfg : Cfg) (e : Entities) (x : Place) : UbAt (loadEntitiesAscii41 cfg e) x (EntitiesTextUndefined cfg x) := by
  unfold loadEntitiesAscii41
  refine (UbAt.yields extractSize_yields fun np x1 _ => UbAt.yields extractSize_yields fun nc x2 _ => UbAt.yields extractSize_yields fun ns x3 _ =>
    UbAt.yields extractSize_yields fun nv y _ => UbAt.assertGood (UbAt.useVar fun p _ => UbAt.resize fun _ => UbAt.useVar fun c _ => UbAt.resize fun _ =>
      UbAt.useVar fun s _ => UbAt.resize fun _ => UbAt.useVar fun v _ => UbAt.resize fun _ =>
      ub_points cfg _ _ _ y fun _ y => ub_boxes cfg _ _ _ y fun _ y => ub_boxes cfg _ _ _ y fun _ y => ub_boxes cfg _ _ [] y fun _ y => ?_)).iff ?_
  · refine UbAt.never fun st h => ?_
    rw [ub_bind (fun _ _ h => by cases h)] at h
    exact assertGood_ne_ub cfg st h
  · simp only [resized_length, List.append_nil]
    unfold EntitiesTextUndefined
    simp only [List.replicate_add, List.flatten_append, List.append_assoc]
    constructor
    · rintro ⟨np, x1, h1, nc, x2, h2, ns, x3, h3, nv, y, h4, h⟩
      exact ⟨np, x1, nc, x2, ns, x3, nv, y, h1, h2, h3, h4, h⟩
    · rintro ⟨np, x1, nc, x2, ns, x3, nv, y, h1, h2, h3, h4, h⟩
      exact ⟨np, x1, h1, nc, x2, h2, ns, x3, h3, nv, y, h4, h⟩

/-! ## Elements of version 2.2 -/

theorem UbAt.safe {m : Rd α} {Q : α → Prop} (h : ∀ F : Bytes, Safe ⟨F, false⟩ m Q) (x : Place) : UbAt m x False :=
  UbAt.never fun st => (h st.rem st ⟨List.suffix_refl _, (fun h => by cases h)⟩).1

theorem takesInt_none {x y : Place} (h : TakesInt x none y) : y = .stuck ∨ y = .ended := by
  cases h
  · exact Or.inr rfl
  · exact Or.inl rfl
  · exact Or.inr rfl

theorem takesInt_some {x y z : Place} {v : Option Int32} {w : Int32} (h : TakesInt x v y) (h' : TakesInt y (some w) z) : ∃ u, v = some u := by
  cases v with
  | some u => exact ⟨u, rfl⟩
  | none =>
    rcases takesInt_none h with rfl | rfl <;> cases h'

theorem inIntVar_none_yields : Yields (inIntVar none) TakesInt where
  sound := by
    intro x v y st hr hc
    obtain ⟨st', e, hs⟩ := extractInt_yields.sound hr hc
    refine ⟨st', ?_, hs⟩
    unfold inIntVar
    rw [Rd.bind_ok e]
    cases v <;> rfl
  total := extractInt_yields.total

theorem ub_elements22 (cfg : Cfg) (e : Elements) (ents : Entities) (x : Place) : UbAt (loadElementsAscii22 cfg e ents) x (Elements22TextUndefined x) := by
  have fin : ∀ (F : Bytes) (num : UInt64) (st : Ascii22), st.maps.length = 4 → Safe ⟨F, false⟩ (do
      let ents ← Rd.lift (createAllEntities cfg st.maps ents)
      return ({
        numEntityBlocks := e.numEntityBlocks + num
        numElements := e.numElements + num
        minElementTag := st.lo
        maxElementTag := st.hi
        entityBlocks := st.blocks }, ents) : Rd (Elements × Entities)) fun _ => True := by
    intro F num st hst
    exact Safe.bind (Safe.lift (createAllEntities_safe cfg hst ents).1 fun _ _ => trivial) fun _ _ => Safe.pure trivial
  unfold loadElementsAscii22
  show UbAt _ x (∃ v y, TakesSize x v y ∧ ∀ n ∈ v, n ≠ 0 ∧ ∃ z, Many SkipsInt 2 y z ∧ ∃ z', TakesInt z none z')
  refine UbAt.yields (Q := fun v y => ∀ n ∈ v, n ≠ 0 ∧ ∃ z, Many SkipsInt 2 y z ∧ ∃ z', TakesInt z none z') extractSize_yields fun v y _ =>
    UbAt.useVar (Q := fun n => n ≠ 0 ∧ ∃ z, Many SkipsInt 2 y z ∧ ∃ z', TakesInt z none z') fun num _ => ?_
  cases hk : num.toNat with
  | zero =>
    have h0 : num = 0 := UInt64.toNat_inj.mp (by rw [hk]; rfl)
    refine UbAt.iff (Q := False) ?_ ⟨fun h => h.elim, fun h => absurd h0 h.1⟩
    exact UbAt.safe (fun F => fin F num { lo := e.minElementTag, hi := e.maxElementTag, blocks := e.entityBlocks } rfl) y
  | succ k =>
    have h0 : num ≠ 0 := by rintro rfl; cases hk
    unfold loopN
    rw [Rd.bind_assoc, loadElementAscii22_eq]
    simp only [Rd.bind_assoc]
    refine (UbAt.yields inIntVar_none_yields fun en x1 h1 => UbAt.yields inIntVar_none_yields fun et x2 h2 => UbAt.yields inIntVar_none_yields fun nt x3 h3 =>
      (?_ : UbAt _ x3 (nt = none))).iff ?_
    · cases nt with
      | none => exact fun st _ => ⟨fun _ => rfl, fun _ => rfl⟩
      | some nt =>
        obtain ⟨et, rfl⟩ := takesInt_some h2 h3
        obtain ⟨en, rfl⟩ := takesInt_some h1 h2
        refine (UbAt.safe (Q := fun _ => True) (fun F => ?_) x3).iff ⟨fun h => h.elim, fun h => by cases h⟩
        exact Safe.bind (safe_elementTail22 cfg rfl en et nt) fun st hst => Safe.bind (Safe.loopN k 1 st hst fun j st _ _ hst => safe_element22 cfg hst)
          fun st hst => fin F num st hst.2.2.2
    · constructor
      · rintro ⟨en, x1, h1, et, x2, h2, nt, x3, h3, rfl⟩
        exact ⟨h0, x2, .next ⟨en, h1⟩ (.next ⟨et, h2⟩ .zero), x3, h3⟩
      · rintro ⟨-, z, hm, z', hz⟩
        cases hm with
        | next h1 hm => cases hm with
          | next h2 hm =>
            cases hm
            obtain ⟨en, h1⟩ := h1
            obtain ⟨et, h2⟩ := h2
            exact ⟨en, _, h1, et, _, h2, none, z', hz, rfl⟩

end MshIO
