import Verif.Proofs.EndingsNodes
import Verif.Proofs.EndingsData
import Verif.Proofs.Rejected
import Verif.Spec.Exhausted

/-! # When there is not enough memory for a section in text -/

namespace MshIO

variable {α β : Type}

theorem ThrowsAt.resizes {cfg : Cfg} {v : List β} {n : UInt64} {d : β} {f : List β → Rd α} {x : Place} {Q : Prop}
    (h : n.toNat ≤ cfg.maxCount → ThrowsAt .alloc (f (v.take n.toNat ++ List.replicate (n.toNat - v.length) d)) x Q) :
    ThrowsAt .alloc (MshIO.resize cfg v n d >>= f) x (cfg.maxCount < n.toNat ∨ Q) := by
  intro st hs
  by_cases hn : n.toNat ≤ cfg.maxCount
  · have : MshIO.resize cfg v n d st = .ok (v.take n.toNat ++ List.replicate (n.toNat - v.length) d, st) := by unfold MshIO.resize vecResize; rw [if_pos hn]; rfl
    rw [Rd.bind_ok this, h hn st hs]
    exact ⟨Or.inr, fun h => h.resolve_left (by omega)⟩
  · have : MshIO.resize cfg v n d st = .throw .alloc := by unfold MshIO.resize vecResize; rw [if_neg hn]; rfl
    rw [Rd.bind_def, this]
    exact ⟨fun _ => Or.inl (by omega), fun _ => rfl⟩

theorem ThrowsAt.pushes {cfg : Cfg} {v : List β} {b : β} {f : List β → Rd α} {x : Place} {Q : Prop} (h : v.length < cfg.maxCount → ThrowsAt .alloc (f (v ++ [b])) x Q) :
    ThrowsAt .alloc (MshIO.pushBack cfg v b >>= f) x (cfg.maxCount ≤ v.length ∨ Q) := by
  intro st hs
  by_cases hv : v.length < cfg.maxCount
  · rw [Rd.bind_ok (pushBack_ok hv b st), h hv st hs]
    exact ⟨Or.inr, fun h => h.resolve_left (by omega)⟩
  · rw [Rd.bind_def, pushBack_throw hv b st]
    exact ⟨fun _ => Or.inl (by omega), fun _ => rfl⟩

theorem ThrowsAt.counts {cfg : Cfg} {v : List β} {d : β} {K : List β → Rd α} {x : Place} {P : Nat → Place → Prop}
    (h : ∀ n y, n ≤ cfg.maxCount → ThrowsAt .alloc (K (v.take n ++ List.replicate (n - v.length) d)) y (P n y)) :
    ThrowsAt .alloc (extractSize >>= fun a => MshIO.useVar a >>= fun n => MshIO.resize cfg v n d >>= K) x (CounterExhausts cfg x P) := by
  refine (ThrowsAt.yields extractSize_yields fun _ y _ => ThrowsAt.useVar fun n _ => ThrowsAt.resizes fun hn => h n.toNat y hn).iff ?_
  constructor
  · rintro ⟨v, y, hv, n, rfl, h⟩
    exact ⟨n, y, hv, h⟩
  · rintro ⟨n, y, hv, h⟩
    exact ⟨some n, y, hv, n, rfl, h⟩

theorem ThrowsAt.assertC {ex : Exc} {cfg : Cfg} {c : Bool} {P : Prop} (hP : c = true ↔ P) {f : Unit → Rd α} {x : Place} {Q : Prop} (h : ThrowsAt ex (f ()) x Q) :
    ThrowsAt ex (MshIO.assertC cfg c >>= f) x ((cfg.asserts = true → P) ∧ Q) := by
  intro st hs
  by_cases hc : cfg.asserts = true → P
  · have : MshIO.assertC cfg c st = .ok ((), st) := by
      unfold MshIO.assertC
      rw [if_neg]
      intro hh
      simp only [Bool.and_eq_true, Bool.not_eq_true'] at hh
      rw [hP.mpr (hc hh.1)] at hh
      cases hh.2
    rw [Rd.bind_ok this, h st hs]
    exact ⟨fun h => ⟨hc, h⟩, fun h => h.2⟩
  · rw [Classical.not_imp] at hc
    have : MshIO.assertC cfg c st = .abort := by
      unfold MshIO.assertC
      rw [if_pos]
      simp only [Bool.and_eq_true, Bool.not_eq_true']
      refine ⟨hc.1, ?_⟩
      rw [← Bool.not_eq_true, hP]
      exact hc.2
    rw [Rd.bind_def, this]
    exact ⟨(fun h => by cases h), fun h => absurd (h.1 hc.1) hc.2⟩

theorem ThrowsAt.fits {τ : Type} {f : UInt64 → List τ → Rd (List τ)} {R : Place → Place → Prop} {cfg : Cfg} (hf : Fills f R) {e m : UInt64} {w n total : Nat}
    (hw : w = e.toNat) (hm : m.toNat = total % 2 ^ 64) (ht : total = n * w) {v : List τ} {d : τ} {K : List τ → Rd α} {x : Place} {P : Place → Prop}
    (h : ∀ v y, ThrowsAt .alloc (K v) y (P y)) :
    ThrowsAt .alloc (MshIO.resize cfg v m d >>= fun v => loopN (fun j v => loopN (fun k v => f (UInt64.ofNat j * e + UInt64.ofNat k) v) w 0 v) n 0 v >>= K) x
      (TableExhausts cfg R total x P) := by
  have hx := cfg.maxCount_lt
  refine (ThrowsAt.resizes (Q := total ≤ cfg.maxCount ∧ ∃ y, Many R total x y ∧ P y) fun hn => ?_).iff (by unfold TableExhausts; rw [hm])
  have hl := resized_length v m.toNat d
  generalize v.take m.toNat ++ List.replicate (m.toNat - v.length) d = u at hl ⊢
  intro st hs
  by_cases hb : 2 ^ 64 ≤ total
  · rw [Rd.bind_def, table_ub hf hw n (j := 0) (v := u) (by omega) (by have := Nat.mod_lt total (y := 2 ^ 64) (by decide); omega) (by omega) hs]
    exact ⟨(fun h => by cases h), fun h => absurd h.1 (by omega)⟩
  · rw [Nat.mod_eq_of_lt (by omega)] at hm
    constructor
    · intro hu
      obtain ⟨y, hr⟩ := many_total hf.total total x
      obtain ⟨v1, st1, e1, l1, hs1⟩ := table_ok hf hw n (j := 0) (v := u) (by omega) (by omega) (ht ▸ hr) hs
      rw [Rd.bind_ok e1] at hu
      exact ⟨by omega, y, hr, (h v1 y st1 hs1).mp hu⟩
    · rintro ⟨-, y, hr, hp⟩
      obtain ⟨v1, st1, e1, l1, hs1⟩ := table_ok hf hw n (j := 0) (v := u) (by omega) (by omega) (ht ▸ hr) hs
      rw [Rd.bind_ok e1]
      exact (h v1 y st1 hs1).mpr hp

/-! ## Elements of version 4.1 -/

theorem exhausts_elementBlock (cfg : Cfg) (b : ElementBlock) (K : ElementBlock → Rd α) (Q : Place → Prop) (x : Place) (hK : ∀ b' y, ThrowsAt .alloc (K b') y (Q y)) :
    ThrowsAt .alloc (loadElementBlockAscii41 cfg b >>= K) x (∃ x1 x2 t x3 v y, SkipsInt x x1 ∧ SkipsInt x1 x2 ∧ TakesInt x2 t x3 ∧ TakesSize x3 v y ∧
      ∃ k ∈ mshNodes (t.getD b.elementType), TableExhausts cfg SkipsSize ((v.getD b.numElementsInBlock).toNat * (k + 1)) y fun z => (cfg.asserts = true → z.Good) ∧ Q z) := by
  simp only [loadElementBlockAscii41, Rd.bind_assoc]
  refine (ThrowsAt.passes (inInt_passes b.entityDim) fun _ x1 => ThrowsAt.passes (inInt_passes b.entityTag) fun _ x2 => ThrowsAt.yields (inInt_yields b.elementType) fun t x3 _ =>
    ThrowsAt.yields (inSize_yields b.numElementsInBlock) fun num y _ => (?_ : ThrowsAt _ _ y (∃ k ∈ mshNodes t, TableExhausts cfg SkipsSize (num.toNat * (k + 1)) y
      fun z => (cfg.asserts = true → z.Good) ∧ Q z))).iff ?_
  · cases hk : mshNodes t with
    | none =>
      intro st _
      rw [mshNodes_none hk]
      exact ⟨(fun h => by cases h), fun ⟨_, h, _⟩ => by cases h⟩
    | some k =>
      obtain ⟨hn, h56, -⟩ := nodesPerElement_of_mshNodes hk
      have hN : (UInt64.ofNat k).toNat = k := by rw [UInt64.toNat_ofNat']; omega
      have hN1 : (UInt64.ofNat k + 1).toNat = k + 1 := by rw [UInt64.toNat_add, hN]; show (k + 1) % 2 ^ 64 = _; omega
      refine (ThrowsAt.lift hn (ThrowsAt.fits (w := (UInt64.ofNat k).toNat + 1) (total := num.toNat * (k + 1)) inSizeAt_fills (by rw [hN1, hN]) (by rw [UInt64.toNat_mul, hN1])
        (by rw [hN]) fun v y => ThrowsAt.assertGood (hK _ y))).iff ?_
      exact ⟨fun h => ⟨k, rfl, h⟩, fun ⟨_, e, h⟩ => by cases e; exact h⟩
  · constructor
    · rintro ⟨x1, h1, x2, h2, _, x3, ⟨t, h3, rfl⟩, _, y, ⟨v, h4, rfl⟩, h5⟩
      exact ⟨x1, x2, t, x3, v, y, h1, h2, h3, h4, h5⟩
    · rintro ⟨x1, x2, t, x3, v, y, h1, h2, h3, h4, h5⟩
      exact ⟨x1, h1, x2, h2, _, x3, ⟨t, h3, rfl⟩, _, y, ⟨v, h4, rfl⟩, h5⟩

theorem exhausts_elementBlocks (cfg : Cfg) (l : List ElementBlock) (x : Place) : ThrowsAt .alloc (forEach (loadElementBlockAscii41 cfg) l) x (ElementBlocksTextExhaust cfg l x) :=
  ThrowsAt.forEach (fun b Q x => ∃ x1 x2 t x3 v y, SkipsInt x x1 ∧ SkipsInt x1 x2 ∧ TakesInt x2 t x3 ∧ TakesSize x3 v y ∧
      ∃ k ∈ mshNodes (t.getD b.elementType), TableExhausts cfg SkipsSize ((v.getD b.numElementsInBlock).toNat * (k + 1)) y fun z => (cfg.asserts = true → z.Good) ∧ Q z)
    (exhausts_elementBlock cfg) (ElementBlocksTextExhaust cfg) (fun _ h => h) (fun _ _ _ => Iff.rfl) l x

theorem exhausts_elements41 (cfg : Cfg) (e : Elements) (x : Place) : ThrowsAt .alloc (loadElementsAscii41 cfg e) x (Elements41TextExhaust cfg e x) := by
  unfold loadElementsAscii41
  refine (ThrowsAt.yields (inSize_yields e.numEntityBlocks) fun v x1 _ => ThrowsAt.passes (inSize_passes _) fun _ x2 => ThrowsAt.passes (inSize_passes _) fun _ x3 =>
    ThrowsAt.passes (inSize_passes _) fun _ y => ThrowsAt.assertGood (ThrowsAt.resizes fun _ => (exhausts_elementBlocks cfg _ y).last fun _ _ h => by cases h)).iff ?_
  unfold Elements41TextExhaust
  simp only [many_three]
  constructor
  · rintro ⟨_, x1, ⟨v, hv, rfl⟩, x2, h2, x3, h3, y, h4, h5, h6⟩
    exact ⟨v, x1, y, hv, ⟨x2, x3, h2, h3, h4⟩, h5, h6⟩
  · rintro ⟨v, x1, y, hv, ⟨x2, x3, h2, h3, h4⟩, h5, h6⟩
    exact ⟨_, x1, ⟨v, hv, rfl⟩, x2, h2, x3, h3, y, h4, h5, h6⟩

/-! ## Nodes of version 4.1 -/

theorem ThrowsAt.nodeData {cfg : Cfg} {p dim : Int32} {num : UInt64} {v : List Double} {K : List Double → Rd α} {x : Place} {P : Place → Prop} (h : ∀ v y, ThrowsAt .alloc (K v) y (P y)) :
    ThrowsAt .alloc (Rd.lift (entriesPerNode p dim) >>= fun e => MshIO.resize cfg v (num * e) Double.zero >>= fun data =>
        loopN (fun j data => loopN (fun k data => inDoubleAt (UInt64.ofNat j * e + UInt64.ofNat k) data) e.toNat 0 data) num.toNat 0 data >>= K) x
      (¬ (p = 1 ∧ 2 ^ 31 ≤ dim.toInt + 3) ∧ TableExhausts cfg TakesReal (num.toNat * (if p = 1 then (3 + dim.toInt) % 2 ^ 64 else 3).toNat) x P) := by
  by_cases hu : p = 1 ∧ 2 ^ 31 ≤ dim.toInt + 3
  · intro st _
    have : entriesPerNode p dim = .ub := by unfold entriesPerNode; rw [if_pos hu.1, if_pos hu.2]
    rw [this]
    exact ⟨(fun h => by cases h), fun h => absurd hu h.1⟩
  · obtain ⟨e, he, hw⟩ := entries_width hu
    refine (ThrowsAt.lift he (ThrowsAt.fits inDoubleAt_fills rfl (UInt64.toNat_mul num e) rfl h)).iff ?_
    rw [← hw]
    exact ⟨fun h => ⟨hu, h⟩, fun h => h.2⟩

/-- One block, and what comes after it. -/
def BlockTextExhausts (cfg : Cfg) (b : NodeBlock) (Q : Place → Prop) (x : Place) : Prop :=
  ∃ d x1 x2 p x3 v x4, TakesInt x d x1 ∧ SkipsInt x1 x2 ∧ TakesInt x2 p x3 ∧ TakesSize x3 v x4 ∧ (cfg.asserts = true → x4.Good) ∧
      (cfg.maxCount < (v.getD b.numNodesInBlock).toNat ∨ ∃ x5, Many SkipsSize (v.getD b.numNodesInBlock).toNat x4 x5 ∧ (cfg.asserts = true → x5.Good) ∧
        (cfg.asserts = true → 0 ≤ (p.getD b.parametric).toInt ∧ (p.getD b.parametric).toInt ≤ 3) ∧ ¬ (p.getD b.parametric = 1 ∧ 2 ^ 31 ≤ (d.getD b.entityDim).toInt + 3) ∧
        TableExhausts cfg TakesReal ((v.getD b.numNodesInBlock).toNat * (if p.getD b.parametric = 1 then (3 + (d.getD b.entityDim).toInt) % 2 ^ 64 else 3).toNat) x5
          fun y => (cfg.asserts = true → y.Good) ∧ Q y)

theorem exhausts_nodeBlock (cfg : Cfg) (b : NodeBlock) (K : NodeBlock → Rd α) (Q : Place → Prop) (x : Place) (hK : ∀ b' y, ThrowsAt .alloc (K b') y (Q y)) :
    ThrowsAt .alloc (loadNodeBlockAscii41 cfg b >>= K) x (BlockTextExhausts cfg b Q x) := by
  simp only [loadNodeBlockAscii41, Rd.bind_assoc]
  refine (ThrowsAt.yields (inInt_yields b.entityDim) fun d x1 _ => ThrowsAt.passes (inInt_passes b.entityTag) fun _ x2 => ThrowsAt.yields (inInt_yields b.parametric) fun p x3 _ =>
    ThrowsAt.yields (inSize_yields b.numNodesInBlock) fun num x4 _ => ThrowsAt.assertGood (ThrowsAt.resizes fun _ => ThrowsAt.passes (forEach_many inSize_passes size_total (resized_length ..))
      fun tags x5 => ThrowsAt.assertGood (ThrowsAt.assertC (int32_range p) (ThrowsAt.nodeData fun v y => ThrowsAt.assertGood (hK _ y))))).iff ?_
  constructor
  · rintro ⟨_, x1, ⟨d, hd, rfl⟩, x2, ht, _, x3, ⟨p, hp, rfl⟩, _, x4, ⟨v, hv, rfl⟩, h⟩
    exact ⟨d, x1, x2, p, x3, v, x4, hd, ht, hp, hv, h⟩
  · rintro ⟨d, x1, x2, p, x3, v, x4, hd, ht, hp, hv, h⟩
    exact ⟨_, x1, ⟨d, hd, rfl⟩, x2, ht, _, x3, ⟨p, hp, rfl⟩, _, x4, ⟨v, hv, rfl⟩, h⟩

theorem exhausts_nodeBlocks (cfg : Cfg) (l : List NodeBlock) (x : Place) : ThrowsAt .alloc (forEach (loadNodeBlockAscii41 cfg) l) x (BlocksTextExhaust cfg l x) :=
  ThrowsAt.forEach (BlockTextExhausts cfg) (exhausts_nodeBlock cfg) (BlocksTextExhaust cfg) (fun _ h => h) (fun _ _ _ => Iff.rfl) l x

theorem exhausts_nodes41 (cfg : Cfg) (n : Nodes) (x : Place) : ThrowsAt .alloc (loadNodesAscii41 cfg n) x (Nodes41TextExhaust cfg n x) := by
  unfold loadNodesAscii41
  refine (ThrowsAt.yields (inSize_yields n.numEntityBlocks) fun v x1 _ => ThrowsAt.passes (inSize_passes _) fun _ x2 => ThrowsAt.passes (inSize_passes _) fun _ x3 =>
    ThrowsAt.passes (inSize_passes _) fun _ y => ThrowsAt.assertGood (ThrowsAt.resizes fun _ => (exhausts_nodeBlocks cfg _ y).last fun _ _ h => by cases h)).iff ?_
  unfold Nodes41TextExhaust
  simp only [many_three]
  constructor
  · rintro ⟨_, x1, ⟨v, hv, rfl⟩, x2, h2, x3, h3, y, h4, h5⟩
    exact ⟨v, x1, y, hv, ⟨x2, x3, h2, h3, h4⟩, h5⟩
  · rintro ⟨v, x1, y, hv, ⟨x2, x3, h2, h3, h4⟩, h5⟩
    exact ⟨_, x1, ⟨v, hv, rfl⟩, x2, h2, x3, h3, y, h4, h5⟩

/-! ## Entities -/

theorem exhausts_intList (cfg : Cfg) (v : List Int32) (K : List Int32 → Rd α) (Q : Place → Prop) (x : Place) (hK : ∀ l y, ThrowsAt .alloc (K l) y (Q y)) :
    ThrowsAt .alloc (loadIntListAscii cfg v >>= K) x (CounterExhausts cfg x fun n y => ∃ z, Many SkipsInt n y z ∧ Q z) := by
  simp only [loadIntListAscii, Rd.bind_assoc]
  exact ThrowsAt.counts fun n y _ => ThrowsAt.passes (forEach_many inInt_passes int_total (resized_length ..)) fun l z => hK l z

theorem exhausts_points (cfg : Cfg) (l : List PointEntity) (K : List PointEntity → Rd α) (more : List (Place → Place → Prop)) (x : Place)
    (hK : ∀ l y, ThrowsAt .alloc (K l) y (ListsTextExhaust cfg more y)) :
    ThrowsAt .alloc (forEach (loadPointAscii cfg) l >>= K) x (ListsTextExhaust cfg (List.replicate l.length (SkipsHead 3) ++ more) x) := by
  induction l generalizing x K with
  | nil => exact hK [] x
  | cons p l ih =>
    simp only [forEach, loadPointAscii, Rd.bind_assoc]
    refine (ThrowsAt.passes (inInt_passes _) fun _ x1 => ThrowsAt.passes (inDouble_passes _) fun _ x2 => ThrowsAt.passes (inDouble_passes _) fun _ x3 => ThrowsAt.passes (inDouble_passes _) fun _ x4 =>
      exhausts_intList cfg _ _ _ x4 fun _ y => ih _ y fun l y => hK _ y).iff ?_
    rw [List.length_cons, List.replicate_succ, List.cons_append, ListsTextExhaust]
    unfold SkipsHead
    simp only [many_three]
    constructor
    · rintro ⟨x1, h1, x2, h2, x3, h3, x4, h4, h⟩
      exact ⟨x4, ⟨x1, h1, x2, x3, h2, h3, h4⟩, h⟩
    · rintro ⟨x4, ⟨x1, h1, x2, x3, h2, h3, h4⟩, h⟩
      exact ⟨x1, h1, x2, h2, x3, h3, x4, h4, h⟩

theorem exhausts_boxes (cfg : Cfg) (l : List BoxEntity) (K : List BoxEntity → Rd α) (more : List (Place → Place → Prop)) (x : Place)
    (hK : ∀ l y, ThrowsAt .alloc (K l) y (ListsTextExhaust cfg more y)) :
    ThrowsAt .alloc (forEach (loadBoxAscii cfg) l >>= K) x (ListsTextExhaust cfg ((List.replicate l.length [SkipsHead 6, Eq]).flatten ++ more) x) := by
  induction l generalizing x K with
  | nil => exact hK [] x
  | cons p l ih =>
    simp only [forEach, loadBoxAscii, Rd.bind_assoc]
    refine (ThrowsAt.passes (inInt_passes _) fun _ x1 => ThrowsAt.passes (inDouble_passes _) fun _ x2 => ThrowsAt.passes (inDouble_passes _) fun _ x3 => ThrowsAt.passes (inDouble_passes _) fun _ x4 =>
      ThrowsAt.passes (inDouble_passes _) fun _ x5 => ThrowsAt.passes (inDouble_passes _) fun _ x6 => ThrowsAt.passes (inDouble_passes _) fun _ x7 =>
      exhausts_intList cfg _ _ _ x7 fun _ y => exhausts_intList cfg _ _ _ y fun _ y => ih _ y fun l y => hK _ y).iff ?_
    rw [List.length_cons, List.replicate_succ, List.flatten_cons, List.append_assoc]
    simp only [List.cons_append, List.nil_append, ListsTextExhaust, exists_eq_left']
    unfold SkipsHead
    simp only [show (6 : Nat) = 3 + 3 from rfl, many_add, many_three]
    constructor
    · rintro ⟨x1, h1, x2, h2, x3, h3, x4, h4, x5, h5, x6, h6, x7, h7, h⟩
      exact ⟨x7, ⟨x1, h1, x4, ⟨x2, x3, h2, h3, h4⟩, x5, x6, h5, h6, h7⟩, h⟩
    · rintro ⟨x7, ⟨x1, h1, x4, ⟨x2, x3, h2, h3, h4⟩, x5, x6, h5, h6, h7⟩, h⟩
      exact ⟨x1, h1, x2, h2, x3, h3, x4, h4, x5, h5, x6, h6, x7, h7, h⟩

theorem exhausts_entities41 (cfg : Cfg) (e : Entities) (x : Place) : ThrowsAt .alloc (loadEntitiesAscii41 cfg e) x (EntitiesTextExhaust cfg x) := by
  unfold loadEntitiesAscii41
  refine (ThrowsAt.yields extractSize_yields fun np x1 _ => ThrowsAt.yields extractSize_yields fun nc x2 _ => ThrowsAt.yields extractSize_yields fun ns x3 _ =>
    ThrowsAt.yields extractSize_yields fun nv y _ => ThrowsAt.assertGood (ThrowsAt.useVar fun p _ => ThrowsAt.resizes fun _ => ThrowsAt.useVar fun c _ => ThrowsAt.resizes fun _ =>
      ThrowsAt.useVar fun s _ => ThrowsAt.resizes fun _ => ThrowsAt.useVar fun v _ => ThrowsAt.resizes fun _ =>
      exhausts_points cfg _ _ _ y fun _ y => exhausts_boxes cfg _ _ _ y fun _ y => exhausts_boxes cfg _ _ _ y fun _ y => exhausts_boxes cfg _ _ [] y fun _ y =>
        (?_ : ThrowsAt .alloc _ y (ListsTextExhaust cfg [] y)))).iff ?_
  · exact (ThrowsAt.assertGood (ThrowsAt.never fun _ h => by cases h)).iff ⟨fun h => h.2, fun h => h.elim⟩
  simp only [resized_length, List.append_nil]
  unfold EntitiesTextExhaust
  simp only [List.replicate_add, List.flatten_append, List.append_assoc]
  constructor
  · rintro ⟨np, x1, h1, nc, x2, h2, ns, x3, h3, nv, y, h4, h⟩
    exact ⟨np, x1, nc, x2, ns, x3, nv, y, h1, h2, h3, h4, h⟩
  · rintro ⟨np, x1, nc, x2, ns, x3, nv, y, h1, h2, h3, h4, h⟩
    exact ⟨np, x1, h1, nc, x2, h2, ns, x3, h3, nv, y, h4, h⟩

/-! ## Physical names -/

theorem sizeOfInt_exceeds {cfg : Cfg} (n : Int32) : cfg.maxCount < (sizeOfInt n).toNat ↔ n.toInt < 0 ∨ cfg.maxCount < n.toInt := by
  have := sizeOfInt_fits (cfg := cfg) n
  omega

theorem exhausts_names (cfg : Cfg) (gs : List PhysicalGroup) (x : Place) :
    ThrowsAt .alloc (loadPhysicalGroups cfg gs) x (∃ n y, TakesInt x (some n) y ∧ (n.toInt < 0 ∨ cfg.maxCount < n.toInt)) := by
  unfold loadPhysicalGroups
  refine (ThrowsAt.yields extractInt_yields fun _ y _ => ThrowsAt.useVar fun n _ => ThrowsAt.resizes (Q := False) fun hn => ?_).iff ?_
  · have hw : ∀ l, WithinR [] cfg.asserts (forEach loadPhysicalGroup l >>= fun gs => MshIO.assertGood cfg >>= fun _ => (Pure.pure gs : Rd _)) := by
      intro l; unfold loadPhysicalGroup; within []
    exact ThrowsAt.within (hw _) (by decide)
  · simp only [or_false, sizeOfInt_exceeds]
    constructor
    · rintro ⟨_, y, hy, n, rfl, h⟩
      exact ⟨n, y, hy, h⟩
    · rintro ⟨n, y, hy, h⟩
      exact ⟨_, y, hy, n, rfl, h⟩

/-! ## Nodes of version 2.2 -/

theorem triple_exceeds {cfg : Cfg} (N : UInt64) : cfg.maxCount < N.toNat ∨ cfg.maxCount < (N * 3).toNat ↔ cfg.maxCount < 3 * N.toNat := by
  have := triple_fits (cfg := cfg) N
  omega

theorem exhausts_nodesText22 (cfg : Cfg) {s : MshSpec} {n : Nodes} (hn : n.entityBlocks = s.nodes.entityBlocks) (x : Place) :
    ThrowsAt .alloc (loadNodesAscii22 cfg n) x (Nodes22Exhaust cfg s x) := by
  unfold loadNodesAscii22 Nodes22Exhaust
  rw [← hn]
  refine ThrowsAt.pushes fun _ => (ThrowsAt.yields (inSize_yields 0) fun N y _ => ThrowsAt.assertGood (ThrowsAt.resizes fun h1 => ThrowsAt.resizes (Q := False) fun h2 => ?_)).iff ?_
  · refine ThrowsAt.within (T := []) (ab := cfg.asserts) ?_ (by decide)
    within []
  · simp only [or_false, triple_exceeds]
    constructor
    · rintro ⟨_, y, ⟨v, h1, rfl⟩, h2⟩
      exact ⟨v, y, h1, h2⟩
    · rintro ⟨v, y, h1, h2⟩
      exact ⟨_, y, ⟨v, h1, rfl⟩, h2⟩

theorem exhausts_nodesBinary22 (cfg : Cfg) {s : MshSpec} {n : Nodes} (hn : n.entityBlocks = s.nodes.entityBlocks) (x : Place) :
    ThrowsAt .alloc (loadNodesBinary22 cfg n) x (Nodes22Exhaust cfg s x) := by
  unfold loadNodesBinary22 Nodes22Exhaust
  rw [← hn]
  refine ThrowsAt.pushes fun _ => (ThrowsAt.yields (inSize_yields 0) fun N y _ => ThrowsAt.assertGood (ThrowsAt.resizes fun h1 => ThrowsAt.resizes (Q := False) fun h2 => ?_)).iff ?_
  · refine ThrowsAt.within (T := []) (ab := cfg.asserts) ?_ (by decide)
    unfold loadNodeBinary22
    within []
  · simp only [or_false, triple_exceeds]
    constructor
    · rintro ⟨_, y, ⟨v, h1, rfl⟩, h2⟩
      exact ⟨v, y, h1, h2⟩
    · rintro ⟨v, y, h1, h2⟩
      exact ⟨_, y, ⟨v, h1, rfl⟩, h2⟩

end MshIO
