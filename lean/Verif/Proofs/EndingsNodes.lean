import Verif.Proofs.EndingsText

/-! # How reading a `$Nodes` section of version 2.2 ends -/

namespace MshIO

variable {α β : Type} {k : Ending}

theorem startsInt_ne {r r' : Bytes} {s : Option Bool} {ds : List (Fin 10)} (h : StartsInt r s ds r') : r ≠ [] := by
  rintro rfl
  obtain ⟨lead, e, -, -, h⟩ := h
  have e1 := (List.append_eq_nil_iff.mp e.symm).2
  have e2 := List.append_eq_nil_iff.mp e1
  have e3 := List.append_eq_nil_iff.mp e2.2
  have hs : s = none := by
    cases s with
    | none => rfl
    | some b => cases b <;> cases e2.1
  have hd : ds = [] := by
    cases ds with
    | nil => rfl
    | cons d ds => cases e3.1
  obtain ⟨c, hc, -⟩ := h hs hd
  rw [e3.2] at hc
  cases hc

theorem startsReal_ne {r r' : Bytes} {n : Numeral} (h : StartsReal r n r') : r ≠ [] := by
  rintro rfl
  obtain ⟨lead, e, -, ⟨c, hc, -⟩, -⟩ := h
  have e1 := (List.append_eq_nil_iff.mp e.symm).2
  rw [e1] at hc
  cases hc

theorem Place.not_good {x : Place} (h : ¬ x.Good) : x = .on [] ∨ x = .stuck ∨ x = .ended := by
  match x with
  | .on [] => exact Or.inl rfl
  | .on (c :: r) => exact absurd ⟨c, r, rfl⟩ h
  | .stuck => exact Or.inr (Or.inl rfl)
  | .ended => exact Or.inr (Or.inr rfl)

theorem not_good_stuck : ¬ Place.Good .stuck := fun ⟨_, _, h⟩ => by cases h
theorem not_good_ended : ¬ Place.Good .ended := fun ⟨_, _, h⟩ => by cases h

theorem skipsSize_lost {x y : Place} (h : SkipsSize x y) (hx : ¬ x.Good) : ¬ y.Good := by
  obtain ⟨v, h⟩ := h
  rcases Place.not_good hx with rfl | rfl | rfl
  · cases h with
    | number h => exact absurd rfl (startsInt_ne h)
    | large h => exact absurd rfl (startsInt_ne h)
    | word h => exact absurd rfl (startsInt_ne h)
    | blank => exact not_good_ended
  · cases h; exact hx
  · cases h; exact hx

theorem takesReal_lost {x y : Place} (h : TakesReal x y) (hx : ¬ x.Good) : ¬ y.Good := by
  rcases Place.not_good hx with rfl | rfl | rfl
  · cases h with
    | number h => exact absurd rfl (startsReal_ne h)
    | bad h => exact absurd rfl (startsReal_ne h)
    | blank => exact not_good_ended
  · cases h; exact hx
  · cases h; exact hx

theorem many_lost {R : Place → Place → Prop} (hR : ∀ {x y}, R x y → ¬ x.Good → ¬ y.Good) {n : Nat} {x y : Place} (h : Many R n x y) : ¬ x.Good → ¬ y.Good := by
  induction h with
  | zero => exact id
  | next h1 _ ih => exact fun hx => ih (hR h1 hx)

theorem skipsNode_lost {x z : Place} (h : SkipsNode x z) (hx : ¬ x.Good) : ¬ z.Good := by
  obtain ⟨y, h1, h2⟩ := h
  exact many_lost takesReal_lost h2 (skipsSize_lost h1 hx)

theorem skipsNode_total (x : Place) : ∃ z, SkipsNode x z := by
  obtain ⟨y, h1⟩ := size_total x
  obtain ⟨z, h2⟩ := many_total real_total 3 y
  exact ⟨z, y, h1, h2⟩

theorem EndsAt.fills {τ : Type} {f : UInt64 → List τ → Rd (List τ)} {R : Place → Place → Prop} (hf : Fills f R) {i : UInt64} {v : List τ} (hi : i.toNat < v.length)
    {K : List τ → Rd α} {x : Place} {Q : Place → Prop} (h : ∀ v' y, v'.length = v.length → EndsAt k (K v') y (Q y)) : EndsAt k (f i v >>= K) x (∃ y, R x y ∧ Q y) := by
  intro st hs
  constructor
  · intro hu
    obtain ⟨y, hr⟩ := hf.total x
    obtain ⟨v', st', e, hl, hs'⟩ := hf.inside hi hr hs
    rw [Rd.bind_ok e] at hu
    exact ⟨y, hr, (h v' y hl st' hs').mp hu⟩
  · rintro ⟨y, hr, hq⟩
    obtain ⟨v', st', e, hl, hs'⟩ := hf.inside hi hr hs
    rw [Rd.bind_ok e]
    exact (h v' y hl st' hs').mpr hq

/-- Reading nodes one after the other, with an assertion after each of them. -/
def NodesChain (cfg : Cfg) (k : Ending) : Nat → Place → Prop
  | 0, x => ReadTo k x
  | n + 1, x => ∃ z, SkipsNode x z ∧ Asserted cfg k z (NodesChain cfg k n z)

theorem checked_good {cfg : Cfg} {x : Place} {P : Prop} (h : cfg.asserts = true → x.Good) : Asserted cfg k x P ↔ P :=
  ⟨fun h' => h'.elim (fun h' => absurd (h h'.2.1) h'.2.2) fun h' => h'.2, fun hp => Or.inr ⟨h, hp⟩⟩

theorem checked_lost {cfg : Cfg} {x : Place} {P : Prop} (ha : cfg.asserts = true) (h : ¬ x.Good) : Asserted cfg k x P ↔ k = .stops :=
  ⟨fun h' => h'.elim (fun h' => h'.1) fun h' => absurd (h'.1 ha) h, fun hp => Or.inl ⟨hp, ha, h⟩⟩

theorem nodesChain_iff (cfg : Cfg) (n : Nat) {x : Place} (hx : cfg.asserts = true → x.Good) :
    NodesChain cfg k n x ↔ ∃ z, Many SkipsNode n x z ∧ Asserted cfg k z (ReadTo k z) := by
  induction n generalizing x with
  | zero => exact ⟨fun h => ⟨x, .zero, (checked_good hx).mpr h⟩, fun ⟨_, h, h'⟩ => by cases h; exact (checked_good hx).mp h'⟩
  | succ n ih =>
    have key : ∀ z, Asserted cfg k z (NodesChain cfg k n z) ↔ ∃ z', Many SkipsNode n z z' ∧ Asserted cfg k z' (ReadTo k z') := by
      intro z
      by_cases hz : cfg.asserts = true → z.Good
      · rw [checked_good hz, ih hz]
      · obtain ⟨ha, hz⟩ := Classical.not_imp.mp hz
        rw [checked_lost ha hz]
        constructor
        · intro hk
          obtain ⟨z', h⟩ := many_total skipsNode_total n z
          exact ⟨z', h, (checked_lost ha (many_lost skipsNode_lost h hz)).mpr hk⟩
        · rintro ⟨z', h, h'⟩
          exact (checked_lost ha (many_lost skipsNode_lost h hz)).mp h'
    constructor
    · rintro ⟨z, h1, h2⟩
      obtain ⟨z', h3, h4⟩ := (key z).mp h2
      exact ⟨z', .next h1 h3, h4⟩
    · rintro ⟨z', h, h4⟩
      cases h with
      | next h1 h3 => exact ⟨_, h1, (key _).mpr ⟨z', h3, h4⟩⟩

theorem ends_nodeLoop22 (cfg : Cfg) {M : Nat} (hM : 3 * M < 2 ^ 64) (n i : Nat) (hi : i + n = M) (tags : List UInt64) (data : List Double) (ht : tags.length = M) (hd : data.length = 3 * M)
    (x : Place) : EndsAt k (loopN (fun i (st : List UInt64 × List Double) => do
      let tags ← inSizeAt (UInt64.ofNat i) st.1
      let data ← inDoubleAt (UInt64.ofNat i * 3) st.2
      let data ← inDoubleAt (UInt64.ofNat i * 3 + 1) data
      let data ← inDoubleAt (UInt64.ofNat i * 3 + 2) data
      MshIO.assertGood cfg
      return (tags, data)) n i (tags, data)) x (NodesChain cfg k n x) := by
  induction n generalizing i tags data x with
  | zero => exact EndsAt.pure _ x
  | succ n ih =>
    have e0 : (UInt64.ofNat i).toNat = i := by rw [UInt64.toNat_ofNat']; omega
    have e1 : (UInt64.ofNat i * 3).toNat = 3 * i := by rw [UInt64.toNat_mul, e0]; show i * 3 % 2 ^ 64 = _; omega
    have e2 : (UInt64.ofNat i * 3 + 1).toNat = 3 * i + 1 := by rw [UInt64.toNat_add, e1]; show (3 * i + 1) % 2 ^ 64 = _; omega
    have e3 : (UInt64.ofNat i * 3 + 2).toNat = 3 * i + 2 := by rw [UInt64.toNat_add, e1]; show (3 * i + 2) % 2 ^ 64 = _; omega
    unfold loopN
    simp only [Rd.bind_assoc, Rd.pure_bind]
    refine (EndsAt.fills inSizeAt_fills (by omega) fun v y hv => EndsAt.fills inDoubleAt_fills (by omega) fun d1 y1 h1 => EndsAt.fills inDoubleAt_fills (by omega) fun d2 y2 h2 =>
      EndsAt.fills inDoubleAt_fills (by omega) fun d3 y3 h3 => EndsAt.assertGood (ih (i + 1) (by omega) v d3 (by omega) (by omega) y3)).iff ?_
    rw [NodesChain]
    unfold SkipsNode
    simp only [many_three]
    constructor
    · rintro ⟨y, h, y1, h1, y2, h2, y3, h3, h4⟩
      exact ⟨y3, ⟨y, h, y1, y2, h1, h2, h3⟩, h4⟩
    · rintro ⟨y3, ⟨y, h, y1, y2, h1, h2, h3⟩, h4⟩
      exact ⟨y, h, y1, h1, y2, h2, y3, h3, h4⟩

theorem triple_fits {cfg : Cfg} (N : UInt64) : N.toNat ≤ cfg.maxCount ∧ (N * 3).toNat ≤ cfg.maxCount ↔ 3 * N.toNat ≤ cfg.maxCount := by
  have : (N * 3).toNat = N.toNat * 3 % 2 ^ 64 := UInt64.toNat_mul ..
  have := cfg.maxCount_lt
  omega

theorem triple_toNat {cfg : Cfg} {N : UInt64} (h : N.toNat ≤ cfg.maxCount) : (N * 3).toNat = 3 * N.toNat := by
  have : (N * 3).toNat = N.toNat * 3 % 2 ^ 64 := UInt64.toNat_mul ..
  have := cfg.maxCount_lt
  omega

theorem ends_nodesText22 (cfg : Cfg) {s : MshSpec} {n : Nodes} (hn : n.entityBlocks = s.nodes.entityBlocks) (x : Place) :
    EndsAt k (loadNodesAscii22 cfg n) x (Nodes22TextEnds cfg k s x) := by
  have hlt := cfg.maxCount_lt
  unfold loadNodesAscii22 Nodes22TextEnds
  rw [← hn]
  refine EndsAt.pushBack ((EndsAt.yields (inSize_yields 0) fun N y _ => EndsAt.assertGood (EndsAt.resize fun h1 => EndsAt.resize (Q := NodesChain cfg k N.toNat y) fun h2 => ?_)).iff ?_)
  · have h3 := triple_toNat h1
    simp only [List.take_nil, List.nil_append, List.length_nil, Nat.sub_zero, h3]
    exact (ends_nodeLoop22 cfg (M := N.toNat) (by omega) N.toNat 0 (by omega) _ _ List.length_replicate List.length_replicate y).last fun _ _ => ⟨_, rfl⟩
  · have key : ∀ (N : UInt64) (y : Place), Asserted cfg k y (N.toNat ≤ cfg.maxCount ∧ (N * 3).toNat ≤ cfg.maxCount ∧ NodesChain cfg k N.toNat y) ↔
        Asserted cfg k y (3 * N.toNat ≤ cfg.maxCount ∧ ∃ z, Many SkipsNode N.toNat y z ∧ Asserted cfg k z (ReadTo k z)) := by
      intro N y
      rw [← and_assoc, triple_fits]
      exact or_congr Iff.rfl (and_congr_right fun hy => and_congr_right fun _ => nodesChain_iff cfg _ hy)
    constructor
    · rintro ⟨_, y, ⟨v, h1, rfl⟩, h2⟩
      exact ⟨v, y, h1, (key _ _).mp h2⟩
    · rintro ⟨v, y, h1, h2⟩
      exact ⟨_, y, ⟨v, h1, rfl⟩, (key _ _).mpr h2⟩

theorem after_not_stuck (n : Nat) (d : Bytes) : ¬ ((after n d).fail = true ∧ (after n d).eof = false) := by
  unfold after
  split
  · exact fun h => by cases h.1
  · exact fun h => by cases h.2

theorem ends_nodesBinary22 (cfg : Cfg) {s : MshSpec} {n : Nodes} (hn : n.entityBlocks = s.nodes.entityBlocks) (x : Place) :
    EndsAt k (loadNodesBinary22 cfg n) x (Nodes22Ends cfg k s x) := by
  have hlt := cfg.maxCount_lt
  unfold loadNodesBinary22 Nodes22Ends
  rw [← hn]
  refine EndsAt.pushBack ((EndsAt.yields (inSize_yields 0) fun N y _ => EndsAt.assertGood (EndsAt.resize fun h1 => EndsAt.resize fun h2 => EndsAt.eat
    (Q := fun d => (k = .stops ∧ cfg.asserts = true ∧ d.length + 24 < 28 * N.toNat ∧ (d = [] ∨ 4 ≤ d.length % 28)) ∨ (k = .sticks ∧ N = 0 ∧ y = .stuck)) fun d st hd hs hst => ?_)).iff ?_)
  · have h3 := triple_toNat h1
    refine (ends_bind (fun _ _ => ⟨_, rfl⟩)).trans ?_
    simp only [List.take_nil, List.nil_append, List.length_nil, Nat.sub_zero, h3]
    have hz : N = 0 ↔ N.toNat = 0 := ⟨fun h => by rw [h]; rfl, fun h => UInt64.toNat_inj.mp (by rw [h]; rfl)⟩
    rw [hz]
    generalize N.toNat = N at *
    rcases hs with ⟨hd', rfl⟩ | ⟨rfl, hg⟩
    · have hy : y ≠ .stuck := fun h => by have := (hst.mpr h).1; cases this
      by_cases hl : d.length + 24 < 28 * N
      · rw [nodesLoop22_short (cfg := cfg) (m := N) (by omega) N 0 (by omega) (by simp) (by simp) hl]
        split
        · rename_i ha
          exact Ending.abort.trans ⟨fun h => Or.inl ⟨h, ha.1, hl, Or.inr ha.2⟩, fun h => h.elim (fun h => h.1) fun h => absurd h.2.2 hy⟩
        · rename_i ha
          refine ⟨fun h => absurd h Ending.not_ub, fun h => h.elim (fun h => ?_) fun h => absurd h.2.2 hy⟩
          exact absurd ⟨h.2.1, h.2.2.2.resolve_left hd'⟩ ha
      · obtain ⟨st, h⟩ := nodesLoop22_long (cfg := cfg) (m := N) (by omega) N 0 (by omega) (tags := List.replicate N 0) (xs := List.replicate (3 * N) Double.zero) (by simp)
          (by simp) (d := d) (by omega)
        rw [h, Ending.ok]
        exact ⟨fun h => absurd h.2 (after_not_stuck _ _), fun h => h.elim (fun h => absurd h.2.2.1 hl) fun h => absurd h.2.2 hy⟩
    · cases N with
      | zero =>
        show k.Of (.ok (_, st)) ↔ _
        rw [Ending.ok, hst]
        exact ⟨fun h => Or.inr ⟨h.1, rfl, h.2⟩, fun h => h.elim (fun h => absurd h.2.2.1 (by simp)) fun h => ⟨h.1, h.2.2⟩⟩
      | succ N =>
        rw [loopN, Rd.bind_def, nodeBinary22_lost cfg _ _ hg]
        by_cases ha : cfg.asserts = true
        · rw [if_pos ha]
          exact Ending.abort.trans ⟨fun h => Or.inl ⟨h, ha, by simp; omega, Or.inl rfl⟩, fun h => h.elim (fun h => h.1) fun h => by cases h.2.1⟩
        · rw [if_neg ha]
          exact ⟨fun h => absurd h Ending.not_ub, fun h => h.elim (fun h => absurd h.2.1 ha) fun h => by cases h.2.1⟩
  · have key : ∀ (N : UInt64) (y : Place), (N.toNat ≤ cfg.maxCount ∧ (N * 3).toNat ≤ cfg.maxCount ∧ ∃ d, DataFrom y d ∧
        ((k = .stops ∧ cfg.asserts = true ∧ d.length + 24 < 28 * N.toNat ∧ (d = [] ∨ 4 ≤ d.length % 28)) ∨ (k = .sticks ∧ N = 0 ∧ y = .stuck))) ↔
        (3 * N.toNat ≤ cfg.maxCount ∧ ((k = .stops ∧ cfg.asserts = true ∧ ∃ d, DataFrom y d ∧ d.length + 24 < 28 * N.toNat ∧ (d = [] ∨ 4 ≤ d.length % 28)) ∨
          (k = .sticks ∧ N = 0 ∧ y = .stuck))) := by
      intro N y
      rw [← and_assoc, triple_fits]
      refine and_congr_right fun _ => ?_
      constructor
      · rintro ⟨d, hd, h | h⟩
        · exact Or.inl ⟨h.1, h.2.1, d, hd, h.2.2⟩
        · exact Or.inr h
      · rintro (⟨h1, h2, d, hd, h3⟩ | h)
        · exact ⟨d, hd, Or.inl ⟨h1, h2, h3⟩⟩
        · obtain ⟨d, hd⟩ := dataFrom_exists y
          exact ⟨d, hd, Or.inr h⟩
    constructor
    · rintro ⟨_, y, ⟨v, h1, rfl⟩, h2⟩
      exact ⟨v, y, h1, h2.imp id fun h => ⟨h.1, (key _ _).mp h.2⟩⟩
    · rintro ⟨v, y, h1, h2⟩
      exact ⟨_, y, ⟨v, h1, rfl⟩, h2.imp id fun h => ⟨h.1, (key _ _).mpr h.2⟩⟩

end MshIO
