import Verif.Proofs.EndingsBinary

/-! # How reading a section ends: elements of version 2.2 -/

namespace MshIO

variable {α β : Type} {k : Ending}

/-! ## Tags -/

theorem takesIntsOver_total (l : List Int32) (x : Place) : ∃ v y, TakesIntsOver l x v y := by
  induction l generalizing x with
  | nil => exact ⟨[], x, .nil⟩
  | cons o l ih =>
    obtain ⟨v, y, h⟩ := extractInt_yields.total x
    obtain ⟨w, z, h'⟩ := ih y
    exact ⟨_, z, .cons h h'⟩

theorem forEach_over {l : List Int32} {x : Place} {v : List Int32} {y : Place} (h : TakesIntsOver l x v y) {st : Stream} (hs : At x st) :
    ∃ st', MshIO.forEach inInt l st = .ok (v, st') ∧ At y st' ∧ v.length = l.length := by
  induction h generalizing st with
  | nil => exact ⟨st, rfl, hs, rfl⟩
  | @cons o os x v y l z h1 _ ih =>
    obtain ⟨st1, e1, hs1⟩ := (inInt_yields o).sound ⟨v, h1, rfl⟩ hs.cur
    obtain ⟨st2, e2, hs2, hl⟩ := ih hs1
    refine ⟨st2, ?_, hs2, by simp [hl]⟩
    show (inInt o >>= fun b => MshIO.forEach inInt os >>= fun bs => pure (b :: bs)) st = _
    rw [Rd.bind_ok e1, Rd.bind_ok e2]
    rfl

theorem EndsAt.intsOver {l : List Int32} {f : List Int32 → Rd α} {x : Place} {Q : List Int32 → Place → Prop} (h : ∀ v y, v.length = l.length → EndsAt k (f v) y (Q v y)) :
    EndsAt k (MshIO.forEach inInt l >>= f) x (∃ v y, TakesIntsOver l x v y ∧ Q v y) := by
  intro st hs
  constructor
  · intro hu
    obtain ⟨v, y, hr⟩ := takesIntsOver_total l x
    obtain ⟨st', e, hs', hl⟩ := forEach_over hr hs
    rw [Rd.bind_ok e] at hu
    exact ⟨v, y, hr, (h v y hl st' hs').mp hu⟩
  · rintro ⟨v, y, hr, hq⟩
    obtain ⟨st', e, hs', hl⟩ := forEach_over hr hs
    rw [Rd.bind_ok e]
    exact (h v y hl st' hs').mpr hq

theorem takesIntsOver_many {l : List Int32} {x y : Place} : (∃ v, TakesIntsOver l x v y) ↔ Many SkipsInt l.length x y := by
  induction l generalizing x with
  | nil =>
    constructor
    · rintro ⟨_, h⟩; cases h; exact .zero
    · intro h; cases h; exact ⟨_, .nil⟩
  | cons o l ih =>
    constructor
    · rintro ⟨_, h⟩
      cases h with
      | cons h1 h2 => exact .next ⟨_, h1⟩ (ih.mp ⟨_, h2⟩)
    · intro h
      cases h with
      | next h1 h2 =>
        obtain ⟨v, h1⟩ := h1
        obtain ⟨w, h2⟩ := ih.mpr h2
        exact ⟨_, .cons h1 h2⟩

theorem EndsAt.skipInts {l : List Int32} {f : List Int32 → Rd α} {x : Place} {Q : Place → Prop} (h : ∀ v y, v.length = l.length → EndsAt k (f v) y (Q y)) :
    EndsAt k (MshIO.forEach inInt l >>= f) x (∃ y, Many SkipsInt l.length x y ∧ Q y) :=
  (EndsAt.intsOver h).iff ⟨fun ⟨v, y, h1, h2⟩ => ⟨y, takesIntsOver_many.mp ⟨v, h1⟩, h2⟩, fun ⟨y, h1, h2⟩ => by
    obtain ⟨v, h1⟩ := takesIntsOver_many.mpr h1
    exact ⟨v, y, h1, h2⟩⟩

/-! ## Entities -/

/-- The maps hold the tags `P`. -/
structure PhysFor (P : List (Nat × Int32)) (maps : List PhysMap) : Prop where
  length : maps.length = 4
  ok : ∀ (d : Nat) m, maps[d]? = some m → PhysOk m
  keys : ∀ (d : Nat) m, maps[d]? = some m → ∀ t, (∃ e ∈ m, e.1 = t) ↔ (d, t) ∈ P

theorem PhysFor.start : PhysFor [] [[], [], [], []] where
  length := rfl
  ok d m h := by
    have : m ∈ ([[], [], [], []] : List PhysMap) := List.mem_of_getElem? h
    have : m = [] := by simpa using this
    subst this
    exact ⟨List.Pairwise.nil, (fun _ h => by cases h), fun _ h => by cases h⟩
  keys d m h t := by
    have : m ∈ ([[], [], [], []] : List PhysMap) := List.mem_of_getElem? h
    have : m = [] := by simpa using this
    subst this
    simp

theorem PhysFor.add {P : List (Nat × Int32)} {maps : List PhysMap} (h : PhysFor P maps) {d : Nat} {m : PhysMap} (hd : maps[d]? = some m) (t v : Int32) :
    PhysFor (P ++ [(d, t)]) (maps.set d (physAdd t v m)) where
  length := by rw [List.length_set, h.length]
  ok d' m' h' := by
    rw [List.getElem?_set] at h'
    by_cases e : d = d'
    · rw [if_pos e] at h'
      split at h'
      · cases h'; exact physAdd_ok (h.ok d m hd)
      · cases h'
    · rw [if_neg e] at h'
      exact h.ok d' m' h'
  keys d' m' h' t' := by
    rw [List.getElem?_set] at h'
    by_cases e : d = d'
    · subst e
      rw [if_pos rfl] at h'
      split at h'
      · cases h'
        rw [physAdd_keys, h.keys d m hd]
        simp only [List.mem_append, List.mem_singleton, Prod.mk.injEq, true_and]
        exact or_comm
      · cases h'
    · rw [if_neg e] at h'
      rw [h.keys d' m' h']
      simp only [List.mem_append, List.mem_singleton, Prod.mk.injEq]
      exact ⟨Or.inl, fun h => h.resolve_right fun h => e h.1.symm⟩

theorem PhysFor.room {cfg : Cfg} {P : List (Nat × Int32)} {maps : List PhysMap} (h : PhysFor P maps) {d : Nat} {m : PhysMap} (hd : maps[d]? = some m) (n : Nat) :
    RoomFor cfg P d n ↔ m.length ≤ cfg.maxCount - n := by
  have hn : (m.map Prod.fst).Nodup := by
    have := (h.ok d m hd).sorted
    rw [List.Nodup, List.pairwise_map]
    refine this.imp fun hab e => ?_
    rw [e, Int32.lt_iff_toInt_lt] at hab
    omega
  have hk : ∀ t, t ∈ m.map Prod.fst ↔ (d, t) ∈ P := fun t => by
    rw [← h.keys d m hd t, List.mem_map]
  constructor
  · rintro ⟨tags, h1, h2, h3⟩
    have : tags.Perm (m.map Prod.fst) := (List.perm_ext_iff_of_nodup h1 hn).mpr fun t => (h2 t).trans (hk t).symm
    have := this.length_eq
    rw [List.length_map] at this
    omega
  · exact fun h3 => ⟨m.map Prod.fst, hn, hk, by rwa [List.length_map]⟩

theorem createEntities_fits {E : Type} (cfg : Cfg) (mk : Int32 → List Int32 → E) (m : PhysMap) (es : List E) :
    if m.length ≤ cfg.maxCount - es.length then ∃ l, createEntities cfg mk m es = .ok l else createEntities cfg mk m es = .throw .alloc := by
  induction m generalizing es with
  | nil => rw [if_pos (by simp)]; exact ⟨es, rfl⟩
  | cons p m ih =>
    obtain ⟨t, vs⟩ := p
    have e : createEntities cfg mk ((t, vs) :: m) es = (vecPush cfg es (mk t vs) >>= fun es => createEntities cfg mk m es) := rfl
    rw [e]
    unfold vecPush
    by_cases h : es.length < cfg.maxCount
    · rw [if_pos h, okBind]
      have := ih (es ++ [mk t vs])
      by_cases h2 : m.length ≤ cfg.maxCount - (es ++ [mk t vs]).length
      · rw [if_pos h2] at this
        rw [if_pos (by simp at h2 ⊢; omega)]
        exact this
      · rw [if_neg h2] at this
        rw [if_neg (by simp at h2 ⊢; omega)]
        exact this
    · rw [if_neg h, if_neg (by simp; omega)]
      rfl

theorem create_sticks {cfg : Cfg} {P : List (Nat × Int32)} {maps : List PhysMap} (h : PhysFor P maps) (ents : Entities) {f : Entities → Rd α} (hf : ∀ a s, ∃ b, f a s = .ok (b, s))
    (x : Place) : EndsAt .sticks (Rd.lift (createAllEntities cfg maps ents) >>= f) x (x = .stuck ∧ RoomFor cfg P 0 ents.points.length ∧ RoomFor cfg P 1 ents.curves.length ∧
      RoomFor cfg P 2 ents.surfaces.length ∧ RoomFor cfg P 3 ents.volumes.length) := by
  obtain ⟨m0, m1, m2, m3, rfl⟩ : ∃ m0 m1 m2 m3, maps = [m0, m1, m2, m3] := by
    have := h.length
    rcases maps with _ | ⟨a, _ | ⟨b, _ | ⟨c, _ | ⟨d, _ | ⟨e, t⟩⟩⟩⟩⟩ <;> simp at this
    exact ⟨a, b, c, d, rfl⟩
  rw [h.room (d := 0) rfl, h.room (d := 1) rfl, h.room (d := 2) rfl, h.room (d := 3) rfl]
  intro st hs
  have stop : ∀ {γ : Type} {f : γ → Rd α}, ¬ Ending.sticks.Of ((Rd.lift (.throw .alloc : Outcome γ) >>= f) st) := fun ⟨_, _, h, _⟩ => by cases h
  unfold createAllEntities
  simp only
  have g0 : vecGet [m0, m1, m2, m3] 0 = .ok m0 := rfl
  have g1 : vecGet [m0, m1, m2, m3] 1 = .ok m1 := rfl
  have g2 : vecGet [m0, m1, m2, m3] 2 = .ok m2 := rfl
  have g3 : vecGet [m0, m1, m2, m3] 3 = .ok m3 := rfl
  rw [Outcome.bind_ok _ g0]
  have c0 := createEntities_fits cfg (fun t g => ({ tag := t, physicalGroupTags := g } : PointEntity)) m0 ents.points
  by_cases h0 : m0.length ≤ cfg.maxCount - ents.points.length
  swap
  · rw [if_neg h0] at c0
    rw [c0]
    exact ⟨fun h => absurd h stop, fun h => absurd h.2.1 h0⟩
  rw [if_pos h0] at c0
  obtain ⟨l0, c0⟩ := c0
  rw [Outcome.bind_ok _ c0, Outcome.bind_ok _ g1]
  have c1 := createEntities_fits cfg (fun t g => ({ tag := t, physicalGroupTags := g } : BoxEntity)) m1 ents.curves
  by_cases h1 : m1.length ≤ cfg.maxCount - ents.curves.length
  swap
  · rw [if_neg h1] at c1
    rw [c1]
    exact ⟨fun h => absurd h stop, fun h => absurd h.2.2.1 h1⟩
  rw [if_pos h1] at c1
  obtain ⟨l1, c1⟩ := c1
  rw [Outcome.bind_ok _ c1, Outcome.bind_ok _ g2]
  have c2 := createEntities_fits cfg (fun t g => ({ tag := t, physicalGroupTags := g } : BoxEntity)) m2 ents.surfaces
  by_cases h2 : m2.length ≤ cfg.maxCount - ents.surfaces.length
  swap
  · rw [if_neg h2] at c2
    rw [c2]
    exact ⟨fun h => absurd h stop, fun h => absurd h.2.2.2.1 h2⟩
  rw [if_pos h2] at c2
  obtain ⟨l2, c2⟩ := c2
  rw [Outcome.bind_ok _ c2, Outcome.bind_ok _ g3]
  have c3 := createEntities_fits cfg (fun t g => ({ tag := t, physicalGroupTags := g } : BoxEntity)) m3 ents.volumes
  by_cases h3 : m3.length ≤ cfg.maxCount - ents.volumes.length
  swap
  · rw [if_neg h3] at c3
    rw [c3]
    exact ⟨fun h => absurd h stop, fun h => absurd h.2.2.2.2 h3⟩
  rw [if_pos h3] at c3
  obtain ⟨l3, c3⟩ := c3
  rw [Outcome.bind_ok _ c3]
  rw [Rd.bind_ok (a := ⟨l0, l1, l2, l3⟩) (s' := st) rfl]
  obtain ⟨b, hb⟩ := hf ⟨l0, l1, l2, l3⟩ st
  rw [hb, Ending.ok, at_stuck hs.cur]
  exact ⟨fun h => ⟨h.2, h0, h1, h2, h3⟩, fun h => ⟨rfl, h.1⟩⟩

theorem makeElement22_adds {cfg : Cfg} (num : Int32) {ty : Int32} (tags : List Int32) {ids : List Int32} {blocks : List ElementBlock} {maps : List PhysMap} {P : List (Nat × Int32)}
    {d : Nat} (hty : mshNodes ty = some ids.length) (hd : mshDim ty = some d) (hb : blocks.length < cfg.maxCount) (hc : 57 ≤ cfg.maxCount) (hm : PhysFor P maps) :
    ∃ b m, makeElement22 cfg num ty tags ids blocks maps = .ok (blocks ++ [b], m) ∧ PhysFor (P ++ (tags[1]?.map fun t => (d, t)).toList) m := by
  obtain ⟨hgd, hd3⟩ := getElementDim_of_mshDim hd
  obtain ⟨-, h56, -⟩ := nodesPerElement_of_mshNodes hty
  have hlt := cfg.maxCount_lt
  have hs : (sizeOfInt (Int32.ofNat d)).toNat = d := by
    have : d = 0 ∨ d = 1 ∨ d = 2 ∨ d = 3 := by omega
    rcases this with rfl | rfl | rfl | rfl <;> decide
  have hr : vecResize cfg ([] : List UInt64) (UInt64.ofNat (ids.length + 1)) 0 = .ok (List.replicate (UInt64.ofNat (ids.length + 1)).toNat 0) :=
    vecResize_nil (by rw [UInt64.toNat_ofNat']; omega) 0
  unfold makeElement22 vecPush
  rw [if_pos hb, okBind, hgd, okBind]
  match tags with
  | [] => simp only [hr]; exact ⟨_, _, rfl, by simpa using hm⟩
  | [_] => simp only [hr]; exact ⟨_, _, rfl, by simpa using hm⟩
  | t0 :: t1 :: more =>
    have hlen := hm.length
    have hdl : d < maps.length := by omega
    have h1 : vecGet maps (sizeOfInt (Int32.ofNat d)) = .ok maps[d] := by
      unfold vecGet
      rw [hs, List.getElem?_eq_getElem hdl]
    have h2 : ∀ x, vecSet maps (sizeOfInt (Int32.ofNat d)) x = .ok (maps.set d x) := by
      intro x; unfold vecSet; rw [hs, if_pos (by omega)]
    simp only [hr, h1, h2]
    exact ⟨_, _, rfl, hm.add (List.getElem?_eq_getElem hdl) t1 t0⟩

/-! ## Text -/

theorem sticks_element22 {cfg : Cfg} (hc : 57 ≤ cfg.maxCount) (st : Ascii22) {P : List (Nat × Int32)} (hm : PhysFor P st.maps)
    (hset : st.numTags ≠ none → st.elementNum ≠ none) (K : Ascii22 → Rd α) (Q : Int32 → Int32 → List Int32 → List (Nat × Int32) → Place → Prop) (x : Place)
    (hK : ∀ st' ty nt p y, PhysFor (P ++ p) st'.maps → st'.elementNum ≠ none → st'.elementType = some ty → st'.numTags = some nt → st'.blocks.length = st.blocks.length + 1 →
      EndsAt .sticks (K st') y (Q ty nt st'.tags p y)) :
    EndsAt .sticks (loadElementAscii22 cfg st >>= K) x (∃ x1 t x2 kk y, SkipsInt x x1 ∧ TakesInt x1 t x2 ∧ TakesInt x2 kk y ∧
      ∃ nt' ∈ kk.or st.numTags, 0 ≤ nt'.toInt ∧ nt'.toInt ≤ cfg.maxCount ∧ ∃ tags' z, TakesIntsOver (blocksFor st.tags nt'.toInt.toNat 0) y tags' z ∧
      ∃ ty' ∈ t.or st.elementType, ∃ m dim, mshNodes ty' = some m ∧ mshDim ty' = some dim ∧ ∃ z', Many SkipsInt m z z' ∧ 0 < cfg.maxCount - st.blocks.length ∧
        Q ty' nt' tags' (tags'[1]?.map fun tag => (dim, tag)).toList z') := by
  rw [loadElementAscii22_eq]
  simp only [elementTail22, Rd.bind_assoc]
  refine (EndsAt.yields (inIntVar_yields _) fun en x1 h1 => EndsAt.yields (inIntVar_yields _) fun et x2 h2 => EndsAt.yields (inIntVar_yields _) fun nt y h3 =>
    (?_ : EndsAt _ _ y (∃ nt' ∈ nt, 0 ≤ nt'.toInt ∧ nt'.toInt ≤ cfg.maxCount ∧ ∃ tags' z, TakesIntsOver (blocksFor st.tags nt'.toInt.toNat 0) y tags' z ∧
      ∃ ty' ∈ et, ∃ m dim, mshNodes ty' = some m ∧ mshDim ty' = some dim ∧ ∃ z', Many SkipsInt m z z' ∧ 0 < cfg.maxCount - st.blocks.length ∧
        Q ty' nt' tags' (tags'[1]?.map fun tag => (dim, tag)).toList z'))).iff ?_
  · refine EndsAt.useVar fun nt' hnt => ?_
    subst hnt
    have hen : ∃ n, en = some n := by
      cases hen : en with
      | some n => exact ⟨n, rfl⟩
      | none =>
        exfalso
        subst hen
        obtain ⟨t1, h1, e1⟩ := h1
        obtain ⟨t2, h2, -⟩ := h2
        obtain ⟨t3, h3, e3⟩ := h3
        cases t1 with
        | some n => simp at e1
        | none =>
          cases t3 with
          | some n =>
            obtain ⟨u, rfl⟩ := takesInt_some h2 h3
            obtain ⟨_, h⟩ := takesInt_some h1 h2
            cases h
          | none =>
            simp only [Option.none_or] at e1 e3
            exact hset (by rw [← e3]; simp) e1.symm
    obtain ⟨n, rfl⟩ := hen
    refine (EndsAt.resize (Q := ∃ tags' z, TakesIntsOver (blocksFor st.tags nt'.toInt.toNat 0) y tags' z ∧
      ∃ ty' ∈ et, ∃ m dim, mshNodes ty' = some m ∧ mshDim ty' = some dim ∧ ∃ z', Many SkipsInt m z z' ∧ 0 < cfg.maxCount - st.blocks.length ∧
        Q ty' nt' tags' (tags'[1]?.map fun tag => (dim, tag)).toList z') fun hf => ?_).iff ?_
    · have hf' := (sizeOfInt_fits nt').mp hf
      rw [sizeOfInt_toNat hf'.1]
      refine EndsAt.intsOver fun tags z _ => EndsAt.useVar fun ty' het => ?_
      subst het
      cases hk : mshNodes ty' with
      | none =>
        intro s _
        rw [mshNodes_none hk]
        exact ⟨fun h => absurd h Ending.not_throw, fun ⟨_, _, h, _⟩ => by cases h⟩
      | some kk =>
        obtain ⟨hn, h56, -⟩ := nodesPerElement_of_mshNodes hk
        obtain ⟨dim, hdim, -⟩ := mshDim_of_mshNodes hk
        have hN : (UInt64.ofNat kk).toNat = kk := by rw [UInt64.toNat_ofNat']; omega
        refine (EndsAt.lift hn (EndsAt.resize fun _ => EndsAt.skipInts (Q := fun z' => 0 < cfg.maxCount - st.blocks.length ∧
          Q ty' nt' tags (tags[1]?.map fun tag => (dim, tag)).toList z') fun ids z' hl => ?_)).iff ?_
        · rw [resized_length, hN] at hl
          refine (EndsAt.useVar (Q := fun _ => 0 < cfg.maxCount - st.blocks.length ∧ Q ty' nt' tags (tags[1]?.map fun tag => (dim, tag)).toList z') fun n' hn' => ?_).iff
            ⟨fun ⟨_, _, h⟩ => h, fun h => ⟨n, rfl, h⟩⟩
          by_cases hb : st.blocks.length < cfg.maxCount
          · obtain ⟨b, m, hmk, hm4⟩ := makeElement22_adds (cfg := cfg) n' tags (ids := ids) (blocks := st.blocks) (maps := st.maps) (hl ▸ hk) hdim hb hc hm
            refine (EndsAt.lift hmk (hK _ ty' nt' _ z' hm4 (by simp) rfl rfl (by simp))).iff ⟨fun h => ⟨by omega, h⟩, fun h => h.2⟩
          · rw [makeElement22_full n' ty' tags ids st.maps hb]
            exact fun s _ => ⟨fun h => absurd h Ending.not_throw, fun h => absurd h.1 (by omega)⟩
        · rw [resized_length, hN]
          constructor
          · rintro ⟨_, z', h⟩
            exact ⟨kk, dim, rfl, hdim, z', h⟩
          · rintro ⟨_, _, e1, e2, z', h⟩
            cases e1
            rw [hdim] at e2
            cases e2
            exact ⟨by omega, z', h⟩
    · rw [sizeOfInt_fits, and_assoc]
  · constructor
    · rintro ⟨_, x1, ⟨v, h1, rfl⟩, _, x2, ⟨t, h2, rfl⟩, _, y, ⟨kk, h3, rfl⟩, h⟩
      exact ⟨x1, t, x2, kk, y, ⟨v, h1⟩, h2, h3, h⟩
    · rintro ⟨x1, t, x2, kk, y, ⟨v, h1⟩, h2, h3, h⟩
      exact ⟨_, x1, ⟨v, h1, rfl⟩, _, x2, ⟨t, h2, rfl⟩, _, y, ⟨kk, h3, rfl⟩, h⟩

/-- What reading the entities asks for. -/
def RoomForAll (cfg : Cfg) (ents : Entities) (P : List (Nat × Int32)) : Prop :=
  RoomFor cfg P 0 ents.points.length ∧ RoomFor cfg P 1 ents.curves.length ∧ RoomFor cfg P 2 ents.surfaces.length ∧ RoomFor cfg P 3 ents.volumes.length

theorem sticks_elementLoop22 {cfg : Cfg} (hc : 57 ≤ cfg.maxCount) (ents : Entities) {f : Ascii22 → Entities → Rd α} (hf : ∀ st a s, ∃ b, f st a s = .ok (b, s)) (n i : Nat)
    (st : Ascii22) {P : List (Nat × Int32)} (hm : PhysFor P st.maps) (hset : st.numTags ≠ none → st.elementNum ≠ none) (x : Place) :
    EndsAt .sticks (loopN (fun _ st => loadElementAscii22 cfg st) n i st >>= fun st => Rd.lift (createAllEntities cfg st.maps ents) >>= f st) x
      (∃ phys, SkipsElements cfg n (cfg.maxCount - st.blocks.length) st.elementType st.numTags st.tags x phys .stuck ∧ RoomForAll cfg ents (P ++ phys)) := by
  induction n generalizing i st x P with
  | zero =>
    refine (create_sticks (f := f st) hm ents (hf st) x).iff ?_
    constructor
    · rintro ⟨rfl, h⟩
      exact ⟨[], .zero, by rw [List.append_nil]; exact h⟩
    · rintro ⟨phys, h1, h2⟩
      cases h1
      rw [List.append_nil] at h2
      exact ⟨rfl, h2⟩
  | succ n ih =>
    unfold loopN
    rw [Rd.bind_assoc]
    refine (sticks_element22 hc st hm hset _ (fun ty nt tags p z => ∃ phys, SkipsElements cfg n (cfg.maxCount - st.blocks.length - 1) (some ty) (some nt) tags z phys .stuck ∧
      RoomForAll cfg ents (P ++ p ++ phys)) x fun st' ty nt p y h1 h2 h3 h4 h5 => ?_).iff ?_
    · have := ih (i + 1) st' h1 (fun _ => h2) y
      rwa [h3, h4, h5, ← Nat.sub_sub] at this
    · constructor
      · rintro ⟨x1, t, x2, kk, y, h1, h2, h3, nt', h4, h5, h6, tags', z, h7, ty', h8, m, dim, h9, h10, z', h11, h12, phys, h13, h14⟩
        exact ⟨_, .next h1 h2 h3 h4 h5 h6 h7 h8 h9 h10 h11 h12 h13, by rwa [← List.append_assoc]⟩
      · rintro ⟨phys, h, hr⟩
        cases h with
        | next h1 h2 h3 h4 h5 h6 h7 h8 h9 h10 h11 h12 h13 =>
          exact ⟨_, _, _, _, _, h1, h2, h3, _, h4, h5, h6, _, _, h7, _, h8, _, _, h9, h10, _, h11, h12, _, h13, by rwa [List.append_assoc]⟩

theorem sticks_elementsText22 {cfg : Cfg} (hc : 57 ≤ cfg.maxCount) {s : MshSpec} {e : Elements} (he : e.entityBlocks = s.elements.entityBlocks) (x : Place) :
    EndsAt .sticks (loadElementsAscii22 cfg e s.entities) x (Elements22TextSticks cfg s x) := by
  unfold loadElementsAscii22 Elements22TextSticks
  refine (EndsAt.yields extractSize_yields fun v y _ => EndsAt.useVar fun n hn => sticks_elementLoop22 hc s.entities
    (f := fun st ents => (pure (_, ents) : Rd (Elements × Entities))) (fun _ _ _ => ⟨_, rfl⟩) n.toNat 0 _ PhysFor.start (fun h => absurd rfl h) y).iff ?_
  rw [he]
  constructor
  · rintro ⟨_, y, h1, n, rfl, phys, h2, h3⟩
    exact ⟨n, y, phys, h1, h2, h3⟩
  · rintro ⟨n, y, phys, h1, h2, h3⟩
    exact ⟨_, y, h1, n, rfl, phys, h2, h3⟩

/-! ## Binary -/

theorem flows_group22 (cfg : Cfg) (N : UInt64) (st : Binary22) : Flows (loadElementGroupBinary22 cfg N st) := by
  unfold loadElementGroupBinary22
  refine (flows_readIntVar _).bind fun _ => (flows_readIntVar _).bind fun _ => (flows_readIntVar _).bind fun _ => (flows_useVar _).bind fun _ => (flows_resize ..).bind fun _ =>
    (flows_useVar _).bind fun _ => (Flows.lift _).bind fun _ => (flows_resize ..).bind fun _ => (flows_useVar _).bind fun _ => (Flows.loopN (fun _ st => ?_) _ _ _).bind fun _ => Flows.pure _
  unfold loadElementBinary22
  refine (flows_readIntVar _).bind fun _ => ?_
  split
  · exact ⟨fun _ _ _ _ h => by cases h⟩
  · refine (flows_readInts _).bind fun _ => (flows_readInts _).bind fun _ => (flows_useVar _).bind fun _ => (Flows.lift _).bind fun _ => ?_
    dsimp only
    split
    · exact Flows.throw _
    · exact Flows.pure _

theorem flows_groups22 (cfg : Cfg) (N : UInt64) (fuel : Nat) (st : Binary22) : Flows (loadElementGroups22 cfg N fuel st) := by
  induction fuel generalizing st with
  | zero => exact ⟨fun _ _ _ _ h => by cases h⟩
  | succ fuel ih =>
    unfold loadElementGroups22
    split
    · exact Flows.pure _
    · exact (flows_group22 cfg N st).bind fun st => ih st

theorem readIntVar_bad {st : Stream} (h : ¬ st.good = true) : readIntVar none st = .ok (none, { st with fail := true }) := by
  unfold readIntVar
  simp only [h]
  rfl

theorem group22_bad {cfg : Cfg} {N : UInt64} {b : Binary22} {st : Stream} (h : ¬ st.good = true) : loadElementGroupBinary22 cfg N b st = .ub := by
  have h1 := readIntVar_bad h
  have h2 : ¬ ({ st with fail := true } : Stream).good = true := by simp [Stream.good]
  have h3 := readIntVar_bad h2
  unfold loadElementGroupBinary22
  rw [Rd.bind_ok h1, Rd.bind_ok h3, Rd.bind_ok h3]
  rfl

theorem sticks_groups22 (cfg : Cfg) (ents : Entities) (N : UInt64) (bs : List ElementBlock) {f : Binary22 → Entities → Rd α} (hf : ∀ b a s, ∃ r, f b a s = .ok (r, s)) {y : Place} {st st' : Stream}
    (hs : At y st) {m : Rd Binary22} (hm : ∀ s, m s = loadElementGroups22 cfg N (s.rem.length + 2) { blocks := bs } s) (e : eatWhiteSpace 1 st = .ok ((), st')) :
    Ending.sticks.Of ((m >>= fun st => Rd.lift (createAllEntities cfg st.maps ents) >>= f st) st') ↔
      y = .stuck ∧ N = 0 := by
  have hst := eat_stuck hs e
  by_cases hy : y = .stuck
  · subst hy
    have hb := hst.mpr rfl
    have hbad : ¬ st'.good = true := by simp [Stream.good, hb.1]
    by_cases h0 : (0 : UInt64) = N
    · have e1 : m st' = .ok ({ blocks := bs }, st') := by
        rw [hm, loadElementGroups22, if_pos h0]
        rfl
      rw [Rd.bind_ok e1]
      refine (create_sticks (cfg := cfg) PhysFor.start ents (f := f { blocks := bs }) (hf _) .stuck st' hb).trans ⟨fun _ => ⟨rfl, h0.symm⟩, fun _ => ⟨rfl, ?_, ?_, ?_, ?_⟩⟩ <;>
        exact ⟨[], List.nodup_nil, fun _ => ⟨(fun h => by cases h), fun h => by cases h⟩, Nat.zero_le _⟩
    · have e1 : m st' = .ub := by
        rw [hm, loadElementGroups22, if_neg h0]
        exact Rd.bind_ub (group22_bad hbad)
      rw [Rd.bind_ub e1]
      exact ⟨fun h => absurd h Ending.not_ub, fun h => absurd h.2.symm h0⟩
  · refine ⟨?_, fun h => absurd h.1 hy⟩
    rintro ⟨a, s', e2, h1, h2⟩
    have hu : Unstuck st' := fun hf => by
      cases he : st'.eof with
      | true => rfl
      | false => exact absurd (hst.mp ⟨hf, he⟩) hy
    have hfl : Flows (m >>= fun st => Rd.lift (createAllEntities cfg st.maps ents) >>= f st) :=
      Flows.bind ⟨fun s a s' hs he => (flows_groups22 cfg N (s.rem.length + 2) { blocks := bs }).all s a s' hs (hm s ▸ he)⟩ fun b => (Flows.lift _).bind fun ents =>
        ⟨fun s a s' hs he => by
          obtain ⟨r, hr⟩ := hf b ents s
          rw [hr] at he
          cases he
          exact hs⟩
    have := hfl.all _ _ _ hu e2 h1
    rw [h2] at this
    cases this

theorem sticks_elementsBinary22 (cfg : Cfg) {s : MshSpec} {e : Elements} (he : e.numElements = s.elements.numElements) (x : Place) :
    EndsAt .sticks (loadElementsBinary22 cfg e s.entities) x (∃ v, TakesSize x v .stuck ∧ v.getD s.elements.numElements = 0) := by
  unfold loadElementsBinary22
  refine (EndsAt.yields (inSize_yields e.numElements) fun N y _ => (?_ : EndsAt _ _ y (y = .stuck ∧ N = 0))).iff ?_
  · intro st hs
    by_cases hN : N.toNat ≤ cfg.maxCount
    swap
    · have : vecReserve cfg N = .throw .alloc := if_neg hN
      rw [this]
      refine ⟨fun h => (by obtain ⟨_, _, h, _⟩ := h; cases h), fun h => ?_⟩
      rw [h.2] at hN
      exact absurd (Nat.zero_le _) hN
    have hr : Rd.lift (vecReserve cfg N) st = .ok ((), st) := Rd.lift_ok (if_pos hN : vecReserve cfg N = .ok ()) st
    obtain ⟨d, hd⟩ := dataFrom_exists y
    obtain ⟨st', e', hs'⟩ := eat_from hd hs
    rw [Rd.bind_ok hr, Rd.bind_ok e']
    exact sticks_groups22 cfg s.entities N e.entityBlocks (fun _ _ _ => ⟨_, rfl⟩) hs (fun _ => rfl) e'
  · constructor
    · rintro ⟨_, y, ⟨v, h1, rfl⟩, rfl, h⟩
      exact ⟨v, h1, he ▸ h⟩
    · rintro ⟨v, h1, h⟩
      exact ⟨_, _, ⟨v, h1, rfl⟩, rfl, he ▸ h⟩

end MshIO
