import Verif.Proofs.ExhaustedData
import Verif.Proofs.EndingsElements

/-! # When there is not enough memory for a section: elements of version 2.2 -/

namespace MshIO

variable {α β : Type}

/-! ## Entities -/

theorem create_exhausts {cfg : Cfg} {P : List (Nat × Int32)} {maps : List PhysMap} (h : PhysFor P maps) (ents : Entities) {f : Entities → Rd α} (hf : ∀ a s, f a s ≠ .throw .alloc)
    (st : Stream) : (Rd.lift (createAllEntities cfg maps ents) >>= f) st = .throw .alloc ↔ ¬ RoomForAll cfg ents P := by
  obtain ⟨m0, m1, m2, m3, rfl⟩ : ∃ m0 m1 m2 m3, maps = [m0, m1, m2, m3] := by
    have := h.length
    rcases maps with _ | ⟨a, _ | ⟨b, _ | ⟨c, _ | ⟨d, _ | ⟨e, t⟩⟩⟩⟩⟩ <;> simp at this
    exact ⟨a, b, c, d, rfl⟩
  unfold RoomForAll
  rw [h.room (d := 0) rfl, h.room (d := 1) rfl, h.room (d := 2) rfl, h.room (d := 3) rfl]
  rw [throw_bind hf]
  have stop : ∀ {o : Outcome Entities}, o = .throw .alloc → Rd.lift o st = .throw .alloc := fun h => by rw [h]; rfl
  unfold createAllEntities
  simp only
  have g0 : vecGet [m0, m1, m2, m3] 0 = .ok m0 := rfl
  have g1 : vecGet [m0, m1, m2, m3] 1 = .ok m1 := rfl
  have g2 : vecGet [m0, m1, m2, m3] 2 = .ok m2 := rfl
  have g3 : vecGet [m0, m1, m2, m3] 3 = .ok m3 := rfl
  rw [Outcome.bind_ok _ g0]
  have c0 := createEntities_fits cfg (fun t g => ({ tag := t, physicalGroupTags := g } : PointEntity)) m0 ents.points
  by_cases h0 : m0.length ≤ cfg.maxCount - ents.points.length
  swap
  · rw [if_neg h0] at c0
    rw [c0]
    exact ⟨fun _ h => h0 h.1, fun _ => rfl⟩
  rw [if_pos h0] at c0
  obtain ⟨l0, c0⟩ := c0
  rw [Outcome.bind_ok _ c0, Outcome.bind_ok _ g1]
  have c1 := createEntities_fits cfg (fun t g => ({ tag := t, physicalGroupTags := g } : BoxEntity)) m1 ents.curves
  by_cases h1 : m1.length ≤ cfg.maxCount - ents.curves.length
  swap
  · rw [if_neg h1] at c1
    rw [c1]
    exact ⟨fun _ h => h1 h.2.1, fun _ => rfl⟩
  rw [if_pos h1] at c1
  obtain ⟨l1, c1⟩ := c1
  rw [Outcome.bind_ok _ c1, Outcome.bind_ok _ g2]
  have c2 := createEntities_fits cfg (fun t g => ({ tag := t, physicalGroupTags := g } : BoxEntity)) m2 ents.surfaces
  by_cases h2 : m2.length ≤ cfg.maxCount - ents.surfaces.length
  swap
  · rw [if_neg h2] at c2
    rw [c2]
    exact ⟨fun _ h => h2 h.2.2.1, fun _ => rfl⟩
  rw [if_pos h2] at c2
  obtain ⟨l2, c2⟩ := c2
  rw [Outcome.bind_ok _ c2, Outcome.bind_ok _ g3]
  have c3 := createEntities_fits cfg (fun t g => ({ tag := t, physicalGroupTags := g } : BoxEntity)) m3 ents.volumes
  by_cases h3 : m3.length ≤ cfg.maxCount - ents.volumes.length
  swap
  · rw [if_neg h3] at c3
    rw [c3]
    exact ⟨fun _ h => h3 h.2.2.2, fun _ => rfl⟩
  rw [if_pos h3] at c3
  obtain ⟨l3, c3⟩ := c3
  rw [Outcome.bind_ok _ c3]
  exact ⟨(fun h => by cases h), fun h => absurd ⟨h0, h1, h2, h3⟩ h⟩

/-! ## Text -/

theorem ThrowsAt.intsOver {ex : Exc} {l : List Int32} {f : List Int32 → Rd α} {x : Place} {Q : List Int32 → Place → Prop}
    (h : ∀ v y, v.length = l.length → ThrowsAt ex (f v) y (Q v y)) : ThrowsAt ex (MshIO.forEach inInt l >>= f) x (∃ v y, TakesIntsOver l x v y ∧ Q v y) := by
  intro st hs
  constructor
  · intro hu
    obtain ⟨v, y, hr⟩ := takesIntsOver_total l x
    obtain ⟨st', e, hs', hl⟩ := forEach_over hr hs
    rw [Rd.bind_ok e] at hu
    exact ⟨v, y, hr, (h v y hl st' hs').mp hu⟩
  · rintro ⟨v, y, hr, hq⟩
    obtain ⟨st', e, hs', hl⟩ := forEach_over hr hs
    rw [Rd.bind_ok e]
    exact (h v y hl st' hs').mpr hq

theorem ThrowsAt.skipInts {ex : Exc} {l : List Int32} {f : List Int32 → Rd α} {x : Place} {Q : Place → Prop} (h : ∀ v y, v.length = l.length → ThrowsAt ex (f v) y (Q y)) :
    ThrowsAt ex (MshIO.forEach inInt l >>= f) x (∃ y, Many SkipsInt l.length x y ∧ Q y) :=
  (ThrowsAt.intsOver h).iff ⟨fun ⟨v, y, h1, h2⟩ => ⟨y, takesIntsOver_many.mp ⟨v, h1⟩, h2⟩, fun ⟨y, h1, h2⟩ => by
    obtain ⟨v, h1⟩ := takesIntsOver_many.mpr h1
    exact ⟨v, y, h1, h2⟩⟩

theorem exhausts_element22 {cfg : Cfg} (hc : 57 ≤ cfg.maxCount) (st : Ascii22) {P : List (Nat × Int32)} (hm : PhysFor P st.maps)
    (hset : st.numTags ≠ none → st.elementNum ≠ none) (K : Ascii22 → Rd α) (Q : Int32 → Int32 → List Int32 → List (Nat × Int32) → Place → Prop) (x : Place)
    (hK : ∀ st' ty nt p y, PhysFor (P ++ p) st'.maps → st'.elementNum ≠ none → st'.elementType = some ty → st'.numTags = some nt → st'.blocks.length = st.blocks.length + 1 →
      ThrowsAt .alloc (K st') y (Q ty nt st'.tags p y)) :
    ThrowsAt .alloc (loadElementAscii22 cfg st >>= K) x (∃ x1 t x2 kk y, SkipsInt x x1 ∧ TakesInt x1 t x2 ∧ TakesInt x2 kk y ∧
      ∃ nt' ∈ kk.or st.numTags, (nt'.toInt < 0 ∨ cfg.maxCount < nt'.toInt) ∨ ((0 ≤ nt'.toInt ∧ nt'.toInt ≤ cfg.maxCount) ∧
      ∃ tags' z, TakesIntsOver (blocksFor st.tags nt'.toInt.toNat 0) y tags' z ∧
      ∃ ty' ∈ t.or st.elementType, ∃ m dim, mshNodes ty' = some m ∧ mshDim ty' = some dim ∧ ∃ z', Many SkipsInt m z z' ∧ (cfg.maxCount - st.blocks.length = 0 ∨
        (0 < cfg.maxCount - st.blocks.length ∧ Q ty' nt' tags' (tags'[1]?.map fun tag => (dim, tag)).toList z')))) := by
  rw [loadElementAscii22_eq]
  simp only [elementTail22, Rd.bind_assoc]
  refine (ThrowsAt.yields (inIntVar_yields _) fun en x1 h1 => ThrowsAt.yields (inIntVar_yields _) fun et x2 h2 => ThrowsAt.yields (inIntVar_yields _) fun nt y h3 =>
    (?_ : ThrowsAt _ _ y (∃ nt' ∈ nt, (nt'.toInt < 0 ∨ cfg.maxCount < nt'.toInt) ∨ ((0 ≤ nt'.toInt ∧ nt'.toInt ≤ cfg.maxCount) ∧
      ∃ tags' z, TakesIntsOver (blocksFor st.tags nt'.toInt.toNat 0) y tags' z ∧
      ∃ ty' ∈ et, ∃ m dim, mshNodes ty' = some m ∧ mshDim ty' = some dim ∧ ∃ z', Many SkipsInt m z z' ∧ (cfg.maxCount - st.blocks.length = 0 ∨
        (0 < cfg.maxCount - st.blocks.length ∧ Q ty' nt' tags' (tags'[1]?.map fun tag => (dim, tag)).toList z')))))).iff ?_
  · refine ThrowsAt.useVar fun nt' hnt => ?_
    subst hnt
    have hen : ∃ n, en = some n := by
      cases hen : en with
      | some n => exact ⟨n, rfl⟩
      | none =>
        exfalso
        subst hen
        obtain ⟨t1, h1, e1⟩ := h1
        obtain ⟨t2, h2, -⟩ := h2
        obtain ⟨t3, h3, e3⟩ := h3
        cases t1 with
        | some n => simp at e1
        | none =>
          cases t3 with
          | some n =>
            obtain ⟨u, rfl⟩ := takesInt_some h2 h3
            obtain ⟨_, h⟩ := takesInt_some h1 h2
            cases h
          | none =>
            simp only [Option.none_or] at e1 e3
            exact hset (by rw [← e3]; simp) e1.symm
    obtain ⟨n, rfl⟩ := hen
    refine (ThrowsAt.resizes (Q := (0 ≤ nt'.toInt ∧ nt'.toInt ≤ cfg.maxCount) ∧ ∃ tags' z, TakesIntsOver (blocksFor st.tags nt'.toInt.toNat 0) y tags' z ∧
      ∃ ty' ∈ et, ∃ m dim, mshNodes ty' = some m ∧ mshDim ty' = some dim ∧ ∃ z', Many SkipsInt m z z' ∧ (cfg.maxCount - st.blocks.length = 0 ∨ (0 < cfg.maxCount - st.blocks.length ∧
        Q ty' nt' tags' (tags'[1]?.map fun tag => (dim, tag)).toList z'))) fun hf => ?_).iff ?_
    · have hf' := (sizeOfInt_fits nt').mp hf
      rw [sizeOfInt_toNat hf'.1]
      refine ThrowsAt.iff (ThrowsAt.intsOver fun tags z _ => ThrowsAt.useVar fun ty' het => ?_) ⟨fun h => ⟨hf', h⟩, fun h => h.2⟩
      subst het
      cases hk : mshNodes ty' with
      | none =>
        intro s _
        rw [mshNodes_none hk]
        exact ⟨(fun h => by cases h), fun ⟨_, _, h, _⟩ => by rw [hk] at h; cases h⟩
      | some kk =>
        obtain ⟨hn, h56, -⟩ := nodesPerElement_of_mshNodes hk
        obtain ⟨dim, hdim, -⟩ := mshDim_of_mshNodes hk
        have hN : (UInt64.ofNat kk).toNat = kk := by rw [UInt64.toNat_ofNat']; omega
        refine (ThrowsAt.lift hn (ThrowsAt.resizes fun _ => ThrowsAt.skipInts (Q := fun z' => cfg.maxCount - st.blocks.length = 0 ∨ (0 < cfg.maxCount - st.blocks.length ∧
          Q ty' nt' tags (tags[1]?.map fun tag => (dim, tag)).toList z')) fun ids z' hl => ?_)).iff ?_
        · rw [resized_length, hN] at hl
          refine (ThrowsAt.useVar (Q := fun _ => cfg.maxCount - st.blocks.length = 0 ∨ (0 < cfg.maxCount - st.blocks.length ∧
            Q ty' nt' tags (tags[1]?.map fun tag => (dim, tag)).toList z')) fun n' hn' => ?_).iff ⟨fun ⟨_, _, h⟩ => h, fun h => ⟨n, rfl, h⟩⟩
          by_cases hb : st.blocks.length < cfg.maxCount
          · obtain ⟨b, m, hmk, hm4⟩ := makeElement22_adds (cfg := cfg) n' tags (ids := ids) (blocks := st.blocks) (maps := st.maps) (hl ▸ hk) hdim hb hc hm
            refine (ThrowsAt.lift hmk (hK _ ty' nt' _ z' hm4 (by simp) rfl rfl (by simp))).iff ⟨fun h => Or.inr ⟨by omega, h⟩, fun h => (h.resolve_left (by omega)).2⟩
          · rw [makeElement22_full n' ty' tags ids st.maps hb]
            exact fun s _ => ⟨fun _ => Or.inl (by omega), fun _ => rfl⟩
        · rw [resized_length, hN]
          constructor
          · rintro (h | ⟨z', h⟩)
            · omega
            · exact ⟨kk, dim, hk, hdim, z', h⟩
          · rintro ⟨_, _, e1, e2, z', h⟩
            rw [hk] at e1
            cases e1
            rw [hdim] at e2
            cases e2
            exact Or.inr ⟨z', h⟩
    · rw [sizeOfInt_exceeds]
  · constructor
    · rintro ⟨_, x1, ⟨v, h1, rfl⟩, _, x2, ⟨t, h2, rfl⟩, _, y, ⟨kk, h3, rfl⟩, h⟩
      exact ⟨x1, t, x2, kk, y, ⟨v, h1⟩, h2, h3, h⟩
    · rintro ⟨x1, t, x2, kk, y, ⟨v, h1⟩, h2, h3, h⟩
      exact ⟨_, x1, ⟨v, h1, rfl⟩, _, x2, ⟨t, h2, rfl⟩, _, y, ⟨kk, h3, rfl⟩, h⟩

theorem exhausts_elementLoop22 {cfg : Cfg} (hc : 57 ≤ cfg.maxCount) (ents : Entities) {f : Ascii22 → Entities → Rd α} (hf : ∀ st a s, f st a s ≠ .throw .alloc) (n i : Nat)
    (st : Ascii22) {P : List (Nat × Int32)} (hm : PhysFor P st.maps) (hset : st.numTags ≠ none → st.elementNum ≠ none) (x : Place) :
    ThrowsAt .alloc (loopN (fun _ st => loadElementAscii22 cfg st) n i st >>= fun st => Rd.lift (createAllEntities cfg st.maps ents) >>= f st) x
      (ElementsTextExhaust cfg n (cfg.maxCount - st.blocks.length) st.elementType st.numTags x ∨
        ∃ phys z, SkipsElements cfg n (cfg.maxCount - st.blocks.length) st.elementType st.numTags st.tags x phys z ∧ ¬ RoomForAll cfg ents (P ++ phys)) := by
  induction n generalizing i st x P with
  | zero =>
    intro s _
    refine (create_exhausts (f := f st) hm ents (hf st) s).trans ?_
    constructor
    · exact fun h => Or.inr ⟨[], x, .zero, by rwa [List.append_nil]⟩
    · rintro (h | ⟨phys, z, h1, h2⟩)
      · exact h.elim
      · cases h1
        rwa [List.append_nil] at h2
  | succ n ih =>
    unfold loopN
    rw [Rd.bind_assoc]
    refine (exhausts_element22 hc st hm hset _ (fun ty nt tags p z => ElementsTextExhaust cfg n (cfg.maxCount - st.blocks.length - 1) (some ty) (some nt) z ∨
      ∃ phys z', SkipsElements cfg n (cfg.maxCount - st.blocks.length - 1) (some ty) (some nt) tags z phys z' ∧ ¬ RoomForAll cfg ents (P ++ p ++ phys))
      x fun st' ty nt p y h1 h2 h3 h4 h5 => ?_).iff ?_
    · have := ih (i + 1) st' h1 (fun _ => h2) y
      rwa [h3, h4, h5, ← Nat.sub_sub] at this
    · constructor
      · rintro ⟨x1, t, x2, kk, y, h1, h2, h3, nt', h4, h5 | ⟨⟨h5, h6⟩, tags', z, h7, ty', h8, m, dim, h9, h10, z', h11, h12⟩⟩
        · exact Or.inl ⟨x1, t, x2, kk, y, h1, h2, h3, nt', h4, Or.inl h5⟩
        · have hl : Many SkipsInt nt'.toInt.toNat y z := by
            have := takesIntsOver_many.mp ⟨_, h7⟩
            rwa [show (blocksFor st.tags nt'.toInt.toNat 0).length = nt'.toInt.toNat from resized_length ..] at this
          rcases h12 with h12 | ⟨h12, h13 | ⟨phys, z'', h13, h14⟩⟩
          · exact Or.inl ⟨x1, t, x2, kk, y, h1, h2, h3, nt', h4, Or.inr ⟨z, hl, ty', h8, m, h9, z', h11, Or.inl h12⟩⟩
          · exact Or.inl ⟨x1, t, x2, kk, y, h1, h2, h3, nt', h4, Or.inr ⟨z, hl, ty', h8, m, h9, z', h11, Or.inr h13⟩⟩
          · exact Or.inr ⟨_, _, .next h1 h2 h3 h4 h5 h6 h7 h8 h9 h10 h11 h12 h13, by rwa [← List.append_assoc]⟩
      · rintro (⟨x1, t, x2, kk, y, h1, h2, h3, nt', h4, h5⟩ | ⟨phys, z, h, hr⟩)
        · refine ⟨x1, t, x2, kk, y, h1, h2, h3, nt', h4, ?_⟩
          by_cases hn : nt'.toInt < 0 ∨ cfg.maxCount < nt'.toInt
          · exact Or.inl hn
          obtain ⟨z, hl, ty', h8, m, h9, z', h11, h12⟩ := h5.resolve_left hn
          obtain ⟨tags', h7⟩ : ∃ v, TakesIntsOver (blocksFor st.tags nt'.toInt.toNat 0) y v z := by
            refine takesIntsOver_many.mpr ?_
            rwa [show (blocksFor st.tags nt'.toInt.toNat 0).length = nt'.toInt.toNat from resized_length ..]
          obtain ⟨dim, hdim, -⟩ := mshDim_of_mshNodes h9
          refine Or.inr ⟨by omega, tags', z, h7, ty', h8, m, dim, h9, hdim, z', h11, ?_⟩
          by_cases h0 : cfg.maxCount - st.blocks.length = 0
          · exact Or.inl h0
          · exact Or.inr ⟨by omega, Or.inl (h12.resolve_left h0)⟩
        · cases h with
          | next h1 h2 h3 h4 h5 h6 h7 h8 h9 h10 h11 h12 h13 =>
            exact ⟨_, _, _, _, _, h1, h2, h3, _, h4, Or.inr ⟨⟨h5, h6⟩, _, _, h7, _, h8, _, _, h9, h10, _, h11, Or.inr ⟨h12, Or.inr ⟨_, _, h13, by rwa [List.append_assoc]⟩⟩⟩⟩

theorem exhausts_elementsText22 {cfg : Cfg} (hc : 57 ≤ cfg.maxCount) {s : MshSpec} {e : Elements} (he : e.entityBlocks = s.elements.entityBlocks) (x : Place) :
    ThrowsAt .alloc (loadElementsAscii22 cfg e s.entities) x (Elements22TextExhaust cfg s x) := by
  unfold loadElementsAscii22 Elements22TextExhaust
  refine (ThrowsAt.yields extractSize_yields fun v y _ => ThrowsAt.useVar fun n hn => exhausts_elementLoop22 hc s.entities
    (f := fun st ents => (pure (_, ents) : Rd (Elements × Entities))) (fun _ _ _ h => by cases h) n.toNat 0 _ PhysFor.start (fun h => absurd rfl h) y).iff ?_
  rw [he]
  constructor
  · rintro ⟨_, y, h1, n, rfl, h⟩
    exact ⟨n, y, h1, h⟩
  · rintro ⟨n, y, h1, h⟩
    exact ⟨_, y, h1, n, rfl, h⟩

/-! ## Binary -/

theorem decodeMany_bytes (n : Nat) : ∀ {b : Bytes}, b.length = 4 * n → (decodeMany 4 decodeI32 n b).flatMap encI32 = b := by
  induction n with
  | zero =>
    intro b hb
    have : b = [] := List.eq_nil_of_length_eq_zero (by omega)
    subst this
    rfl
  | succ n ih =>
    intro b hb
    rw [decodeMany, List.flatMap_cons, ih (by simp; omega), encI32_decodeI32 (by simp; omega), List.take_append_drop]

theorem readInts_over (v : List Int32) (n : Nat) (d : Bytes) :
    ∃ l, readInts v (after n d) = .ok (l, after (n + 4 * v.length) d) ∧ l.length = v.length ∧ l.flatMap encI32 = Over (d.drop n) (v.flatMap encI32) := by
  unfold readInts
  rw [Rd.bind_ok (readRaw_over _ n d), flatMap_encI32_length]
  exact ⟨_, rfl, decodeMany_length .., decodeMany_bytes _ (by rw [over_length, flatMap_encI32_length])⟩

theorem flatMap_encI32_inj {l m : List Int32} (h : l.flatMap encI32 = m.flatMap encI32) : l = m := by
  induction l generalizing m with
  | nil =>
    cases m with
    | nil => rfl
    | cons b m => have := congrArg List.length h; simp at this; omega
  | cons a l ih =>
    cases m with
    | nil => have := congrArg List.length h; simp at this
    | cons b m =>
      rw [List.flatMap_cons, List.flatMap_cons] at h
      obtain ⟨rfl, h2⟩ := encI32_append_inj h
      rw [ih h2]

theorem SkipsMembers.unique {dim nt k n : Nat} {tags : List Int32} {d : Bytes} {t1 t2 : List Int32} {p1 p2 : List (Nat × Int32)} (h1 : SkipsMembers dim nt k n tags d t1 p1)
    (h2 : SkipsMembers dim nt k n tags d t2 p2) : t1 = t2 ∧ p1 = p2 := by
  induction h1 generalizing t2 p2 with
  | zero => cases h2; exact ⟨rfl, rfl⟩
  | next h _ ih =>
    cases h2 with
    | next h' h2 =>
      obtain rfl := flatMap_encI32_inj (h.trans h'.symm)
      obtain ⟨rfl, rfl⟩ := ih h2
      exact ⟨rfl, rfl⟩

theorem readIntVar_any (o : Option Int32) (n : Nat) (d : Bytes) : ∃ w, readIntVar o (after n d) = .ok (w, after (n + 4) d) := by
  cases o with
  | some v =>
    obtain ⟨w, h⟩ := readIntVar_some_after v n d
    exact ⟨_, h⟩
  | none =>
    by_cases h : n ≤ d.length
    · rw [after_gs h]
      by_cases h' : n + 4 ≤ d.length
      · rw [after_gs h', readIntVar_none_gs (by simp; omega), List.drop_drop]
        exact ⟨_, rfl⟩
      · rw [after_spent (by omega : d.length < n + 4), readIntVar_none_short (by simp; omega)]
        exact ⟨_, rfl⟩
    · rw [after_spent (by omega), after_spent (by omega), readIntVar_none_spent]
      exact ⟨_, rfl⟩

theorem member_ok {cfg : Cfg} (hc : 57 ≤ cfg.maxCount) {N : UInt64} {ty nt : Int32} {k dim : Nat} (hk : mshNodes ty = some k) (hd : mshDim ty = some dim) {o o' : Option Int32}
    {st st' : Binary22} {P : List (Nat × Int32)} (hm : PhysFor P st.maps) (hr : st.Ready nt.toInt.toNat k) {n : Nat} {d : Bytes} {s' : Stream}
    (h : loadElementBinary22 cfg N ty nt (o, st) (after n d) = .ok ((o', st'), s')) :
    st'.tags.flatMap encI32 = Over ((d.drop n).drop 4) (st.tags.flatMap encI32) ∧ s' = after (n + 4 * (1 + nt.toInt.toNat + k)) d ∧ st'.Ready nt.toInt.toNat k ∧
      PhysFor (P ++ (st'.tags[1]?.map fun tag => (dim, tag)).toList) st'.maps := by
  unfold loadElementBinary22 at h
  obtain ⟨w, h1⟩ := readIntVar_any o n d
  rw [Rd.bind_ok h1] at h
  split at h
  · cases h
  obtain ⟨tags, h2, h2l, h2o⟩ := readInts_over st.tags (n + 4) d
  obtain ⟨ids, h3, h3l, -⟩ := readInts_over st.nodeIds (n + 4 + 4 * st.tags.length) d
  rw [Rd.bind_ok h2, Rd.bind_ok h3] at h
  cases w with
  | none => cases h
  | some id =>
    rw [Rd.bind_ok (useVar_some _ _)] at h
    dsimp only at h
    have hids : mshNodes ty = some ids.length := by rw [h3l, hr.nodeIds]; exact hk
    by_cases hb : st.blocks.length < cfg.maxCount
    · obtain ⟨b, m, hmk, hm'⟩ := makeElement22_adds (cfg := cfg) id tags (blocks := st.blocks) (maps := st.maps) hids hd hb hc hm
      rw [hmk, Rd.bind_ok (show Rd.lift (Outcome.ok _) _ = .ok (_, _) from rfl)] at h
      dsimp only at h
      split at h
      · cases h
      · cases h
        refine ⟨by rw [List.drop_drop]; exact h2o, ?_, ⟨h2l.trans hr.tags, h3l.trans hr.nodeIds⟩, hm'⟩
        rw [hr.tags, hr.nodeIds]
        congr 1
        omega
    · rw [makeElement22_full id ty tags ids st.maps hb] at h
      cases h

theorem members_ok {cfg : Cfg} (hc : 57 ≤ cfg.maxCount) {N : UInt64} {ty nt : Int32} {k dim : Nat} (hk : mshNodes ty = some k) (hd : mshDim ty = some dim) (m i : Nat) {o o' : Option Int32}
    {st st' : Binary22} {P : List (Nat × Int32)} (hm : PhysFor P st.maps) (hr : st.Ready nt.toInt.toNat k) {n : Nat} {d : Bytes} {s' : Stream}
    (h : loopN (fun _ st => loadElementBinary22 cfg N ty nt st) m i (o, st) (after n d) = .ok ((o', st'), s')) :
    ∃ phys, SkipsMembers dim nt.toInt.toNat k m st.tags (d.drop n) st'.tags phys ∧ PhysFor (P ++ phys) st'.maps := by
  induction m generalizing i o st P n with
  | zero => cases h; exact ⟨[], .zero, by rwa [List.append_nil]⟩
  | succ m ih =>
    rw [loopN, Rd.bind_def] at h
    cases h1 : loadElementBinary22 cfg N ty nt (o, st) (after n d) with
    | ok q =>
      obtain ⟨⟨o1, st1⟩, s1⟩ := q
      rw [h1] at h
      obtain ⟨e1, rfl, hr1, hm1⟩ := member_ok hc hk hd hm hr h1
      obtain ⟨phys, h2, h3⟩ := ih (i + 1) hm1 hr1 h
      rw [← List.drop_drop] at h2
      exact ⟨_, .next e1 h2, by rwa [← List.append_assoc]⟩
    | throw e => rw [h1] at h; cases h
    | abort => rw [h1] at h; cases h
    | ub => rw [h1] at h; cases h
    | hang => rw [h1] at h; cases h

theorem GroupsExhaust.room {cfg : Cfg} {N R p : Nat} {d : Bytes} (h : GroupsExhaust cfg N R p d) : p ≤ R := by
  induction h with
  | tags => assumption
  | full => assumption
  | next _ _ _ _ _ _ _ _ _ ih => omega

theorem groups22_exhaust_iff {cfg : Cfg} {N : UInt64} (hc : 57 ≤ cfg.maxCount) (hN' : N.toNat ≤ cfg.maxCount) (ents : Entities) {g : Binary22 → Rd α}
    (hg : ∀ {P : List (Nat × Int32)} {st : Binary22}, PhysFor P st.maps → ∀ s, g st s = .throw .alloc ↔ ¬ RoomForAll cfg ents P) (fuel : Nat) {B : Nat} {st : Binary22} {d : Bytes}
    (hl : d.length < fuel) (hf : st.Fits cfg N.toNat B) {P : List (Nat × Int32)} (hm : PhysFor P st.maps) :
    (loadElementGroups22 cfg N fuel st >>= g) (gs d) = .throw .alloc ↔ GroupsExhaust cfg N.toNat (cfg.maxCount - B) st.processed.toNat d ∨
      ∃ phys, SkipsGroups cfg N.toNat (cfg.maxCount - B) st.processed.toNat st.tags d phys ∧ ¬ RoomForAll cfg ents (P ++ phys) := by
  induction fuel generalizing st d P with
  | zero => omega
  | succ fuel ih =>
    rw [loadElementGroups22]
    by_cases hp : st.processed = N
    · rw [if_pos hp]
      have hp' : st.processed.toNat = N.toNat := by rw [hp]
      refine (hg hm (gs d)).trans ⟨fun h => Or.inr ⟨[], by rw [hp']; exact .done, by rwa [List.append_nil]⟩, fun h => ?_⟩
      rcases h with h | ⟨phys, h, h2⟩
      · cases h <;> contradiction
      · generalize st.processed.toNat = p at h hp'
        cases h with
        | done => rwa [List.append_nil] at h2
        | next => contradiction
    rw [if_neg hp, Rd.bind_assoc]
    have hp' : st.processed.toNat ≠ N.toNat := fun h => hp (UInt64.toNat_inj.mp h)
    have hpN := hf.le
    by_cases h12 : d.length < 12
    · rw [Rd.bind_ub (groupBinary22_short cfg N st h12)]
      refine ⟨(fun h => by cases h), fun h => ?_⟩
      rcases h with h | ⟨phys, h, -⟩
      · cases h with
        | tags => simp at h12; omega
        | full _ _ hg => rw [hg.1] at h12; simp at h12; omega
        | next _ hg => rw [hg.1] at h12; simp at h12; omega
      · generalize st.processed.toNat = p at h hp'
        cases h with
        | done => contradiction
        | next _ hg => rw [hg.1] at h12; simp at h12; omega
    obtain ⟨ty, nb, nt, r, rfl⟩ := startsGroup_of (Nat.not_lt.mp h12)
    have invE : GroupsExhaust cfg N.toNat (cfg.maxCount - B) st.processed.toNat (encI32 ty ++ (encI32 nb ++ (encI32 nt ++ r))) →
        (nt.toInt < 0 ∨ cfg.maxCount < nt.toInt) ∨ ((0 ≤ nt.toInt ∧ nt.toInt ≤ cfg.maxCount) ∧ ∃ k, mshNodes ty = some k ∧
          ((nt.toInt < 2 ^ 29 ∧ 4 ≤ r.length ∧ cfg.maxCount - B < st.processed.toNat + asSize nb ∧ cfg.maxCount - B ≤ N.toNat) ∨
            ((nt.toInt < 2 ^ 29 ∨ nb = 0) ∧ 0 ≤ nb.toInt ∧ st.processed.toNat + nb.toInt.toNat ≤ N.toNat ∧ groupBytes nb nt k ≤ r.length ∧
              GroupsExhaust cfg N.toNat (cfg.maxCount - B) (st.processed.toNat + nb.toInt.toNat) (r.drop (groupBytes nb nt k))))) := by
      intro h
      generalize hd : encI32 ty ++ (encI32 nb ++ (encI32 nt ++ r)) = d at h
      cases h with
      | tags _ _ ht =>
        obtain ⟨rfl, rfl, rfl, rfl⟩ := header_inj hd
        exact Or.inl ht
      | full _ _ hg h0 h29 hm h4 hR hN =>
        obtain ⟨e, hk⟩ := hg
        obtain ⟨rfl, rfl, rfl, rfl⟩ := header_inj (hd.trans e)
        exact Or.inr ⟨⟨h0, hm⟩, _, hk, Or.inl ⟨h29, h4, hR, hN⟩⟩
      | next _ hg h0 h29 hm hb hle hr hn =>
        obtain ⟨e, hk⟩ := hg
        obtain ⟨rfl, rfl, rfl, rfl⟩ := header_inj (hd.trans e)
        exact Or.inr ⟨⟨h0, hm⟩, _, hk, Or.inr ⟨h29, hb, hle, hr, hn⟩⟩
    have invS : ∀ {phys}, SkipsGroups cfg N.toNat (cfg.maxCount - B) st.processed.toNat st.tags (encI32 ty ++ (encI32 nb ++ (encI32 nt ++ r))) phys →
        (0 ≤ nt.toInt ∧ nt.toInt ≤ cfg.maxCount) ∧ ∃ k dim, mshNodes ty = some k ∧ mshDim ty = some dim ∧ (nt.toInt < 2 ^ 29 ∨ nb = 0) ∧ 0 ≤ nb.toInt ∧ (nb = 0 ∨ 4 ≤ r.length) ∧
          st.processed.toNat + nb.toInt.toNat ≤ N.toNat ∧ st.processed.toNat + nb.toInt.toNat ≤ cfg.maxCount - B ∧ ∃ tags' p p', phys = p ++ p' ∧
          SkipsMembers dim nt.toInt.toNat k nb.toInt.toNat (blocksFor st.tags nt.toInt.toNat 0) r tags' p ∧
          SkipsGroups cfg N.toNat (cfg.maxCount - B) (st.processed.toNat + nb.toInt.toNat) tags' (r.drop (groupBytes nb nt k)) p' := by
      intro phys h
      generalize hd : encI32 ty ++ (encI32 nb ++ (encI32 nt ++ r)) = d at h
      generalize hpp : st.processed.toNat = p at h hp'
      cases h with
      | done => contradiction
      | next _ hg hdim h0 h29 hm hb h4 hle hR hs hn =>
        obtain ⟨e, hk⟩ := hg
        obtain ⟨rfl, rfl, rfl, rfl⟩ := header_inj (hd.trans e)
        exact ⟨⟨h0, hm⟩, _, _, hk, hdim, h29, hb, h4, hle, hR, _, _, _, rfl, hs, hn⟩
    have hstart := groupBinary22_header cfg N st ty nb nt r
    by_cases hnt : (sizeOfInt nt).toNat ≤ cfg.maxCount
    swap
    · have : loadElementGroupBinary22 cfg N st (gs (encI32 ty ++ (encI32 nb ++ (encI32 nt ++ r)))) = .throw .alloc := by
        rw [hstart]
        unfold resize vecResize
        rw [if_neg hnt]
        rfl
      rw [Rd.bind_def, this]
      exact ⟨fun _ => Or.inl (.tags hp' hf.room ((sizeOfInt_exceeds nt).mp (by omega))), fun _ => rfl⟩
    have hnt' := (sizeOfInt_fits nt).mp hnt
    have ht : vecResize cfg st.tags (sizeOfInt nt) 0 = .ok (blocksFor st.tags nt.toInt.toNat 0) := by
      unfold vecResize
      rw [if_pos hnt, sizeOfInt_toNat hnt'.1]
      rfl
    have htl : (blocksFor st.tags nt.toInt.toNat 0).length = nt.toInt.toNat := resized_length ..
    generalize htags : blocksFor st.tags nt.toInt.toNat 0 = tags at ht htl invS
    unfold resize at hstart
    rw [ht, Rd.bind_ok (show Rd.lift (Outcome.ok _) (gs r) = .ok (_, _) from rfl)] at hstart
    have invE' := fun h => (invE h).resolve_left (by omega)
    cases hk : mshNodes ty with
    | none =>
      rw [mshNodes_none hk] at hstart
      have : loadElementGroupBinary22 cfg N st (gs (encI32 ty ++ (encI32 nb ++ (encI32 nt ++ r)))) = .throw .unsupportedFeature := hstart
      rw [Rd.bind_def, this]
      refine ⟨(fun h => by cases h), fun h => ?_⟩
      rcases h with h | ⟨phys, h, -⟩
      · obtain ⟨-, k, h, -⟩ := invE' h
        rw [hk] at h; cases h
      · obtain ⟨-, k, _, h, -⟩ := invS h
        rw [hk] at h; cases h
    | some k =>
      obtain ⟨hn, h56, h1⟩ := nodesPerElement_of_mshNodes hk
      obtain ⟨dim, hdim, -⟩ := mshDim_of_mshNodes hk
      have hk64 : (UInt64.ofNat k).toNat = k := by rw [UInt64.toNat_ofNat']; omega
      obtain ⟨ids, hi, hil⟩ := vecResize_runs (cfg := cfg) (n := UInt64.ofNat k) (by omega) st.nodeIds 0
      rw [hk64] at hil
      rw [hn, Rd.bind_ok (show Rd.lift (Outcome.ok _) (gs r) = .ok (_, _) from rfl), hi, Rd.bind_ok (show Rd.lift (Outcome.ok _) (gs r) = .ok (_, _) from rfl)] at hstart
      replace invE' : GroupsExhaust cfg N.toNat (cfg.maxCount - B) st.processed.toNat (encI32 ty ++ (encI32 nb ++ (encI32 nt ++ r))) →
          ((nt.toInt < 2 ^ 29 ∧ 4 ≤ r.length ∧ cfg.maxCount - B < st.processed.toNat + asSize nb ∧ cfg.maxCount - B ≤ N.toNat) ∨
            ((nt.toInt < 2 ^ 29 ∨ nb = 0) ∧ 0 ≤ nb.toInt ∧ st.processed.toNat + nb.toInt.toNat ≤ N.toNat ∧ groupBytes nb nt k ≤ r.length ∧
              GroupsExhaust cfg N.toNat (cfg.maxCount - B) (st.processed.toNat + nb.toInt.toNat) (r.drop (groupBytes nb nt k)))) := by
        intro h
        obtain ⟨-, k', hk', h⟩ := invE' h
        rw [hk] at hk'; cases hk'; exact h
      replace invS : ∀ {phys}, SkipsGroups cfg N.toNat (cfg.maxCount - B) st.processed.toNat st.tags (encI32 ty ++ (encI32 nb ++ (encI32 nt ++ r))) phys →
          (nt.toInt < 2 ^ 29 ∨ nb = 0) ∧ 0 ≤ nb.toInt ∧ (nb = 0 ∨ 4 ≤ r.length) ∧ st.processed.toNat + nb.toInt.toNat ≤ N.toNat ∧
            st.processed.toNat + nb.toInt.toNat ≤ cfg.maxCount - B ∧ ∃ tags' p p', phys = p ++ p' ∧ SkipsMembers dim nt.toInt.toNat k nb.toInt.toNat tags r tags' p ∧
            SkipsGroups cfg N.toNat (cfg.maxCount - B) (st.processed.toNat + nb.toInt.toNat) tags' (r.drop (groupBytes nb nt k)) p' := by
        intro phys h
        obtain ⟨-, k', dim', hk', hdim', h⟩ := invS h
        rw [hk] at hk'; cases hk'
        rw [hdim] at hdim'; cases hdim'
        exact h
      have hsg : StartsGroup (encI32 ty ++ (encI32 nb ++ (encI32 nt ++ r))) ty nb nt k r := ⟨rfl, hk⟩
      have hnb := toNat_sizeOfInt nb
      have hnb2 := nb.le_toInt
      have hnb3 := nb.toInt_lt
      have hnb0 : nb = 0 ↔ nb.toInt = 0 := by rw [← Int32.toInt_inj]; rfl
      have hnbm : nb ≠ 0 → (sizeOfInt nb).toNat ≠ 0 := by
        intro h h'
        rw [h'] at hnb
        apply h
        rw [hnb0]
        split at hnb <;> omega
      have has := asSize_eq nb
      have hgpos : nb ≠ 0 → 0 ≤ nb.toInt → 4 ≤ groupBytes nb nt k := fun h0 hp => by
        have : 1 ≤ nb.toInt.toNat := by have : nb.toInt ≠ 0 := fun h => h0 (hnb0.mpr h); omega
        unfold groupBytes
        calc 4 ≤ 1 * (4 * (1 + nt.toInt.toNat + k)) := by omega
          _ ≤ _ := Nat.mul_le_mul_right _ this
      have ubs : loopN (fun _ st => loadElementBinary22 cfg N ty nt st) (sizeOfInt nb).toNat 0 (none, { st with tags := tags, nodeIds := ids }) (gs r) = .ub →
          ¬ GroupsExhaust cfg N.toNat (cfg.maxCount - B) st.processed.toNat (encI32 ty ++ (encI32 nb ++ (encI32 nt ++ r))) →
          (∀ phys, ¬ SkipsGroups cfg N.toNat (cfg.maxCount - B) st.processed.toNat st.tags (encI32 ty ++ (encI32 nb ++ (encI32 nt ++ r))) phys) →
          ((loadElementGroupBinary22 cfg N st >>= fun st => loadElementGroups22 cfg N fuel st >>= g) (gs (encI32 ty ++ (encI32 nb ++ (encI32 nt ++ r)))) = .throw .alloc ↔
            GroupsExhaust cfg N.toNat (cfg.maxCount - B) st.processed.toNat (encI32 ty ++ (encI32 nb ++ (encI32 nt ++ r))) ∨
            ∃ phys, SkipsGroups cfg N.toNat (cfg.maxCount - B) st.processed.toNat st.tags (encI32 ty ++ (encI32 nb ++ (encI32 nt ++ r))) phys ∧ ¬ RoomForAll cfg ents (P ++ phys)) := by
        intro hu hg hg'
        rw [Rd.bind_ub hu] at hstart
        rw [Rd.bind_ub hstart]
        exact ⟨(fun h => by cases h), fun h => h.elim (fun h => absurd h hg) fun ⟨p, h, _⟩ => absurd h (hg' p)⟩
      by_cases hb29 : nb ≠ 0 ∧ 2 ^ 29 ≤ nt.toInt
      · refine ubs (elementsLoop22_ub (hnbm hb29.1) (elementBinary22_tags hb29.2 _ _)) (fun h => ?_) fun p h => ?_
        · rcases invE' h with h | h
          · omega
          · exact h.1.elim (by omega) hb29.1
        · exact (invS h).1.elim (by omega) hb29.1
      by_cases hb4 : nb ≠ 0 ∧ r.length < 4
      · refine ubs (elementsLoop22_ub (hnbm hb4.1) (elementBinary22_first (Int.not_le.mp fun h => hb29 ⟨hb4.1, h⟩) hb4.2)) (fun h => ?_) fun p h => ?_
        · rcases invE' h with h | h
          · omega
          · have := hgpos hb4.1 h.2.1
            omega
        · exact (invS h).2.2.1.elim hb4.1 (by omega)
      by_cases hz : nb = 0
      · -- an empty group
        subst hz
        have hg0 : groupBytes 0 nt k = 0 := by unfold groupBytes; simp
        have : loadElementGroupBinary22 cfg N st (gs (encI32 ty ++ (encI32 0 ++ (encI32 nt ++ r)))) = .ok (⟨tags, ids, st.minTag, st.maxTag, st.processed, st.blocks, st.maps⟩, gs r) := hstart
        rw [Rd.bind_ok this]
        have ih' := ih (st := ⟨tags, ids, st.minTag, st.maxTag, st.processed, st.blocks, st.maps⟩) (d := r) (by simp at hl; omega) ⟨hf.maps, hf.le, hf.room, hf.blocks⟩ hm
        have hz : (0 : Int32).toInt.toNat = 0 := by decide
        rw [hg0, hz, List.drop_zero, Nat.add_zero] at invE'
        simp only [hg0, hz, List.drop_zero, Nat.add_zero] at invS
        refine ih'.trans (or_congr ⟨fun h => ?_, fun h => ?_⟩ (exists_congr fun phys => and_congr_left fun _ => ⟨fun h => ?_, fun h => ?_⟩))
        · refine .next hp' hsg hnt'.1 (Or.inr rfl) hnt'.2 (by simp) (by simpa using hf.le) (by rw [hg0]; omega) ?_
          rw [hg0]
          simpa using h
        · rcases invE' h with h | h
          · have h0 : (sizeOfInt 0).toNat = 0 := rfl
            have := hf.room
            omega
          · exact h.2.2.2.2
        · refine SkipsGroups.next (phys := []) (phys' := phys) (tags' := tags) hp' hsg hdim hnt'.1 (Or.inr rfl) hnt'.2 (by simp) (Or.inl rfl) (by simpa using hf.le) (by simpa using hf.room) ?_ ?_
          · rw [htags, hz]; exact .zero
          · rw [hg0, hz, List.drop_zero, Nat.add_zero]; exact h
        · obtain ⟨-, -, -, -, -, tags', p, p', rfl, h1, h2⟩ := invS h
          cases h1
          exact h2
      have h29 : nt.toInt < 2 ^ 29 := Int.not_le.mp fun h => hb29 ⟨hz, h⟩
      have h4 : 4 ≤ r.length := Nat.not_lt.mp fun h => hb4 ⟨hz, h⟩
      have hloop := elementsLoop22_gs (cfg := cfg) (N := N) hk hnt'.1 h29 hc hN' (sizeOfInt nb).toNat 0 (o := none)
        (st := ⟨tags, ids, st.minTag, st.maxTag, st.processed, st.blocks, st.maps⟩) ⟨hf.maps, hf.le, hf.room, hf.blocks⟩ ⟨htl, hil⟩ (d := r) (fun _ => Or.inr h4)
      have hbl := hf.blocks
      unfold Counts at hloop
      by_cases hle : st.processed.toNat + (sizeOfInt nb).toNat ≤ N.toNat ∧ st.processed.toNat + (sizeOfInt nb).toNat ≤ cfg.maxCount - B
      · rw [if_pos hle] at hloop
        obtain ⟨o, st', hrun, hf', hr', hpr⟩ := hloop
        have hmax := cfg.maxCount_lt
        have hpos : 0 ≤ nb.toInt := by split at hnb <;> omega
        rw [sizeOfInt_toNat hpos] at hle hrun hpr hstart
        obtain ⟨p, hs, hm'⟩ := members_ok hc hk hdim nb.toInt.toNat 0 (o := none) (st := ⟨tags, ids, st.minTag, st.maxTag, st.processed, st.blocks, st.maps⟩) hm ⟨htl, hil⟩
          (n := 0) (d := r) (by rw [after_zero]; exact hrun)
        rw [List.drop_zero] at hs
        rw [Rd.bind_ok hrun] at hstart
        rw [Rd.bind_ok hstart]
        have hpr' : st'.processed.toNat = st.processed.toNat + nb.toInt.toNat := hpr
        have hgb : nb.toInt.toNat * (4 * (1 + nt.toInt.toNat + k)) = groupBytes nb nt k := rfl
        rw [sizeOfInt_toNat hpos] at has
        rw [hgb]
        have up : ∀ {p'}, SkipsGroups cfg N.toNat (cfg.maxCount - B) st'.processed.toNat st'.tags (r.drop (groupBytes nb nt k)) p' →
            SkipsGroups cfg N.toNat (cfg.maxCount - B) st.processed.toNat st.tags (encI32 ty ++ (encI32 nb ++ (encI32 nt ++ r))) (p ++ p') := fun h =>
          .next hp' hsg hdim hnt'.1 (Or.inl h29) hnt'.2 hpos (Or.inr h4) hle.1 hle.2 (htags ▸ hs) (hpr' ▸ h)
        have down : ∀ {q}, SkipsGroups cfg N.toNat (cfg.maxCount - B) st.processed.toNat st.tags (encI32 ty ++ (encI32 nb ++ (encI32 nt ++ r))) q →
            ∃ p', q = p ++ p' ∧ SkipsGroups cfg N.toNat (cfg.maxCount - B) st'.processed.toNat st'.tags (r.drop (groupBytes nb nt k)) p' := fun h => by
          obtain ⟨-, -, -, -, -, tags', q, p', rfl, h1, h2⟩ := invS h
          obtain ⟨rfl, rfl⟩ := hs.unique h1
          exact ⟨p', rfl, hpr' ▸ h2⟩
        have tail : (∃ phys, SkipsGroups cfg N.toNat (cfg.maxCount - B) st'.processed.toNat st'.tags (r.drop (groupBytes nb nt k)) phys ∧ ¬ RoomForAll cfg ents (P ++ p ++ phys)) ↔
            ∃ phys, SkipsGroups cfg N.toNat (cfg.maxCount - B) st.processed.toNat st.tags (encI32 ty ++ (encI32 nb ++ (encI32 nt ++ r))) phys ∧ ¬ RoomForAll cfg ents (P ++ phys) := by
          constructor
          · rintro ⟨p', h, h'⟩
            exact ⟨_, up h, by rwa [← List.append_assoc]⟩
          · rintro ⟨_, h, h'⟩
            obtain ⟨p', rfl, hd⟩ := down h
            exact ⟨p', hd, by rwa [List.append_assoc]⟩
        by_cases hlen : groupBytes nb nt k ≤ r.length
        · rw [after_gs hlen]
          have ih' := ih (st := st') (d := r.drop (groupBytes nb nt k)) (by simp at hl ⊢; omega) hf' hm'
          refine ih'.trans (or_congr ⟨fun h => .next hp' hsg hnt'.1 (Or.inl h29) hnt'.2 hpos hle.1 hlen (hpr' ▸ h), fun h => ?_⟩ tail)
          rcases invE' h with h | h
          · omega
          · exact hpr' ▸ h.2.2.2.2
        · rw [after_spent (by omega)]
          have hnoE : ¬ GroupsExhaust cfg N.toNat (cfg.maxCount - B) st.processed.toNat (encI32 ty ++ (encI32 nb ++ (encI32 nt ++ r))) := fun h => by
            rcases invE' h with h | h
            · omega
            · exact absurd h.2.2.2.1 hlen
          have hnil : r.drop (groupBytes nb nt k) = [] := List.drop_eq_nil_of_le (by omega)
          rw [← tail, hnil]
          have hbad : loadElementGroups22 cfg N fuel st' spent = if st'.processed = N then .ok (st', spent) else .ub := groups22_bad (by simp at hl; omega) ..
          by_cases hq : st'.processed = N
          · rw [if_pos hq] at hbad
            rw [Rd.bind_ok hbad]
            have hq' : st'.processed.toNat = N.toNat := by rw [hq]
            refine (hg hm' _).trans ⟨fun h => Or.inr ⟨[], by rw [hq']; exact .done, by rwa [List.append_nil]⟩, fun h => ?_⟩
            obtain ⟨p', h1, h2⟩ := h.resolve_left hnoE
            generalize st'.processed.toNat = q at h1 hq'
            cases h1 with
            | done => rwa [List.append_nil] at h2
            | next => contradiction
          · rw [if_neg hq] at hbad
            rw [Rd.bind_ub hbad]
            have hq' : st'.processed.toNat ≠ N.toNat := fun h => hq (UInt64.toNat_inj.mp h)
            refine ⟨(fun h => by cases h), fun h => ?_⟩
            obtain ⟨p', h1, h2⟩ := h.resolve_left hnoE
            generalize st'.processed.toNat = q at h1 hq'
            generalize hd : ([] : Bytes) = d at h1
            cases h1 with
            | done => contradiction
            | next _ hg => subst hd; have := congrArg List.length hg.1; simp at this; omega
      · rw [if_neg hle] at hloop
        rw [Rd.bind_def, hloop] at hstart
        rw [Rd.bind_def]
        have hmax := cfg.maxCount_lt
        replace hstart : loadElementGroupBinary22 cfg N st (gs (encI32 ty ++ (encI32 nb ++ (encI32 nt ++ r)))) =
          .throw (if N.toNat < cfg.maxCount - B then .invalidFormat else .alloc) := hstart
        rw [hstart]
        have hnoS : ∀ phys, ¬ SkipsGroups cfg N.toNat (cfg.maxCount - B) st.processed.toNat st.tags (encI32 ty ++ (encI32 nb ++ (encI32 nt ++ r))) phys := fun phys h => by
          obtain ⟨-, h0, -, h1, h2, -⟩ := invS h
          have := sizeOfInt_toNat (x := nb) h0
          omega
        refine ⟨fun h => ?_, fun h => ?_⟩
        · injection h with h
          by_cases hR : N.toNat < cfg.maxCount - B
          · rw [if_pos hR] at h; cases h
          · refine Or.inl (.full hp' hf.room hsg hnt'.1 h29 hnt'.2 h4 ?_ (by omega))
            omega
        · rcases h with h | ⟨p, h, -⟩
          · rcases invE' h with h | h
            · dsimp only
              rw [if_neg (by omega)]
            · exfalso
              have := sizeOfInt_toNat (x := nb) h.2.1
              have := h.2.2.2.2.room
              omega
          · exact absurd h (hnoS p)

theorem exhausts_elementsBinary22 {cfg : Cfg} (hc57 : 57 ≤ cfg.maxCount) {s : MshSpec} {e : Elements} (he : e.entityBlocks = s.elements.entityBlocks)
    (hn : e.numElements = s.elements.numElements) (x : Place) : ThrowsAt .alloc (loadElementsBinary22 cfg e s.entities) x (Elements22Exhaust cfg s x) := by
  unfold loadElementsBinary22 Elements22Exhaust
  rw [← he, ← hn]
  refine ThrowsAt.iff (Q := ∃ N y, (∃ v, TakesSize x v y ∧ N = v.getD e.numElements) ∧ (cfg.maxCount < N.toNat ∨ ∃ d, DataFrom y d ∧
    (GroupsExhaust cfg N.toNat (cfg.maxCount - e.entityBlocks.length) 0 d ∨
      ∃ phys, SkipsGroups cfg N.toNat (cfg.maxCount - e.entityBlocks.length) 0 [] d phys ∧ ¬ RoomForAll cfg s.entities phys))) ?_ ?_
  · refine ThrowsAt.yields (inSize_yields _) fun N y _ => ?_
    unfold vecReserve
    by_cases hN : N.toNat ≤ cfg.maxCount
    swap
    · rw [if_neg hN]
      exact fun st _ => ⟨fun _ => Or.inl (by omega), fun _ => rfl⟩
    rw [if_pos hN]
    refine ThrowsAt.lift rfl (ThrowsAt.iff (ThrowsAt.eat fun d st hd hs => ?_) ⟨fun h => Or.inr h, fun h => h.resolve_left (by omega)⟩)
    obtain ⟨mk, hmk⟩ : ∃ mk : Binary22 → Entities → Elements × Entities, mk = fun st ents => ({
      numEntityBlocks := sizeU st.blocks
      numElements := N
      minElementTag := if sizeOfInt st.minTag < e.minElementTag then sizeOfInt st.minTag else e.minElementTag
      maxElementTag := if e.maxElementTag < sizeOfInt st.maxTag then sizeOfInt st.maxTag else e.maxElementTag
      entityBlocks := st.blocks }, ents) := ⟨_, rfl⟩
    have hg : ∀ {P : List (Nat × Int32)} {b : Binary22}, PhysFor P b.maps →
        ∀ t, (Rd.lift (createAllEntities cfg b.maps s.entities) >>= fun ents => (pure (mk b ents) : Rd (Elements × Entities))) t = .throw .alloc ↔ ¬ RoomForAll cfg s.entities P :=
      fun h t => create_exhausts h s.entities (fun _ _ h => by cases h) t
    refine Iff.trans (b := ((fun s => loadElementGroups22 cfg N (s.rem.length + 2) { blocks := e.entityBlocks } s) >>= fun st =>
      Rd.lift (createAllEntities cfg st.maps s.entities) >>= fun ents => (pure (mk st ents) : Rd (Elements × Entities))) st = .throw .alloc) (by rw [hmk]) ?_
    clear hmk
    rcases hs with ⟨-, rfl⟩ | ⟨rfl, hb⟩
    · exact groups22_exhaust_iff (B := e.entityBlocks.length) (st := { blocks := e.entityBlocks }) (d := d) (P := []) hc57 hN s.entities hg (d.length + 2) (by omega)
        ⟨rfl, Nat.zero_le _, Nat.zero_le _, rfl⟩ PhysFor.start
    · have hlost := groups22_lost (cfg := cfg) (N := N) (fuel := st.rem.length + 1) { blocks := e.entityBlocks } hb
      refine Iff.trans (b := (((loadElementGroups22 cfg N (st.rem.length + 2) { blocks := e.entityBlocks }) >>= fun st => Rd.lift (createAllEntities cfg st.maps s.entities) >>= fun ents =>
        (pure (mk st ents) : Rd (Elements × Entities))) st = .throw .alloc)) Iff.rfl ?_
      by_cases h0 : 0 = N
      · rw [Rd.bind_ok (hlost.trans (if_pos h0))]
        refine (hg (P := []) PhysFor.start st).trans ⟨fun h => Or.inr ⟨[], by rw [← h0]; exact .done, h⟩, fun h => ?_⟩
        subst h0
        rcases h with h | ⟨p, h, h'⟩
        · cases h <;> contradiction
        · generalize hz : (0 : UInt64).toNat = z at h
          cases h with
          | done => exact h'
          | next hn => exact absurd hz.symm (fun h => hn (by rw [← hz]; rfl))
      · rw [Rd.bind_ub (hlost.trans (if_neg h0))]
        refine ⟨(fun h => by cases h), fun h => ?_⟩
        generalize hd : ([] : Bytes) = d at h
        have hd := congrArg List.length hd
        rcases h with h | ⟨p, h, -⟩
        · cases h with
          | tags => simp at hd; omega
          | full _ _ hg => rw [hg.1] at hd; simp at hd; omega
          | next _ hg => rw [hg.1] at hd; simp at hd; omega
        · generalize hz : N.toNat = z at h
          cases h with
          | done => exact absurd (UInt64.toNat_inj.mp hz).symm h0
          | next _ hg => rw [hg.1] at hd; simp at hd; omega
  · constructor
    · rintro ⟨_, y, ⟨v, h1, rfl⟩, h⟩
      exact ⟨v, y, h1, h⟩
    · rintro ⟨v, y, h1, h⟩
      exact ⟨_, y, ⟨v, h1, rfl⟩, h⟩

end MshIO
