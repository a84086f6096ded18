import Verif.Proofs.Rejected

/-! # When reading elements ends with an exception of the library -/

namespace MshIO

/-! ## Version 4.1, binary -/

theorem elementHead_exists (b : ElementBlock) (d : Bytes) :
    ∃ (t : Int32) (num : UInt64), encI32 t ++ encU64 num = Over d (encI32 b.elementType ++ encU64 b.numElementsInBlock) := by
  have hl : (Over d (encI32 b.elementType ++ encU64 b.numElementsInBlock)).length = 12 := by rw [over_length]; simp
  generalize Over d (encI32 b.elementType ++ encU64 b.numElementsInBlock) = x at hl ⊢
  refine ⟨decodeI32 (x.take 4), decodeU64 (x.drop 4), ?_⟩
  rw [encI32_decodeI32 (by simp; omega), encU64_decodeU64 _ (by simp; omega), List.take_append_drop]

theorem elementHead_inj {t t' : Int32} {n n' : UInt64} (h : encI32 t ++ encU64 n = encI32 t' ++ encU64 n') : t = t' ∧ n = n' := by
  obtain ⟨h1, h2⟩ := List.append_inj h (by simp)
  exact ⟨by simpa using congrArg decodeI32 h1, by simpa using congrArg decodeU64 h2⟩

theorem readInt_any (o : Int32) (n : Nat) (d : Bytes) : ∃ v, encI32 v = Over (d.drop n) (encI32 o) ∧ readInt o (after n d) = .ok (v, after (n + 4) d) := by
  have h : encI32 (decodeI32 (Over (d.drop n) (encI32 o))) = Over (d.drop n) (encI32 o) := encI32_decodeI32 (by rw [over_length, encI32_length])
  exact ⟨_, h, readInt_over _ _ _ h⟩

theorem endOf_throw {α : Type} {e : Exc} {o : Outcome (α × Stream)} : endOf o = .throw e ↔ o = .throw e := by
  cases o with
  | ok p => exact ⟨(fun h => by cases h), fun h => by cases h⟩
  | throw x => exact ⟨fun h => by injection h with h; rw [h], fun h => by injection h with h; rw [h]; rfl⟩
  | abort => exact ⟨(fun h => by cases h), fun h => by cases h⟩
  | ub => exact ⟨(fun h => by cases h), fun h => by cases h⟩
  | hang => exact ⟨(fun h => by cases h), fun h => by cases h⟩

theorem elementBlockBinary_end (cfg : Cfg) (b : ElementBlock) (n : Nat) (d : Bytes) {t : Int32} {num : UInt64}
    (h : encI32 t ++ encU64 num = Over ((d.drop n).drop 8) (encI32 b.elementType ++ encU64 b.numElementsInBlock)) :
    endOf (loadElementBlockBinary41 cfg b (after n d)) = match mshNodes t with
      | none => .throw .unsupportedFeature
      | some k => if num.toNat * (k + 1) % 2 ^ 64 ≤ cfg.maxCount then
          if cfg.asserts = true → n + (20 + 8 * (num.toNat * (k + 1) % 2 ^ 64)) ≤ d.length then .ok (after (n + (20 + 8 * (num.toNat * (k + 1) % 2 ^ 64))) d) else .abort
        else .throw .alloc := by
  rw [over_append] at h
  simp only [List.drop_drop, encI32_length] at h
  obtain ⟨h3, h4⟩ := List.append_inj h (by simp [over_length])
  obtain ⟨_, -, e1⟩ := readInt_any b.entityDim n d
  obtain ⟨_, -, e2⟩ := readInt_any b.entityTag (n + 4) d
  unfold loadElementBlockBinary41
  rw [Rd.bind_ok e1, Rd.bind_ok e2, Rd.bind_ok (readInt_over _ (n + 4 + 4) d h3), Rd.bind_ok (readSize_over _ (n + 4 + 4 + 4) d h4)]
  cases hk : mshNodes t with
  | none => rw [mshNodes_none hk]; rfl
  | some k =>
    obtain ⟨hn, h56, -⟩ := nodesPerElement_of_mshNodes hk
    have hN : (num * (UInt64.ofNat k + 1)).toNat = num.toNat * (k + 1) % 2 ^ 64 := by
      rw [UInt64.toNat_mul, UInt64.toNat_add, UInt64.toNat_ofNat']
      have : (k % 2 ^ 64 + (1 : UInt64).toNat) % 2 ^ 64 = k + 1 := by show (k % 2 ^ 64 + 1) % 2 ^ 64 = k + 1; omega
      rw [this]
    rw [Rd.bind_ok (Rd.lift_ok hn _)]
    dsimp only
    by_cases hm : num.toNat * (k + 1) % 2 ^ 64 ≤ cfg.maxCount
    swap
    · rw [if_neg hm, Rd.bind_def, resize_after, hN, if_neg hm]
      rfl
    rw [if_pos hm, Rd.bind_ok ((resize_after ..).trans (if_pos (hN ▸ hm))), hN]
    generalize num.toNat * (k + 1) % 2 ^ 64 = K at hm ⊢
    obtain ⟨l, hl⟩ := readSizes_over (b.data.take K ++ List.replicate (K - b.data.length) 0) (n + 4 + 4 + 4 + 8) d
    rw [resized_length] at hl
    rw [Rd.bind_ok hl]
    by_cases ha : cfg.asserts = true → n + (20 + 8 * K) ≤ d.length
    · rw [if_pos ha, Rd.bind_ok ((assertGood_after ..).trans (if_pos fun h => by have := ha h; omega))]
      show Outcome.ok (after _ d) = _
      congr 2
      omega
    · rw [if_neg ha, Rd.bind_def, assertGood_after, if_neg (fun h => ha fun h' => by have := h h'; omega)]
      rfl

theorem elementBlocks_throw_iff {cfg : Cfg} (bs : List ElementBlock) (n : Nat) (d : Bytes) :
    endOf (forEach (loadElementBlockBinary41 cfg) bs (after n d)) = .throw .unsupportedFeature ↔ ElementBlocksUnknown cfg bs (d.drop n) := by
  induction bs generalizing n with
  | nil => exact ⟨(fun h => by cases h), fun h => by cases h⟩
  | cons b bs ih =>
    obtain ⟨t, num, h⟩ := elementHead_exists b ((d.drop n).drop 8)
    have one : ∀ {t' num'}, encI32 t' ++ encU64 num' = Over ((d.drop n).drop 8) (encI32 b.elementType ++ encU64 b.numElementsInBlock) → t' = t ∧ num' = num := fun h' =>
      elementHead_inj (h'.trans h.symm)
    rw [endOf_forEach, elementBlockBinary_end cfg b n d h]
    have hred : ElementBlocksUnknown cfg (b :: bs) (d.drop n) ↔ (mshNodes t = none ∨ ∃ k ∈ mshNodes t, ∃ m, m = num.toNat * (k + 1) % 2 ^ 64 ∧ m ≤ cfg.maxCount ∧
        (cfg.asserts = true → 20 + 8 * m ≤ (d.drop n).length) ∧ ElementBlocksUnknown cfg bs ((d.drop n).drop (20 + 8 * m))) := by
      constructor
      · rintro ⟨t', num', h', h2⟩
        obtain ⟨rfl, rfl⟩ := one h'
        exact h2
      · exact fun h2 => ⟨t, num, h, h2⟩
    rw [hred]
    cases hk : mshNodes t with
    | none => exact ⟨fun _ => Or.inl rfl, fun _ => rfl⟩
    | some k =>
      dsimp only
      by_cases hm : num.toNat * (k + 1) % 2 ^ 64 ≤ cfg.maxCount
      swap
      · rw [if_neg hm]
        refine ⟨(fun h => by cases h), fun h => ?_⟩
        rcases h with h | ⟨_, e, _, rfl, h, -⟩
        · cases h
        · cases e; exact absurd h hm
      rw [if_pos hm]
      by_cases ha : cfg.asserts = true → n + (20 + 8 * (num.toNat * (k + 1) % 2 ^ 64)) ≤ d.length
      swap
      · rw [if_neg ha]
        refine ⟨(fun h => by cases h), fun h => ?_⟩
        rcases h with h | ⟨_, e, _, rfl, -, h, -⟩
        · cases h
        · cases e; exact absurd (fun h' => by have := h h'; simp at this; omega) ha
      rw [if_pos ha]
      show endOf (forEach _ bs (after _ d)) = _ ↔ _
      rw [ih, ← List.drop_drop]
      refine ⟨fun h => Or.inr ⟨k, rfl, _, rfl, hm, fun h' => by have := ha h'; simp; omega, h⟩, fun h => ?_⟩
      rcases h with h | ⟨_, e, _, rfl, -, -, h⟩
      · cases h
      · cases e; exact h

theorem elementsBinary41_throw_iff (cfg : Cfg) (e : Elements) {r d : Bytes} (h : DataAfter r d) :
    loadElementsBinary41 cfg e (payload r) = .throw .unsupportedFeature ↔ Elements41Rejected cfg e d := by
  obtain ⟨st, h1, h2⟩ := eat_start h
  unfold loadElementsBinary41
  rw [Rd.bind_ok h1]
  obtain ⟨N, hN, e1⟩ := readSize_any e.numEntityBlocks 0 d
  obtain ⟨_, -, e2⟩ := readSize_any e.numElements (0 + 8) d
  obtain ⟨_, -, e3⟩ := readSize_any e.minElementTag (0 + 8 + 8) d
  obtain ⟨_, -, e4⟩ := readSize_any e.maxElementTag (0 + 8 + 8 + 8) d
  rw [Rd.bind_ok ((readSize_start _ h2).trans e1), Rd.bind_ok e2, Rd.bind_ok e3, Rd.bind_ok e4]
  have one : ∀ {M : UInt64}, encU64 M = Over d (encU64 e.numEntityBlocks) → M = N := fun h => by
    have := h.trans hN.symm
    simpa using congrArg decodeU64 this
  by_cases ha : cfg.asserts = true → 32 ≤ d.length
  swap
  · rw [Rd.bind_def, assertGood_after, if_neg (fun h => ha fun h' => by have := h h'; omega)]
    exact ⟨(fun h => by cases h), fun h => absurd h.1 ha⟩
  rw [Rd.bind_ok ((assertGood_after ..).trans (if_pos fun h => by have := ha h; omega))]
  by_cases hn : N.toNat ≤ cfg.maxCount
  swap
  · rw [Rd.bind_def, resize_after, if_neg hn]
    refine ⟨(fun h => by cases h), fun ⟨_, M, hM, hm, _⟩ => absurd (one hM ▸ hm) hn⟩
  rw [Rd.bind_ok ((resize_after ..).trans (if_pos hn)), throw_bind (fun _ _ h => by cases h), ← endOf_throw, elementBlocks_throw_iff]
  refine ⟨fun h => ⟨ha, N, hN, hn, h⟩, fun ⟨_, M, hM, _, h⟩ => ?_⟩
  rwa [one hM] at h

/-! ## Version 2.2, text -/

theorem inIntVar_yields (o : Option Int32) : Yields (inIntVar o) fun x a y => ∃ t, TakesInt x t y ∧ a = t.or o where
  sound := by
    rintro x v y st ⟨t, hr, rfl⟩ hc
    obtain ⟨st', e, hs⟩ := extractInt_yields.sound hr hc
    refine ⟨st', ?_, hs⟩
    unfold inIntVar
    rw [Rd.bind_ok e]
    cases t <;> rfl
  total x := by
    obtain ⟨v, y, h⟩ := extractInt_yields.total x
    exact ⟨_, y, v, h, rfl⟩

theorem makeElement22_full {cfg : Cfg} (num ty : Int32) (tags ids : List Int32) {blocks : List ElementBlock} (maps : List PhysMap) (h : ¬ blocks.length < cfg.maxCount) :
    makeElement22 cfg num ty tags ids blocks maps = .throw .alloc := by
  unfold makeElement22 vecPush
  rw [if_neg h]
  rfl

theorem throws_element22 {cfg : Cfg} (hc : 57 ≤ cfg.maxCount) {α : Type} (st : Ascii22) (hm : st.maps.length = 4) (hset : st.numTags ≠ none → st.elementNum ≠ none)
    (K : Ascii22 → Rd α) (Q : Int32 → Int32 → Place → Prop) (x : Place)
    (hK : ∀ st' ty nt y, st'.maps.length = 4 → st'.elementNum ≠ none → st'.elementType = some ty → st'.numTags = some nt → st'.blocks.length = st.blocks.length + 1 →
      ThrowsAt .unsupportedFeature (K st') y (Q ty nt y)) :
    ThrowsAt .unsupportedFeature (loadElementAscii22 cfg st >>= K) x (∃ x1 t x2 k y, SkipsInt x x1 ∧ TakesInt x1 t x2 ∧ TakesInt x2 k y ∧
      ∃ nt' ∈ k.or st.numTags, 0 ≤ nt'.toInt ∧ nt'.toInt ≤ cfg.maxCount ∧ ∃ z, Many SkipsInt nt'.toInt.toNat y z ∧
      ∃ ty' ∈ t.or st.elementType, mshNodes ty' = none ∨ ∃ m ∈ mshNodes ty', ∃ z', Many SkipsInt m z z' ∧ 0 < cfg.maxCount - st.blocks.length ∧ Q ty' nt' z') := by
  rw [loadElementAscii22_eq]
  simp only [elementTail22, Rd.bind_assoc]
  refine (ThrowsAt.yields (inIntVar_yields _) fun en x1 h1 => ThrowsAt.yields (inIntVar_yields _) fun et x2 h2 => ThrowsAt.yields (inIntVar_yields _) fun nt y h3 =>
    (?_ : ThrowsAt _ _ y (∃ nt' ∈ nt, 0 ≤ nt'.toInt ∧ nt'.toInt ≤ cfg.maxCount ∧ ∃ z, Many SkipsInt nt'.toInt.toNat y z ∧
      ∃ ty' ∈ et, mshNodes ty' = none ∨ ∃ m ∈ mshNodes ty', ∃ z', Many SkipsInt m z z' ∧ 0 < cfg.maxCount - st.blocks.length ∧ Q ty' nt' z'))).iff ?_
  · refine ThrowsAt.useVar fun nt' hnt => ?_
    subst hnt
    have hen : ∃ n, en = some n := by
      cases hen : en with
      | some n => exact ⟨n, rfl⟩
      | none =>
        exfalso
        subst hen
        obtain ⟨t1, h1, e1⟩ := h1
        obtain ⟨t2, h2, -⟩ := h2
        obtain ⟨t3, h3, e3⟩ := h3
        cases t1 with
        | some n => simp at e1
        | none =>
          cases t3 with
          | some n =>
            obtain ⟨u, rfl⟩ := takesInt_some h2 h3
            obtain ⟨_, h⟩ := takesInt_some h1 h2
            cases h
          | none =>
            simp only [Option.none_or] at e1 e3
            exact hset (by rw [← e3]; simp) e1.symm
    obtain ⟨n, rfl⟩ := hen
    refine (ThrowsAt.resize (Q := ∃ z, Many SkipsInt nt'.toInt.toNat y z ∧
      ∃ ty' ∈ et, mshNodes ty' = none ∨ ∃ m ∈ mshNodes ty', ∃ z', Many SkipsInt m z z' ∧ 0 < cfg.maxCount - st.blocks.length ∧ Q ty' nt' z') (by decide) fun hf => ?_).iff ?_
    · have hf' := (sizeOfInt_fits nt').mp hf
      refine (ThrowsAt.ints fun tags z _ => ThrowsAt.useVar (Q := fun ty' => mshNodes ty' = none ∨ ∃ m ∈ mshNodes ty', ∃ z', Many SkipsInt m z z' ∧
        0 < cfg.maxCount - st.blocks.length ∧ Q ty' nt' z') fun ty' het => ?_).iff ?_
      rotate_right
      · rw [resized_length, sizeOfInt_toNat hf'.1]
      · subst het
        cases hk : mshNodes ty' with
        | none =>
          intro s _
          rw [mshNodes_none hk]
          exact ⟨fun _ => Or.inl rfl, fun _ => rfl⟩
        | some k =>
          obtain ⟨hn, h56, -⟩ := nodesPerElement_of_mshNodes hk
          have hN : (UInt64.ofNat k).toNat = k := by rw [UInt64.toNat_ofNat']; omega
          refine (ThrowsAt.lift hn (ThrowsAt.resize (by decide) fun _ => ThrowsAt.ints (Q := fun z' => 0 < cfg.maxCount - st.blocks.length ∧ Q ty' nt' z') fun ids z' hl => ?_)).iff ?_
          · rw [resized_length, hN] at hl
            refine (ThrowsAt.useVar (Q := fun _ => 0 < cfg.maxCount - st.blocks.length ∧ Q ty' nt' z') fun n' hn' => ?_).iff ⟨fun ⟨_, _, h⟩ => h, fun h => ⟨n, rfl, h⟩⟩
            by_cases hb : st.blocks.length < cfg.maxCount
            · obtain ⟨b, m, hmk, hm4⟩ := makeElement22_runs (cfg := cfg) n' tags (ids := ids) (blocks := st.blocks) (maps := st.maps) (hl ▸ hk) hb hc hm
              refine (ThrowsAt.lift hmk (hK _ ty' nt' z' hm4 (by simp) rfl rfl (by simp))).iff ⟨fun h => ⟨by omega, h⟩, fun h => h.2⟩
            · rw [makeElement22_full n' ty' tags ids st.maps hb]
              exact fun s _ => ⟨(fun h => by cases h), fun h => absurd h.1 (by omega)⟩
          · rw [resized_length, hN]
            exact ⟨fun ⟨_, z', h⟩ => Or.inr ⟨k, rfl, z', h⟩, fun h => by rcases h with h | ⟨_, e, z', h⟩ <;> [cases h; (cases e; exact ⟨by omega, z', h⟩)]⟩
    · rw [sizeOfInt_fits, and_assoc]
  · constructor
    · rintro ⟨_, x1, ⟨v, h1, rfl⟩, _, x2, ⟨t, h2, rfl⟩, _, y, ⟨k, h3, rfl⟩, h⟩
      exact ⟨x1, t, x2, k, y, ⟨v, h1⟩, h2, h3, h⟩
    · rintro ⟨x1, t, x2, k, y, ⟨v, h1⟩, h2, h3, h⟩
      exact ⟨_, x1, ⟨v, h1, rfl⟩, _, x2, ⟨t, h2, rfl⟩, _, y, ⟨k, h3, rfl⟩, h⟩

theorem throws_elementLoop22 {cfg : Cfg} (hc : 57 ≤ cfg.maxCount) (n i : Nat) (st : Ascii22) (hm : st.maps.length = 4) (hset : st.numTags ≠ none → st.elementNum ≠ none) (x : Place) :
    ThrowsAt .unsupportedFeature (loopN (fun _ st => loadElementAscii22 cfg st) n i st) x
      (ElementsTextUnknown cfg n (cfg.maxCount - st.blocks.length) st.elementType st.numTags x) := by
  induction n generalizing i st x with
  | zero => exact fun s _ => ⟨(fun h => by cases h), fun h => by cases h⟩
  | succ n ih =>
    unfold loopN ElementsTextUnknown
    refine throws_element22 hc st hm hset _ (fun ty nt z => ElementsTextUnknown cfg n (cfg.maxCount - st.blocks.length - 1) (some ty) (some nt) z) x fun st' ty nt y h1 h2 h3 h4 h5 => ?_
    have := ih (i + 1) st' h1 (fun _ => h2) y
    rwa [h3, h4, h5, ← Nat.sub_sub] at this

theorem throws_elementsText22 {cfg : Cfg} (hc : 57 ≤ cfg.maxCount) (e : Elements) (ents : Entities) (x : Place) :
    ThrowsAt .unsupportedFeature (loadElementsAscii22 cfg e ents) x (Elements22TextRejected cfg e x) := by
  unfold loadElementsAscii22
  refine (ThrowsAt.yields extractSize_yields fun v y _ => ThrowsAt.useVar fun n hn => ?_).iff (?_ : (∃ v y, TakesSize x v y ∧ ∃ n ∈ v,
    ElementsTextUnknown cfg n.toNat (cfg.maxCount - e.entityBlocks.length) none none y) ↔ _)
  · refine (throws_elementLoop22 hc n.toNat 0 _ rfl (fun h => absurd rfl h) y).last fun st s h => ?_
    rw [throw_bind (fun _ _ h => by cases h)] at h
    have := (WithinR.lift (within_create cfg (T := [.alloc]) (ab := false) (by decide) st.maps ents)).all s
    rw [h] at this
    simp [Within] at this
  · exact ⟨fun ⟨v, y, h, n, hn, h'⟩ => by cases hn; exact ⟨n, y, h, h'⟩, fun ⟨n, y, h, h'⟩ => ⟨_, y, h, n, rfl, h'⟩⟩

/-! ## Version 2.2, binary -/

theorem GroupsRejected.room {cfg : Cfg} {N R p : Nat} {e : Exc} {d : Bytes} (h : GroupsRejected cfg N R e p d) (hp : p ≤ N) : p ≤ R := by
  induction h with
  | type => assumption
  | many => omega
  | next _ _ _ _ _ _ hle _ _ ih => have := ih hle; omega

theorem groups22_throw_iff {cfg : Cfg} {N : UInt64} {e : Exc} (he : e ≠ .alloc) (hc : 57 ≤ cfg.maxCount) (hN' : N.toNat ≤ cfg.maxCount) (fuel : Nat) {B : Nat} {st : Binary22} {d : Bytes}
    (hl : d.length < fuel) (hf : st.Fits cfg N.toNat B) :
    loadElementGroups22 cfg N fuel st (gs d) = .throw e ↔ GroupsRejected cfg N.toNat (cfg.maxCount - B) e st.processed.toNat d := by
  induction fuel generalizing st d with
  | zero => omega
  | succ fuel ih =>
    rw [loadElementGroups22]
    by_cases hp : st.processed = N
    · rw [if_pos hp]
      have hp' : st.processed.toNat = N.toNat := by rw [hp]
      refine ⟨(fun h => by cases h), fun h => ?_⟩
      cases h <;> contradiction
    rw [if_neg hp]
    have hp' : st.processed.toNat ≠ N.toNat := fun h => hp (UInt64.toNat_inj.mp h)
    have hpN := hf.le
    by_cases h12 : d.length < 12
    · rw [Rd.bind_ub (groupBinary22_short cfg N st h12)]
      refine ⟨(fun h => by cases h), fun h => ?_⟩
      cases h with
      | type => simp at h12; omega
      | many _ hg => rw [hg.1] at h12; simp at h12; omega
      | next _ hg => rw [hg.1] at h12; simp at h12; omega
    obtain ⟨ty, nb, nt, r, rfl⟩ := startsGroup_of (Nat.not_lt.mp h12)
    have inv : GroupsRejected cfg N.toNat (cfg.maxCount - B) e st.processed.toNat (encI32 ty ++ (encI32 nb ++ (encI32 nt ++ r))) →
        (0 ≤ nt.toInt ∧ nt.toInt ≤ cfg.maxCount) ∧ ((e = .unsupportedFeature ∧ mshNodes ty = none) ∨ ∃ k, mshNodes ty = some k ∧
          ((e = .invalidFormat ∧ nt.toInt < 2 ^ 29 ∧ 4 ≤ r.length ∧ N.toNat < st.processed.toNat + asSize nb ∧ N.toNat < cfg.maxCount - B) ∨
            ((nt.toInt < 2 ^ 29 ∨ nb = 0) ∧ 0 ≤ nb.toInt ∧ st.processed.toNat + nb.toInt.toNat ≤ N.toNat ∧ groupBytes nb nt k ≤ r.length ∧
              GroupsRejected cfg N.toNat (cfg.maxCount - B) e (st.processed.toNat + nb.toInt.toNat) (r.drop (groupBytes nb nt k))))) := by
      intro h
      generalize hd : encI32 ty ++ (encI32 nb ++ (encI32 nt ++ r)) = d at h
      cases h with
      | type _ _ hk h0 hm =>
        obtain ⟨rfl, rfl, rfl, rfl⟩ := header_inj hd
        exact ⟨⟨h0, hm⟩, Or.inl ⟨rfl, hk⟩⟩
      | many _ hg h0 h29 hm h4 hN hR =>
        obtain ⟨e, hk⟩ := hg
        obtain ⟨rfl, rfl, rfl, rfl⟩ := header_inj (hd.trans e)
        exact ⟨⟨h0, hm⟩, Or.inr ⟨_, hk, Or.inl ⟨rfl, h29, h4, hN, hR⟩⟩⟩
      | next _ hg h0 h29 hm hb hle hr hn =>
        obtain ⟨e, hk⟩ := hg
        obtain ⟨rfl, rfl, rfl, rfl⟩ := header_inj (hd.trans e)
        exact ⟨⟨h0, hm⟩, Or.inr ⟨_, hk, Or.inr ⟨h29, hb, hle, hr, hn⟩⟩⟩
    have hstart := groupBinary22_header cfg N st ty nb nt r
    by_cases hnt : (sizeOfInt nt).toNat ≤ cfg.maxCount
    swap
    · have : loadElementGroupBinary22 cfg N st (gs (encI32 ty ++ (encI32 nb ++ (encI32 nt ++ r)))) = .throw .alloc := by
        rw [hstart]
        unfold resize vecResize
        rw [if_neg hnt]
        rfl
      rw [Rd.bind_def, this]
      exact ⟨(fun h => by injection h with h; exact absurd h.symm he), fun h => absurd ((sizeOfInt_fits nt).mpr (inv h).1) hnt⟩
    have hnt' := (sizeOfInt_fits nt).mp hnt
    obtain ⟨tags, ht, htl⟩ := vecResize_runs hnt st.tags 0
    rw [sizeOfInt_toNat hnt'.1] at htl
    unfold resize at hstart
    rw [ht, Rd.bind_ok (show Rd.lift (Outcome.ok _) (gs r) = .ok (_, _) from rfl)] at hstart
    cases hk : mshNodes ty with
    | none =>
      rw [mshNodes_none hk] at hstart
      have : loadElementGroupBinary22 cfg N st (gs (encI32 ty ++ (encI32 nb ++ (encI32 nt ++ r)))) = .throw .unsupportedFeature := hstart
      rw [Rd.bind_def, this]
      refine ⟨fun h => ?_, fun h => ?_⟩
      · injection h with h
        subst h
        exact .type hp' hf.room hk hnt'.1 hnt'.2
      · rcases (inv h).2 with ⟨rfl, -⟩ | ⟨k, h, -⟩
        · rfl
        · rw [hk] at h; cases h
    | some k =>
      obtain ⟨hn, h56, h1⟩ := nodesPerElement_of_mshNodes hk
      have hk64 : (UInt64.ofNat k).toNat = k := by rw [UInt64.toNat_ofNat']; omega
      obtain ⟨ids, hi, hil⟩ := vecResize_runs (cfg := cfg) (n := UInt64.ofNat k) (by omega) st.nodeIds 0
      rw [hk64] at hil
      rw [hn, Rd.bind_ok (show Rd.lift (Outcome.ok _) (gs r) = .ok (_, _) from rfl), hi, Rd.bind_ok (show Rd.lift (Outcome.ok _) (gs r) = .ok (_, _) from rfl)] at hstart
      have inv' : GroupsRejected cfg N.toNat (cfg.maxCount - B) e st.processed.toNat (encI32 ty ++ (encI32 nb ++ (encI32 nt ++ r))) →
          ((e = .invalidFormat ∧ nt.toInt < 2 ^ 29 ∧ 4 ≤ r.length ∧ N.toNat < st.processed.toNat + asSize nb ∧ N.toNat < cfg.maxCount - B) ∨
            ((nt.toInt < 2 ^ 29 ∨ nb = 0) ∧ 0 ≤ nb.toInt ∧ st.processed.toNat + nb.toInt.toNat ≤ N.toNat ∧ groupBytes nb nt k ≤ r.length ∧
              GroupsRejected cfg N.toNat (cfg.maxCount - B) e (st.processed.toNat + nb.toInt.toNat) (r.drop (groupBytes nb nt k)))) := by
        intro h
        rcases (inv h).2 with ⟨-, h⟩ | ⟨k', hk', h⟩
        · rw [hk] at h; cases h
        · rw [hk] at hk'; cases hk'; exact h
      have hsg : StartsGroup (encI32 ty ++ (encI32 nb ++ (encI32 nt ++ r))) ty nb nt k r := ⟨rfl, hk⟩
      have hnb := toNat_sizeOfInt nb
      have hnb2 := nb.le_toInt
      have hnb3 := nb.toInt_lt
      have hnb0 : nb = 0 ↔ nb.toInt = 0 := by rw [← Int32.toInt_inj]; rfl
      have hnbm : nb ≠ 0 → (sizeOfInt nb).toNat ≠ 0 := by
        intro h h'
        rw [h'] at hnb
        apply h
        rw [hnb0]
        split at hnb <;> omega
      have has := asSize_eq nb
      have hgpos : nb ≠ 0 → 0 ≤ nb.toInt → 4 ≤ groupBytes nb nt k := fun h0 hp => by
        have : 1 ≤ nb.toInt.toNat := by have : nb.toInt ≠ 0 := fun h => h0 (hnb0.mpr h); omega
        unfold groupBytes
        calc 4 ≤ 1 * (4 * (1 + nt.toInt.toNat + k)) := by omega
          _ ≤ _ := Nat.mul_le_mul_right _ this
      have ubs : loopN (fun _ st => loadElementBinary22 cfg N ty nt st) (sizeOfInt nb).toNat 0 (none, { st with tags := tags, nodeIds := ids }) (gs r) = .ub →
          ¬ GroupsRejected cfg N.toNat (cfg.maxCount - B) e st.processed.toNat (encI32 ty ++ (encI32 nb ++ (encI32 nt ++ r))) →
          ((loadElementGroupBinary22 cfg N st >>= loadElementGroups22 cfg N fuel) (gs (encI32 ty ++ (encI32 nb ++ (encI32 nt ++ r)))) = .throw e ↔
            GroupsRejected cfg N.toNat (cfg.maxCount - B) e st.processed.toNat (encI32 ty ++ (encI32 nb ++ (encI32 nt ++ r)))) := by
        intro hu hg
        rw [Rd.bind_ub hu] at hstart
        rw [Rd.bind_ub hstart]
        exact ⟨(fun h => by cases h), fun h => absurd h hg⟩
      by_cases hb29 : nb ≠ 0 ∧ 2 ^ 29 ≤ nt.toInt
      · refine ubs (elementsLoop22_ub (hnbm hb29.1) (elementBinary22_tags hb29.2 _ _)) fun h => ?_
        rcases inv' h with h | h
        · omega
        · exact h.1.elim (by omega) hb29.1
      by_cases hb4 : nb ≠ 0 ∧ r.length < 4
      · refine ubs (elementsLoop22_ub (hnbm hb4.1) (elementBinary22_first (Int.not_le.mp fun h => hb29 ⟨hb4.1, h⟩) hb4.2)) fun h => ?_
        rcases inv' h with h | h
        · omega
        · have := hgpos hb4.1 h.2.1
          omega
      by_cases hz : nb = 0
      · -- an empty group
        subst hz
        have hg0 : groupBytes 0 nt k = 0 := by unfold groupBytes; simp
        have : loadElementGroupBinary22 cfg N st (gs (encI32 ty ++ (encI32 0 ++ (encI32 nt ++ r)))) = .ok (⟨tags, ids, st.minTag, st.maxTag, st.processed, st.blocks, st.maps⟩, gs r) := hstart
        rw [Rd.bind_ok this]
        have ih' := ih (st := ⟨tags, ids, st.minTag, st.maxTag, st.processed, st.blocks, st.maps⟩) (d := r) (by simp at hl; omega) ⟨hf.maps, hf.le, hf.room, hf.blocks⟩
        refine ih'.trans ⟨fun h => ?_, fun h => ?_⟩
        · refine .next hp' hsg hnt'.1 (Or.inr rfl) hnt'.2 (by simp) (by simpa using hf.le) (by rw [hg0]; omega) ?_
          rw [hg0]
          simpa using h
        · rcases inv' h with h | h
          · have h0 : (sizeOfInt 0).toNat = 0 := rfl
            omega
          · have := h.2.2.2.2
            rw [hg0] at this
            simpa using this
      have h29 : nt.toInt < 2 ^ 29 := Int.not_le.mp fun h => hb29 ⟨hz, h⟩
      have h4 : 4 ≤ r.length := Nat.not_lt.mp fun h => hb4 ⟨hz, h⟩
      have hloop := elementsLoop22_gs (cfg := cfg) (N := N) hk hnt'.1 h29 hc hN' (sizeOfInt nb).toNat 0 (o := none)
        (st := ⟨tags, ids, st.minTag, st.maxTag, st.processed, st.blocks, st.maps⟩) ⟨hf.maps, hf.le, hf.room, hf.blocks⟩ ⟨htl, hil⟩ (d := r) (fun _ => Or.inr h4)
      have hbl := hf.blocks
      unfold Counts at hloop
      by_cases hle : st.processed.toNat + (sizeOfInt nb).toNat ≤ N.toNat ∧ st.processed.toNat + (sizeOfInt nb).toNat ≤ cfg.maxCount - B
      · rw [if_pos hle] at hloop
        obtain ⟨o, st', hrun, hf', hr', hpr⟩ := hloop
        have hmax := cfg.maxCount_lt
        have hpos : 0 ≤ nb.toInt := by split at hnb <;> omega
        rw [sizeOfInt_toNat hpos] at hle hrun hpr hstart
        rw [Rd.bind_ok hrun] at hstart
        rw [Rd.bind_ok hstart]
        have hpr' : st'.processed.toNat = st.processed.toNat + nb.toInt.toNat := hpr
        have hgb : nb.toInt.toNat * (4 * (1 + nt.toInt.toNat + k)) = groupBytes nb nt k := rfl
        rw [sizeOfInt_toNat hpos] at has
        rw [hgb]
        by_cases hlen : groupBytes nb nt k ≤ r.length
        · rw [after_gs hlen]
          have ih' := ih (st := st') (d := r.drop (groupBytes nb nt k)) (by simp at hl ⊢; omega) hf'
          rw [hpr'] at ih'
          refine ih'.trans ⟨fun h => .next hp' hsg hnt'.1 (Or.inl h29) hnt'.2 hpos hle.1 hlen h, fun h => ?_⟩
          rcases inv' h with h | h
          · omega
          · exact h.2.2.2.2
        · rw [after_spent (by omega)]
          unfold spent
          rw [groups22_bad (by simp at hl; omega)]
          refine ⟨fun h => ?_, fun h => ?_⟩
          · split at h <;> cases h
          · rcases inv' h with h | h
            · omega
            · exact absurd h.2.2.2.1 hlen
      · rw [if_neg hle] at hloop
        rw [Rd.bind_def, hloop] at hstart
        rw [Rd.bind_def]
        have hmax := cfg.maxCount_lt
        replace hstart : loadElementGroupBinary22 cfg N st (gs (encI32 ty ++ (encI32 nb ++ (encI32 nt ++ r)))) =
          .throw (if N.toNat < cfg.maxCount - B then .invalidFormat else .alloc) := hstart
        rw [hstart]
        refine ⟨fun h => ?_, fun h => ?_⟩
        · injection h with h
          by_cases hR : N.toNat < cfg.maxCount - B
          · rw [if_pos hR] at h
            subst h
            refine .many hp' hsg hnt'.1 h29 hnt'.2 h4 ?_ hR
            omega
          · rw [if_neg hR] at h
            exact absurd h.symm he
        · rcases inv' h with h | h
          · rw [if_pos h.2.2.2.2, h.1]
          · exfalso
            have := sizeOfInt_toNat (x := nb) h.2.1
            have := h.2.2.2.2.room h.2.2.1
            omega

theorem throws_elementsBinary22 {cfg : Cfg} {ex : Exc} (he : ex ≠ .alloc) (hc57 : 57 ≤ cfg.maxCount) (e : Elements) (ents : Entities) (x : Place) :
    ThrowsAt ex (loadElementsBinary22 cfg e ents) x (∃ v y d, TakesSize x v y ∧ DataFrom y d ∧ (v.getD e.numElements).toNat ≤ cfg.maxCount ∧
      GroupsRejected cfg (v.getD e.numElements).toNat (cfg.maxCount - e.entityBlocks.length) ex 0 d) := by
  unfold loadElementsBinary22
  refine ThrowsAt.iff (Q := ∃ N y, (∃ v, TakesSize x v y ∧ N = v.getD e.numElements) ∧ N.toNat ≤ cfg.maxCount ∧ ∃ d, DataFrom y d ∧
    GroupsRejected cfg N.toNat (cfg.maxCount - e.entityBlocks.length) ex 0 d) ?_ ?_
  · refine ThrowsAt.yields (inSize_yields _) fun N y _ => ?_
    unfold vecReserve
    by_cases hN : N.toNat ≤ cfg.maxCount
    swap
    · rw [if_neg hN]
      exact fun st _ => ⟨(fun h => by injection h with h; exact absurd h.symm he), fun h => absurd h.1 hN⟩
    rw [if_pos hN]
    refine ThrowsAt.lift rfl (ThrowsAt.iff (ThrowsAt.eat (Q := fun d => GroupsRejected cfg N.toNat (cfg.maxCount - e.entityBlocks.length) ex 0 d) fun d st hd hs => ?_)
      ⟨fun h => ⟨hN, h⟩, fun h => h.2⟩)
    refine (throw_bind fun st' s h => ?_).trans ?_
    · rw [throw_bind (fun _ _ h => by cases h)] at h
      have := (WithinR.lift (within_create cfg (T := [.alloc]) (ab := false) (by decide) st'.maps ents)).all s
      rw [h] at this
      exact he (by simpa [Within] using this)
    · rcases hs with ⟨-, rfl⟩ | ⟨rfl, hg⟩
      · exact groups22_throw_iff (B := e.entityBlocks.length) (st := { blocks := e.entityBlocks }) he hc57 hN (d.length + 2) (by omega)
          ⟨rfl, Nat.zero_le _, Nat.zero_le _, rfl⟩
      · rw [groups22_lost _ hg]
        refine ⟨(fun h => by split at h <;> cases h), fun h => ?_⟩
        generalize hd : ([] : Bytes) = d at h
        have hd := congrArg List.length hd
        cases h with
        | type => simp at hd; omega
        | many _ hg => rw [hg.1] at hd; simp at hd; omega
        | next _ hg => rw [hg.1] at hd; simp at hd; omega
  · constructor
    · rintro ⟨_, y, ⟨v, h1, rfl⟩, h2, d, h3, h4⟩
      exact ⟨v, y, d, h1, h3, h2, h4⟩
    · rintro ⟨v, y, d, h1, h3, h2, h4⟩
      exact ⟨_, y, ⟨v, h1, rfl⟩, h2, d, h3, h4⟩

end MshIO
