import Verif.Proofs.EntityHazards

/-! # When reading binary nodes of version 4.1 is undefined -/

namespace MshIO

variable {α β : Type}

theorem over_length (d old : Bytes) : (Over d old).length = old.length := by simp [Over]; omega

theorem over_append (d a b : Bytes) : Over d (a ++ b) = Over d a ++ Over (d.drop a.length) b := by
  unfold Over
  by_cases h : a.length ≤ d.length
  · rw [List.length_append, List.take_add, List.drop_append, List.drop_of_length_le (l := a) h]
    simp
  · rw [List.take_of_length_le (by simp; omega), List.drop_append_of_le_length (by omega), List.take_of_length_le (by omega),
      List.drop_of_length_le (l := d) (by omega)]
    simp

theorem readRaw_over (o : Bytes) (n : Nat) (d : Bytes) : readRaw o (after n d) = .ok (Over (d.drop n) o, after (n + o.length) d) := by
  unfold after Over
  by_cases h : n ≤ d.length
  · rw [if_pos h]
    by_cases h' : n + o.length ≤ d.length
    · rw [if_pos h']
      have : o.length ≤ (d.drop n).length := by simp; omega
      simp only [readRaw, Stream.good, Bool.not_false, Bool.and_self, if_true, if_pos this, List.drop_of_length_le this, List.append_nil, List.drop_drop]
    · rw [if_neg h']
      have : ¬ o.length ≤ (d.drop n).length := by simp; omega
      simp only [readRaw, Stream.good, Bool.not_false, Bool.and_self, if_true, if_neg this]
      rw [List.take_of_length_le (by omega)]
  · rw [if_neg h, if_neg (by omega), readRaw_spent, List.drop_of_length_le (by omega)]
    simp

theorem readInt_over (o : Int32) (n : Nat) (d : Bytes) {v : Int32} (h : encI32 v = Over (d.drop n) (encI32 o)) : readInt o (after n d) = .ok (v, after (n + 4) d) := by
  unfold readInt
  rw [Rd.bind_ok (readRaw_over _ n d), ← h, decodeI32_encI32, encI32_length]
  rfl

theorem readSize_over (o : UInt64) (n : Nat) (d : Bytes) {v : UInt64} (h : encU64 v = Over (d.drop n) (encU64 o)) : readSize o (after n d) = .ok (v, after (n + 8) d) := by
  unfold readSize
  rw [Rd.bind_ok (readRaw_over _ n d), ← h, decodeU64_encU64, encU64_length]
  rfl

theorem readSize_any (o : UInt64) (n : Nat) (d : Bytes) : ∃ v, encU64 v = Over (d.drop n) (encU64 o) ∧ readSize o (after n d) = .ok (v, after (n + 8) d) := by
  have h : encU64 (decodeU64 (Over (d.drop n) (encU64 o))) = Over (d.drop n) (encU64 o) := encU64_decodeU64 _ (by rw [over_length, encU64_length])
  exact ⟨_, h, readSize_over _ _ _ h⟩

theorem readSizes_over (v : List UInt64) (n : Nat) (d : Bytes) : ∃ l, readSizes v (after n d) = .ok (l, after (n + 8 * v.length) d) := by
  unfold readSizes
  rw [Rd.bind_ok (readRaw_over _ n d), flatMap_len (k := 8) (by simp)]
  exact ⟨_, rfl⟩

theorem readDoubles_over (v : List Double) (n : Nat) (d : Bytes) : ∃ l, readDoubles v (after n d) = .ok (l, after (n + 8 * v.length) d) := by
  obtain ⟨l, h, -⟩ := readDoubles_after v n d
  exact ⟨l, h⟩

theorem assertGood_after (cfg : Cfg) (n : Nat) (d : Bytes) :
    assertGood cfg (after n d) = if cfg.asserts = true → n ≤ d.length then .ok ((), after n d) else .abort := by
  unfold assertGood after
  cases cfg.asserts <;> by_cases h : n ≤ d.length <;> simp [h, Stream.good, spent]

theorem resize_after (cfg : Cfg) (v : List α) (n : UInt64) (x : α) (s : Stream) :
    resize cfg v n x s = if n.toNat ≤ cfg.maxCount then .ok (v.take n.toNat ++ List.replicate (n.toNat - v.length) x, s) else .throw .alloc := by
  unfold resize vecResize
  split <;> rfl

theorem resized_length (v : List α) (n : Nat) (x : α) : (v.take n ++ List.replicate (n - v.length) x).length = n := by simp; omega

theorem headOf (b : NodeBlock) (d : Bytes) : ∃ dim tag par num, ReadsHead b d dim tag par num := by
  have key : ∀ x : Bytes, x.length = 20 → ∃ dim tag par num, blockHead dim tag par num = x := by
    intro x hx
    refine ⟨decodeI32 (x.take 4), decodeI32 ((x.drop 4).take 4), decodeI32 ((x.drop 8).take 4), decodeU64 (x.drop 12), ?_⟩
    unfold blockHead
    rw [encI32_decodeI32 (by simp; omega), encI32_decodeI32 (by simp; omega), encI32_decodeI32 (by simp; omega), encU64_decodeU64 _ (by simp; omega)]
    have e1 : (x.drop 8).take 4 ++ x.drop 12 = x.drop 8 := by
      have := List.take_append_drop 4 (x.drop 8); rwa [List.drop_drop] at this
    have e2 : (x.drop 4).take 4 ++ x.drop 8 = x.drop 4 := by
      have := List.take_append_drop 4 (x.drop 4); rwa [List.drop_drop] at this
    rw [e1, e2, List.take_append_drop]
  obtain ⟨dim, tag, par, num, h⟩ := key (Over d (blockHead b.entityDim b.entityTag b.parametric b.numNodesInBlock)) (by rw [over_length]; simp [blockHead])
  exact ⟨dim, tag, par, num, h⟩

theorem blockHead_inj {a b c a' b' c' : Int32} {n n' : UInt64} (h : blockHead a b c n = blockHead a' b' c' n') : a = a' ∧ b = b' ∧ c = c' ∧ n = n' := by
  unfold blockHead at h
  obtain ⟨h1, h⟩ := List.append_inj h (by simp)
  obtain ⟨h2, h⟩ := List.append_inj h (by simp)
  obtain ⟨h3, h4⟩ := List.append_inj h (by simp)
  exact ⟨by simpa using congrArg decodeI32 h1, by simpa using congrArg decodeI32 h2, by simpa using congrArg decodeI32 h3, by simpa using congrArg decodeU64 h4⟩

theorem ReadsHead.split {b : NodeBlock} {d : Bytes} {dim tag par : Int32} {num : UInt64} (h : ReadsHead b d dim tag par num) :
    encI32 dim = Over d (encI32 b.entityDim) ∧ encI32 tag = Over (d.drop 4) (encI32 b.entityTag) ∧ encI32 par = Over (d.drop 8) (encI32 b.parametric) ∧
      encU64 num = Over (d.drop 12) (encU64 b.numNodesInBlock) := by
  unfold ReadsHead blockHead at h
  rw [over_append, over_append, over_append] at h
  simp only [List.drop_drop, encI32_length] at h
  obtain ⟨h1, h⟩ := List.append_inj h (by simp [over_length])
  obtain ⟨h2, h⟩ := List.append_inj h (by simp [over_length])
  obtain ⟨h3, h4⟩ := List.append_inj h (by simp [over_length])
  exact ⟨h1, h2, h3, h4⟩

theorem entries_toNat (num : UInt64) (p dim : Int32) (h : ¬ (p = 1 ∧ 2 ^ 31 ≤ dim.toInt + 3)) :
    ∃ e, entriesPerNode p dim = .ok e ∧ ((num * e).toNat : Int) = num.toNat * (3 + if p = 1 then dim.toInt else 0) % 2 ^ 64 := by
  unfold entriesPerNode
  by_cases hp : p = 1
  · have hd : ¬ 2 ^ 31 ≤ dim.toInt + 3 := fun hd => h ⟨hp, hd⟩
    rw [if_pos hp, if_neg hd, if_pos hp]
    refine ⟨_, rfl, ?_⟩
    have e1 : (3 + dim).toInt = 3 + dim.toInt := by
      rw [Int32.toInt_add]
      have := dim.le_toInt
      rw [Int.bmod_eq_of_le] <;> simp <;> omega
    have e2 := toNat_sizeOfInt (3 + dim)
    rw [e1] at e2
    rw [UInt64.toNat_mul]
    push_cast
    rw [e2]
    split
    · rw [mul_add]
      exact Int.add_mul_emod_self_right ..
    · rfl
  · rw [if_neg hp, if_neg hp]
    refine ⟨3, rfl, ?_⟩
    rw [UInt64.toNat_mul]
    push_cast
    rfl

theorem blockBinary_ub {cfg : Cfg} {b : NodeBlock} {n : Nat} {d : Bytes} {dim tag par : Int32} {num : UInt64} (h : ReadsHead b (d.drop n) dim tag par num)
    (hp : par = 1) (hd : 2 ^ 31 ≤ dim.toInt + 3) :
    endOf (loadNodeBlockBinary41 cfg b (after n d)) = if num.toNat ≤ cfg.maxCount ∧ (cfg.asserts = true → n + (20 + 8 * num.toNat) ≤ d.length) then .ub
      else if (cfg.asserts = true → n + 20 ≤ d.length) ∧ ¬ num.toNat ≤ cfg.maxCount then .throw .alloc else .abort := by
  obtain ⟨h1, h2, h3, h4⟩ := h.split
  simp only [List.drop_drop] at h2 h3 h4
  unfold loadNodeBlockBinary41
  rw [Rd.bind_ok (readInt_over _ n d h1), Rd.bind_ok (readInt_over _ (n + 4) d h2), Rd.bind_ok (readInt_over _ (n + 4 + 4) d h3),
    Rd.bind_ok (readSize_over _ (n + 4 + 4 + 4) d h4)]
  by_cases a1 : cfg.asserts = true → n + 20 ≤ d.length
  swap
  · rw [if_neg (fun h => a1 fun ha => by have := h.2 ha; omega), if_neg (fun h => a1 h.1), Rd.bind_def, assertGood_after, if_neg (fun h => a1 fun ha => by have := h ha; omega)]
    rfl
  rw [Rd.bind_ok ((assertGood_after ..).trans (if_pos fun h => by have := a1 h; omega))]
  by_cases hn : num.toNat ≤ cfg.maxCount
  swap
  · rw [if_neg (fun h => hn h.1), if_pos ⟨a1, hn⟩, Rd.bind_def, resize_after, if_neg hn]
    rfl
  rw [Rd.bind_ok ((resize_after ..).trans (if_pos hn))]
  obtain ⟨l, hl⟩ := readSizes_over (b.tags.take num.toNat ++ List.replicate (num.toNat - b.tags.length) 0) (n + 4 + 4 + 4 + 8) d
  rw [resized_length] at hl
  rw [Rd.bind_ok hl]
  by_cases a2 : cfg.asserts = true → n + (20 + 8 * num.toNat) ≤ d.length
  swap
  · rw [if_neg (fun h => a2 h.2), if_neg (fun h => h.2 hn), Rd.bind_def, assertGood_after, if_neg (fun h => a2 fun ha => by have := h ha; omega)]
    rfl
  rw [if_pos ⟨hn, a2⟩, Rd.bind_ok ((assertGood_after ..).trans (if_pos fun h => by have := a2 h; omega))]
  have : entriesPerNode par dim = .ub := by unfold entriesPerNode; rw [if_pos hp, if_pos hd]
  rw [this]
  rfl

theorem blockBinary_ok {cfg : Cfg} {b : NodeBlock} {n : Nat} {d : Bytes} {dim tag par : Int32} {num : UInt64} (h : ReadsHead b (d.drop n) dim tag par num) {k : Nat}
    (hd : ¬ (par = 1 ∧ 2 ^ 31 ≤ dim.toInt + 3)) (hk : (k : Int) = num.toNat * (3 + if par = 1 then dim.toInt else 0) % 2 ^ 64) :
    endOf (loadNodeBlockBinary41 cfg b (after n d)) =
      if num.toNat ≤ cfg.maxCount ∧ k ≤ cfg.maxCount ∧ (cfg.asserts = true → n + (20 + 8 * num.toNat + 8 * k) ≤ d.length) then .ok (after (n + (20 + 8 * num.toNat + 8 * k)) d)
      else if (cfg.asserts = true → n + 20 ≤ d.length) ∧ (¬ num.toNat ≤ cfg.maxCount ∨ ((cfg.asserts = true → n + (20 + 8 * num.toNat) ≤ d.length) ∧ ¬ k ≤ cfg.maxCount))
        then .throw .alloc else .abort := by
  obtain ⟨h1, h2, h3, h4⟩ := h.split
  simp only [List.drop_drop] at h2 h3 h4
  obtain ⟨e, he, hek⟩ := entries_toNat num par dim hd
  have hk' : (num * e).toNat = k := by omega
  unfold loadNodeBlockBinary41
  rw [Rd.bind_ok (readInt_over _ n d h1), Rd.bind_ok (readInt_over _ (n + 4) d h2), Rd.bind_ok (readInt_over _ (n + 4 + 4) d h3),
    Rd.bind_ok (readSize_over _ (n + 4 + 4 + 4) d h4)]
  by_cases a1 : cfg.asserts = true → n + 20 ≤ d.length
  swap
  · rw [if_neg (fun h => a1 fun ha => by have := h.2.2 ha; omega), if_neg (fun h => a1 h.1), Rd.bind_def, assertGood_after, if_neg (fun h => a1 fun ha => by have := h ha; omega)]
    rfl
  rw [Rd.bind_ok ((assertGood_after ..).trans (if_pos fun h => by have := a1 h; omega))]
  by_cases hn : num.toNat ≤ cfg.maxCount
  swap
  · rw [if_neg (fun h => hn h.1), if_pos ⟨a1, Or.inl hn⟩, Rd.bind_def, resize_after, if_neg hn]
    rfl
  rw [Rd.bind_ok ((resize_after ..).trans (if_pos hn))]
  obtain ⟨l, hl⟩ := readSizes_over (b.tags.take num.toNat ++ List.replicate (num.toNat - b.tags.length) 0) (n + 4 + 4 + 4 + 8) d
  rw [resized_length] at hl
  rw [Rd.bind_ok hl]
  by_cases a2 : cfg.asserts = true → n + (20 + 8 * num.toNat) ≤ d.length
  swap
  · rw [if_neg (fun h => a2 fun ha => by have := h.2.2 ha; omega), if_neg (by rintro ⟨-, h | h⟩; exacts [h hn, a2 h.1]), Rd.bind_def, assertGood_after,
      if_neg (fun h => a2 fun ha => by have := h ha; omega)]
    rfl
  rw [Rd.bind_ok ((assertGood_after ..).trans (if_pos fun h => by have := a2 h; omega)), he]
  rw [Rd.bind_ok (a := e) (s' := after (n + 4 + 4 + 4 + 8 + 8 * num.toNat) d) rfl]
  by_cases hkm : k ≤ cfg.maxCount
  swap
  · rw [if_neg (fun h => hkm h.2.1), if_pos ⟨a1, Or.inr ⟨a2, hkm⟩⟩, Rd.bind_def, resize_after, hk', if_neg hkm]
    rfl
  rw [Rd.bind_ok ((resize_after ..).trans (if_pos (hk' ▸ hkm)))]
  obtain ⟨l', hl'⟩ := readDoubles_over (b.data.take (num * e).toNat ++ List.replicate ((num * e).toNat - b.data.length) Double.zero) (n + 4 + 4 + 4 + 8 + 8 * num.toNat) d
  rw [resized_length, hk'] at hl'
  rw [hk', Rd.bind_ok hl']
  by_cases a3 : cfg.asserts = true → n + (20 + 8 * num.toNat + 8 * k) ≤ d.length
  · rw [if_pos ⟨hn, hkm, a3⟩, Rd.bind_ok ((assertGood_after ..).trans (if_pos fun h => by have := a3 h; omega))]
    show Outcome.ok (after _ d) = _
    congr 2
    omega
  · rw [if_neg (fun h => a3 h.2.2), if_neg (by rintro ⟨-, h | h⟩; exacts [h hn, h.2 hkm]), Rd.bind_def, assertGood_after, if_neg (fun h => a3 fun ha => by have := h ha; omega)]
    rfl

theorem endOf_forEach {f : α → Rd α} (b : α) (bs : List α) (s : Stream) : endOf (forEach f (b :: bs) s) = (endOf (f b s) >>= fun s => endOf (forEach f bs s)) := by
  show endOf ((f b >>= fun a => forEach f bs >>= fun as => pure (a :: as)) s) = _
  rw [Rd.bind_def]
  cases f b s with
  | ok p =>
    obtain ⟨a, s'⟩ := p
    show endOf ((forEach f bs >>= fun as => pure (a :: as)) s') = endOf (forEach f bs s')
    rw [Rd.bind_def]
    cases forEach f bs s' <;> rfl
  | throw => rfl
  | abort => rfl
  | ub => rfl
  | hang => rfl

theorem blocks_ub_iff {cfg : Cfg} (bs : List NodeBlock) (n : Nat) (d : Bytes) :
    endOf (forEach (loadNodeBlockBinary41 cfg) bs (after n d)) = .ub ↔ BlocksUndefined cfg bs (d.drop n) := by
  induction bs generalizing n with
  | nil => exact ⟨(fun h => by cases h), fun h => by cases h⟩
  | cons b bs ih =>
    obtain ⟨dim, tag, par, num, h⟩ := headOf b (d.drop n)
    rw [endOf_forEach]
    have one : ∀ {dim' tag' par' num'}, ReadsHead b (d.drop n) dim' tag' par' num' → dim' = dim ∧ par' = par ∧ num' = num := fun h' => by
      obtain ⟨h1, -, h3, h4⟩ := blockHead_inj (h'.trans h.symm)
      exact ⟨h1, h3, h4⟩
    by_cases hd : par = 1 ∧ 2 ^ 31 ≤ dim.toInt + 3
    · obtain ⟨hp, hd⟩ := hd
      rw [blockBinary_ub h hp hd]
      subst hp
      by_cases hc : num.toNat ≤ cfg.maxCount ∧ (cfg.asserts = true → n + (20 + 8 * num.toNat) ≤ d.length)
      · rw [if_pos hc]
        exact ⟨fun _ => .here h hc.1 hd fun ha => by have := hc.2 ha; simp; omega, fun _ => rfl⟩
      · rw [if_neg hc]
        refine ⟨fun hu => ?_, fun hu => ?_⟩
        · split at hu <;> cases hu
        · exfalso
          cases hu with
          | here h' hn _ ha =>
            obtain ⟨-, -, rfl⟩ := one h'
            exact hc ⟨hn, fun h => by have := ha h; simp at this; omega⟩
          | next h' _ hd' =>
            obtain ⟨rfl, rfl, -⟩ := one h'
            exact hd' ⟨rfl, hd⟩
    · obtain ⟨e, -, hk⟩ := entries_toNat num par dim hd
      rw [blockBinary_ok h hd hk]
      generalize (num * e).toNat = k at hk ⊢
      by_cases hc : num.toNat ≤ cfg.maxCount ∧ k ≤ cfg.maxCount ∧ (cfg.asserts = true → n + (20 + 8 * num.toNat + 8 * k) ≤ d.length)
      · rw [if_pos hc]
        show endOf (forEach _ bs (after _ d)) = .ub ↔ _
        rw [ih]
        refine ⟨fun hu => .next h hc.1 hd hk hc.2.1 (fun ha => by have := hc.2.2 ha; simp; omega) (by rwa [List.drop_drop]), fun hu => ?_⟩
        cases hu with
        | here h' _ hd' =>
          obtain ⟨rfl, rfl, -⟩ := one h'
          exact absurd ⟨rfl, hd'⟩ hd
        | @next _ _ _ _ _ _ _ k' h' _ _ hk' _ _ hu =>
          obtain ⟨rfl, rfl, rfl⟩ := one h'
          have : k' = k := by exact_mod_cast hk'.trans hk.symm
          subst this
          rwa [List.drop_drop] at hu
      · rw [if_neg hc]
        refine ⟨fun hu => ?_, fun hu => ?_⟩
        · split at hu <;> cases hu
        · exfalso
          cases hu with
          | here h' _ hd' =>
            obtain ⟨rfl, rfl, -⟩ := one h'
            exact absurd ⟨rfl, hd'⟩ hd
          | @next _ _ _ _ _ _ _ k' h' hn _ hk' hkm ha hu =>
            obtain ⟨rfl, rfl, rfl⟩ := one h'
            have : k' = k := by exact_mod_cast hk'.trans hk.symm
            subst this
            exact hc ⟨hn, hkm, fun h => by have := ha h; simp at this; omega⟩

theorem eat_start {r d : Bytes} (h : DataAfter r d) : ∃ st, eatWhiteSpace 1 (payload r) = .ok ((), st) ∧ (st = gs d ∨ (d = [] ∧ ∃ f, st = ⟨[], true, f⟩)) := by
  rcases h with ⟨c, rfl, hc⟩ | ⟨rfl, hd⟩
  · rw [payload_ne (by simp)]
    refine ⟨_, eat_payload hc.eat d, ?_⟩
    by_cases hd : d = []
    · subst hd; exact Or.inr ⟨rfl, _, rfl⟩
    · exact Or.inl (payload_ne hd)
  · cases d with
    | nil => exact ⟨_, rfl, Or.inr ⟨rfl, _, rfl⟩⟩
    | cons c d =>
      refine ⟨gs (c :: d), ?_, Or.inl rfl⟩
      have := not_skipped (hd c rfl)
      rw [payload_ne (by simp)]
      simp [eatWhiteSpace, Stream.good, eatLoop, this]

theorem readSize_start (o : UInt64) {d : Bytes} {st : Stream} (h : st = gs d ∨ (d = [] ∧ ∃ f, st = ⟨[], true, f⟩)) : readSize o st = readSize o (after 0 d) := by
  rcases h with rfl | ⟨rfl, f, rfl⟩
  · rw [after_zero]
  · rw [after_zero]
    rfl

theorem nodesBinary_ub_iff {cfg : Cfg} (n : Nodes) {r d : Bytes} (h : DataAfter r d) : loadNodesBinary41 cfg n (payload r) = .ub ↔ Nodes41Undefined cfg n d := by
  obtain ⟨st, h1, h2⟩ := eat_start h
  unfold loadNodesBinary41
  rw [Rd.bind_ok h1]
  obtain ⟨N, hN, e1⟩ := readSize_any n.numEntityBlocks 0 d
  obtain ⟨_, -, e2⟩ := readSize_any n.numNodes (0 + 8) d
  obtain ⟨_, -, e3⟩ := readSize_any n.minNodeTag (0 + 8 + 8) d
  obtain ⟨_, -, e4⟩ := readSize_any n.maxNodeTag (0 + 8 + 8 + 8) d
  rw [Rd.bind_ok ((readSize_start _ h2).trans e1), Rd.bind_ok e2, Rd.bind_ok e3, Rd.bind_ok e4]
  have one : ∀ {M : UInt64}, encU64 M = Over d (encU64 n.numEntityBlocks) → M = N := fun h => by
    have := h.trans hN.symm
    simpa using congrArg decodeU64 this
  by_cases ha : cfg.asserts = true → 32 ≤ d.length
  swap
  · rw [Rd.bind_def, assertGood_after, if_neg (fun h => ha fun h' => by have := h h'; omega)]
    exact ⟨(fun h => by cases h), fun h => absurd h.1 ha⟩
  rw [Rd.bind_ok ((assertGood_after ..).trans (if_pos fun h => by have := ha h; omega))]
  by_cases hn : N.toNat ≤ cfg.maxCount
  swap
  · rw [Rd.bind_def, resize_after, if_neg hn]
    refine ⟨(fun h => by cases h), fun ⟨_, M, hM, hm, _⟩ => absurd (one hM ▸ hm) hn⟩
  rw [Rd.bind_ok ((resize_after ..).trans (if_pos hn)), ub_bind (fun _ _ h => by cases h), ← endOf_ub, blocks_ub_iff]
  refine ⟨fun h => ⟨ha, N, hN, hn, h⟩, fun ⟨_, M, hM, _, h⟩ => ?_⟩
  rwa [one hM] at h

end MshIO
