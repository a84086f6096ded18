import Verif.Proofs.ExhaustedData
import Verif.Proofs.EndingsBinary

/-! # When there is not enough memory for a section: binary files of version 4.1 -/

namespace MshIO

variable {α β : Type}

theorem endOf_throws {ex : Exc} {o : Outcome (α × Stream)} : endOf o = .throw ex ↔ o = .throw ex := by cases o <;> simp [endOf]

/-! ## Nodes -/

theorem ReadsHead.unique {b : NodeBlock} {d : Bytes} {dim tag par dim' tag' par' : Int32} {num num' : UInt64} (h : ReadsHead b d dim tag par num) (h' : ReadsHead b d dim' tag' par' num') :
    dim' = dim ∧ tag' = tag ∧ par' = par ∧ num' = num := by
  unfold ReadsHead at h h'
  obtain ⟨h1, h2, h3, h4⟩ := blockHead_inj (h'.trans h.symm)
  exact ⟨h1, h2, h3, h4⟩

theorem BlocksExhaust.inv {cfg : Cfg} {b : NodeBlock} {bs : List NodeBlock} {d : Bytes} {dim tag par : Int32} {num : UInt64} {k : Nat} (h : ReadsHead b d dim tag par num)
    (hk : (k : Int) = num.toNat * (3 + if par = 1 then dim.toInt else 0) % 2 ^ 64) (hb : BlocksExhaust cfg (b :: bs) d) :
    ((cfg.asserts = true → 20 ≤ d.length) ∧ cfg.maxCount < num.toNat) ∨ (num.toNat ≤ cfg.maxCount ∧ (cfg.asserts = true → 20 + 8 * num.toNat ≤ d.length) ∧
      ¬ (par = 1 ∧ 2 ^ 31 ≤ dim.toInt + 3) ∧ (cfg.maxCount < k ∨ (k ≤ cfg.maxCount ∧ (cfg.asserts = true → 20 + 8 * num.toNat + 8 * k ≤ d.length) ∧
        BlocksExhaust cfg bs (d.drop (20 + 8 * num.toNat + 8 * k))))) := by
  cases hb with
  | tags h1 h2 h3 =>
    obtain ⟨rfl, rfl, rfl, rfl⟩ := h.unique h1
    exact Or.inl ⟨h2, h3⟩
  | @data _ _ _ _ _ _ _ k' h1 h2 h3 h4 h5 h6 =>
    obtain ⟨rfl, rfl, rfl, rfl⟩ := h.unique h1
    have : k' = k := by exact_mod_cast h5.trans hk.symm
    subst this
    exact Or.inr ⟨h2, h3, h4, Or.inl h6⟩
  | @next _ _ _ _ _ _ _ k' h1 h2 h3 h4 h5 h6 h7 =>
    obtain ⟨rfl, rfl, rfl, rfl⟩ := h.unique h1
    have : k' = k := by exact_mod_cast h4.trans hk.symm
    subst this
    exact Or.inr ⟨h2, fun ha => by have := h6 ha; omega, h3, Or.inr ⟨h5, h6, h7⟩⟩

theorem blocks_exhaust_iff {cfg : Cfg} (bs : List NodeBlock) (n : Nat) (d : Bytes) :
    endOf (forEach (loadNodeBlockBinary41 cfg) bs (after n d)) = .throw .alloc ↔ BlocksExhaust cfg bs (d.drop n) := by
  induction bs generalizing n with
  | nil => exact ⟨(fun h => by cases h), fun h => by cases h⟩
  | cons b bs ih =>
    obtain ⟨dim, tag, par, num, h⟩ := headOf b (d.drop n)
    rw [endOf_forEach]
    have hl : (d.drop n).length = d.length - n := by simp
    by_cases hd : par = 1 ∧ 2 ^ 31 ≤ dim.toInt + 3
    · rw [blockBinary_ub h hd.1 hd.2]
      obtain ⟨kk, hk⟩ : ∃ kk : Nat, (kk : Int) = num.toNat * (3 + if par = 1 then dim.toInt else 0) % 2 ^ 64 := ⟨(num.toNat * (3 + if par = 1 then dim.toInt else 0) % 2 ^ 64).toNat,
        Int.toNat_of_nonneg (Int.emod_nonneg _ (by decide))⟩
      by_cases hc : num.toNat ≤ cfg.maxCount ∧ (cfg.asserts = true → n + (20 + 8 * num.toNat) ≤ d.length)
      · rw [if_pos hc]
        refine ⟨(fun h => by cases h), fun hb => ?_⟩
        rcases hb.inv h hk with ⟨-, h'⟩ | ⟨-, -, h', -⟩
        · omega
        · exact absurd hd h'
      · rw [if_neg hc]
        by_cases hm : (cfg.asserts = true → n + 20 ≤ d.length) ∧ ¬ num.toNat ≤ cfg.maxCount
        · rw [if_pos hm]
          exact ⟨fun _ => .tags h (fun ha => by have := hm.1 ha; omega) (by omega), fun _ => rfl⟩
        · rw [if_neg hm]
          refine ⟨(fun h => by cases h), fun hb => ?_⟩
          rcases hb.inv h hk with ⟨h', h''⟩ | ⟨-, -, h', -⟩
          · exact absurd ⟨fun ha => by have := h' ha; omega, by omega⟩ hm
          · exact absurd hd h'
    · obtain ⟨e, -, hk⟩ := entries_toNat num par dim hd
      rw [blockBinary_ok h hd hk]
      generalize (num * e).toNat = kk at hk ⊢
      by_cases hc : num.toNat ≤ cfg.maxCount ∧ kk ≤ cfg.maxCount ∧ (cfg.asserts = true → n + (20 + 8 * num.toNat + 8 * kk) ≤ d.length)
      · rw [if_pos hc]
        show endOf (forEach _ bs (after _ d)) = .throw .alloc ↔ _
        rw [ih, ← List.drop_drop]
        constructor
        · intro hb
          exact .next h hc.1 hd hk hc.2.1 (fun ha => by have := hc.2.2 ha; omega) hb
        · intro hb
          rcases hb.inv h hk with ⟨-, h'⟩ | ⟨-, -, -, h' | h'⟩
          · omega
          · omega
          · exact h'.2.2
      · rw [if_neg hc]
        by_cases hq : (cfg.asserts = true → n + 20 ≤ d.length) ∧ (¬ num.toNat ≤ cfg.maxCount ∨ ((cfg.asserts = true → n + (20 + 8 * num.toNat) ≤ d.length) ∧ ¬ kk ≤ cfg.maxCount))
        · rw [if_pos hq]
          refine ⟨fun _ => ?_, fun _ => rfl⟩
          by_cases hm : num.toNat ≤ cfg.maxCount
          · obtain ⟨h1, h2⟩ := hq.2.resolve_left fun h => h hm
            exact .data h hm (fun ha => by have := h1 ha; omega) hd hk (by omega)
          · exact .tags h (fun ha => by have := hq.1 ha; omega) (by omega)
        · rw [if_neg hq]
          refine ⟨(fun h => by cases h), fun hb => ?_⟩
          rcases hb.inv h hk with ⟨h1, h2⟩ | ⟨h1, h2, -, h3 | ⟨h3, h4, -⟩⟩
          · exact absurd ⟨fun ha => by have := h1 ha; omega, Or.inl (by omega)⟩ hq
          · exact absurd ⟨fun ha => by have := h2 ha; omega, Or.inr ⟨fun ha => by have := h2 ha; omega, by omega⟩⟩ hq
          · exact absurd ⟨h1, h3, fun ha => by have := h4 ha; omega⟩ hc

theorem exhausts_nodesBinary41 (cfg : Cfg) (n : Nodes) {r d : Bytes} (h : DataAfter r d) : loadNodesBinary41 cfg n (payload r) = .throw .alloc ↔ Nodes41Exhaust cfg n d := by
  obtain ⟨st, h1, h2⟩ := eat_start h
  unfold loadNodesBinary41
  rw [Rd.bind_ok h1]
  obtain ⟨N, hN, e1⟩ := readSize_any n.numEntityBlocks 0 d
  obtain ⟨_, -, e2⟩ := readSize_any n.numNodes (0 + 8) d
  obtain ⟨_, -, e3⟩ := readSize_any n.minNodeTag (0 + 8 + 8) d
  obtain ⟨_, -, e4⟩ := readSize_any n.maxNodeTag (0 + 8 + 8 + 8) d
  rw [Rd.bind_ok ((readSize_start _ h2).trans e1), Rd.bind_ok e2, Rd.bind_ok e3, Rd.bind_ok e4]
  rw [List.drop_zero] at hN
  have one : ∀ {M : UInt64}, encU64 M = Over d (encU64 n.numEntityBlocks) → M = N := fun h => by
    have := congrArg decodeU64 (h.trans hN.symm)
    rwa [decodeU64_encU64, decodeU64_encU64] at this
  by_cases h32 : cfg.asserts = true → 32 ≤ d.length
  swap
  · rw [Rd.bind_def, assertGood_after, if_neg h32]
    exact ⟨(fun h => by cases h), fun h => absurd h.1 h32⟩
  rw [Rd.bind_ok ((assertGood_after ..).trans (if_pos h32))]
  by_cases hn : N.toNat ≤ cfg.maxCount
  swap
  · rw [Rd.bind_def, resize_after, if_neg hn]
    exact ⟨fun _ => ⟨h32, N, hN, Or.inl (by omega)⟩, fun _ => rfl⟩
  rw [Rd.bind_ok ((resize_after ..).trans (if_pos hn)), throw_bind (fun _ _ h => by cases h), ← endOf_throws, blocks_exhaust_iff]
  constructor
  · exact fun h => ⟨h32, N, hN, Or.inr h⟩
  · rintro ⟨-, M, hM, h⟩
    obtain rfl := one hM
    exact h.resolve_left (by omega)

/-! ## Elements -/

theorem elementBlocks_exhaust_iff {cfg : Cfg} (bs : List ElementBlock) (n : Nat) (d : Bytes) :
    endOf (forEach (loadElementBlockBinary41 cfg) bs (after n d)) = .throw .alloc ↔ ElementBlocksExhaust cfg bs (d.drop n) := by
  induction bs generalizing n with
  | nil => exact ⟨(fun h => by cases h), fun h => by cases h⟩
  | cons b bs ih =>
    obtain ⟨t, num, h⟩ := elementHead_exists b ((d.drop n).drop 8)
    have one : ∀ {t' num'}, encI32 t' ++ encU64 num' = Over ((d.drop n).drop 8) (encI32 b.elementType ++ encU64 b.numElementsInBlock) → t' = t ∧ num' = num := fun h' =>
      elementHead_inj (h'.trans h.symm)
    rw [endOf_forEach, elementBlockBinary_end cfg b n d h]
    have hred : ElementBlocksExhaust cfg (b :: bs) (d.drop n) ↔ ∃ m ∈ mshNodes t, ∃ k, k = num.toNat * (m + 1) % 2 ^ 64 ∧ (cfg.maxCount < k ∨
        ((cfg.asserts = true → 20 + 8 * k ≤ (d.drop n).length) ∧ ElementBlocksExhaust cfg bs ((d.drop n).drop (20 + 8 * k)))) := by
      constructor
      · rintro ⟨t', num', h', h2⟩
        obtain ⟨rfl, rfl⟩ := one h'
        exact h2
      · exact fun h2 => ⟨t, num, h, h2⟩
    rw [hred]
    have hl : (d.drop n).length = d.length - n := by simp
    cases hk : mshNodes t with
    | none => exact ⟨(fun h => by cases h), fun ⟨_, h, _⟩ => by cases h⟩
    | some m =>
      dsimp only
      by_cases hm : num.toNat * (m + 1) % 2 ^ 64 ≤ cfg.maxCount
      swap
      · rw [if_neg hm]
        exact ⟨fun _ => ⟨m, rfl, _, rfl, Or.inl (by omega)⟩, fun _ => rfl⟩
      rw [if_pos hm]
      have red : (∃ m' ∈ some m, ∃ k, k = num.toNat * (m' + 1) % 2 ^ 64 ∧ (cfg.maxCount < k ∨
          ((cfg.asserts = true → 20 + 8 * k ≤ (d.drop n).length) ∧ ElementBlocksExhaust cfg bs ((d.drop n).drop (20 + 8 * k))))) ↔
          (cfg.asserts = true → 20 + 8 * (num.toNat * (m + 1) % 2 ^ 64) ≤ (d.drop n).length) ∧ ElementBlocksExhaust cfg bs ((d.drop n).drop (20 + 8 * (num.toNat * (m + 1) % 2 ^ 64))) := by
        constructor
        · rintro ⟨_, e, _, rfl, h⟩
          cases e
          exact h.resolve_left (by omega)
        · exact fun h => ⟨m, rfl, _, rfl, Or.inr h⟩
      rw [red]
      generalize num.toNat * (m + 1) % 2 ^ 64 = k at *
      by_cases hq : cfg.asserts = true → n + (20 + 8 * k) ≤ d.length
      · rw [if_pos hq]
        show endOf (forEach _ bs (after _ d)) = _ ↔ _
        rw [ih, ← List.drop_drop]
        exact ⟨fun h => ⟨fun ha => by have := hq ha; omega, h⟩, fun h => h.2⟩
      · rw [if_neg hq]
        exact ⟨(fun h => by cases h), fun h => absurd (fun ha => by have := h.1 ha; omega) hq⟩

theorem exhausts_elementsBinary41 (cfg : Cfg) (e : Elements) {r d : Bytes} (h : DataAfter r d) : loadElementsBinary41 cfg e (payload r) = .throw .alloc ↔ Elements41Exhaust cfg e d := by
  obtain ⟨st, h1, h2⟩ := eat_start h
  unfold loadElementsBinary41
  rw [Rd.bind_ok h1]
  obtain ⟨N, hN, e1⟩ := readSize_any e.numEntityBlocks 0 d
  obtain ⟨_, -, e2⟩ := readSize_any e.numElements (0 + 8) d
  obtain ⟨_, -, e3⟩ := readSize_any e.minElementTag (0 + 8 + 8) d
  obtain ⟨_, -, e4⟩ := readSize_any e.maxElementTag (0 + 8 + 8 + 8) d
  rw [Rd.bind_ok ((readSize_start _ h2).trans e1), Rd.bind_ok e2, Rd.bind_ok e3, Rd.bind_ok e4]
  rw [List.drop_zero] at hN
  have one : ∀ {M : UInt64}, encU64 M = Over d (encU64 e.numEntityBlocks) → M = N := fun h => by
    have := congrArg decodeU64 (h.trans hN.symm)
    rwa [decodeU64_encU64, decodeU64_encU64] at this
  by_cases h32 : cfg.asserts = true → 32 ≤ d.length
  swap
  · rw [Rd.bind_def, assertGood_after, if_neg h32]
    exact ⟨(fun h => by cases h), fun h => absurd h.1 h32⟩
  rw [Rd.bind_ok ((assertGood_after ..).trans (if_pos h32))]
  by_cases hn : N.toNat ≤ cfg.maxCount
  swap
  · rw [Rd.bind_def, resize_after, if_neg hn]
    exact ⟨fun _ => ⟨h32, N, hN, Or.inl (by omega)⟩, fun _ => rfl⟩
  rw [Rd.bind_ok ((resize_after ..).trans (if_pos hn)), throw_bind (fun _ _ h => by cases h), ← endOf_throws, elementBlocks_exhaust_iff]
  constructor
  · exact fun h => ⟨h32, N, hN, Or.inr h⟩
  · rintro ⟨-, M, hM, h⟩
    obtain rfl := one hM
    exact h.resolve_left (by omega)

/-! ## Entities -/

/-- The reader asks for too much memory exactly if one of the lists of tags is too long, `j` bytes before the first one having been read; and never when the data has been cut off. -/
def AsksFrom (cfg : Cfg) (m : Rd α) (j g : Nat) (gaps : List Nat) : Prop := (∀ d, m (after j d) = .throw .alloc ↔ ListsExhaust cfg (g :: gaps) d) ∧ m spent ≠ .throw .alloc

/-- The reader asks for too much memory exactly if one of the lists of tags is too long, and never when the data has been cut off. -/
def Asks (cfg : Cfg) (m : Rd α) (gaps : List Nat) : Prop := (∀ d, m (gs d) = .throw .alloc ↔ ListsExhaust cfg gaps d) ∧ m spent ≠ .throw .alloc

theorem Asks.pure (cfg : Cfg) (a : α) : Asks cfg (pure a : Rd α) [] := ⟨fun _ => ⟨(fun h => by cases h), fun h => by cases h⟩, fun h => by cases h⟩

theorem AsksFrom.asks {cfg : Cfg} {m : Rd α} {g : Nat} {gaps : List Nat} (h : AsksFrom cfg m 0 g gaps) : Asks cfg m (g :: gaps) := ⟨fun d => by
  have := h.1 d
  rwa [after_zero] at this, h.2⟩

theorem AsksFrom.skip {cfg : Cfg} {m : Rd α} {f : α → Rd β} {j k g : Nat} {gaps : List Nat} (hm : Skips m k) (hf : ∀ a, AsksFrom cfg (f a) (j + k) g gaps) :
    AsksFrom cfg (m >>= f) j g gaps := by
  constructor
  · intro d
    obtain ⟨a, h⟩ := hm j d
    rw [Rd.bind_ok h]
    exact (hf a).1 d
  · obtain ⟨a, h⟩ := hm 1 []
    rw [after_spent (by simp), after_spent (by simp)] at h
    rw [Rd.bind_ok h]
    exact (hf a).2

theorem AsksFrom.list {cfg : Cfg} (v : List Int32) {f : List Int32 → Rd β} {g : Nat} {gaps : List Nat} (hf : ∀ a, Asks cfg (f a) gaps) :
    AsksFrom cfg (loadIntListBinary cfg v >>= f) g g gaps := by
  have cut : ∀ {st : Stream}, readSizeVar st = .ok (none, spent) → (loadIntListBinary cfg v >>= f) st ≠ .throw .alloc := by
    intro st h h'
    unfold loadIntListBinary at h'
    simp only [Rd.bind_assoc] at h'
    rw [Rd.bind_ok h] at h'
    rcases assertGood_cases cfg spent with ⟨h1, -⟩ | ⟨h1, -⟩
    · rw [Rd.bind_def, h1] at h'; cases h'
    · rw [Rd.bind_ok h1] at h'; cases h'
  refine ⟨fun d => ?_, cut readSizeVar_spent⟩
  by_cases hd : d.length < g + 8
  · have h : readSizeVar (after g d) = .ok (none, spent) := by
      by_cases hg : g ≤ d.length
      · rw [after_gs hg, readSizeVar_short (by simp; omega)]
      · rw [after_spent (by omega), readSizeVar_spent]
    refine ⟨fun h' => absurd h' (cut h), fun h => ?_⟩
    cases h <;> simp at hd <;> omega
  obtain ⟨sk, n, r, rfl, rfl⟩ := split_list (d := d) (g := g) (by omega)
  rw [after_gs (by simp)]
  have e1 : (sk ++ (encU64 n ++ r)).drop sk.length = encU64 n ++ r := by simp
  have hs : readSizeVar (gs (encU64 n ++ r)) = .ok (some n, gs r) := by
    rw [readSizeVar_gs (by simp), List.take_left' (by simp), List.drop_left' (by simp), decodeU64_encU64]
  have inv : ListsExhaust cfg (sk.length :: gaps) (sk ++ (encU64 n ++ r)) → cfg.maxCount < n.toNat ∨
      (n.toNat ≤ cfg.maxCount ∧ 4 * n.toNat ≤ r.length ∧ ListsExhaust cfg gaps (r.drop (4 * n.toNat))) := by
    generalize hg : sk.length = g at hd
    generalize hx : sk ++ (encU64 n ++ r) = x at hd
    intro h
    cases h with
    | here h1 h2 =>
      obtain ⟨-, h⟩ := List.append_inj hx (by omega)
      obtain ⟨rfl, rfl⟩ := encU64_append_inj h
      exact Or.inl h2
    | next h1 h2 h3 h4 =>
      obtain ⟨-, h⟩ := List.append_inj hx (by omega)
      obtain ⟨rfl, rfl⟩ := encU64_append_inj h
      exact Or.inr ⟨h2, h3, h4⟩
  rw [e1]
  have hg : ∀ x : Bytes, MshIO.assertGood cfg (gs x) = .ok ((), gs x) := fun x => by simp [MshIO.assertGood, Stream.good]
  by_cases hn : n.toNat ≤ cfg.maxCount
  · obtain ⟨l, hl, hl'⟩ := vecResize_runs hn v 0
    obtain ⟨l2, hl2, -⟩ := readInts_after l 0 r
    rw [after_zero, Nat.zero_add, hl'] at hl2
    have hres : resize cfg v n 0 (gs r) = .ok (l, gs r) := by unfold resize; rw [hl]; rfl
    by_cases hr : 4 * n.toNat ≤ r.length
    · rw [after_gs hr] at hl2
      have : loadIntListBinary cfg v (gs (encU64 n ++ r)) = .ok (l2, gs (r.drop (4 * n.toNat))) := by
        unfold loadIntListBinary
        rw [Rd.bind_ok hs, Rd.bind_ok (hg _), Rd.bind_ok (useVar_some _ _), Rd.bind_ok hres, Rd.bind_ok hl2, Rd.bind_ok (hg _)]
        rfl
      rw [Rd.bind_ok this, (hf l2).1]
      refine ⟨fun h => .next rfl hn hr h, fun h => ?_⟩
      rcases inv h with h | h
      · omega
      · exact h.2.2
    · rw [after_spent (by omega)] at hl2
      refine ⟨fun h => ?_, fun h => ?_⟩
      · unfold loadIntListBinary at h
        simp only [Rd.bind_assoc, Rd.pure_bind] at h
        rw [Rd.bind_ok hs, Rd.bind_ok (hg _), Rd.bind_ok (useVar_some _ _), Rd.bind_ok hres, Rd.bind_ok hl2] at h
        rcases assertGood_cases cfg spent with ⟨h1, -⟩ | ⟨h1, -⟩
        · rw [Rd.bind_def, h1] at h; cases h
        · rw [Rd.bind_ok h1] at h; exact absurd h (hf l2).2
      · rcases inv h with h | h
        · omega
        · exact absurd h.2.1 hr
  · have : loadIntListBinary cfg v (gs (encU64 n ++ r)) = .throw .alloc := by
      unfold loadIntListBinary
      rw [Rd.bind_ok hs, Rd.bind_ok (hg _), Rd.bind_ok (useVar_some _ _), Rd.bind_def]
      have : resize cfg v n 0 (gs r) = .throw .alloc := by unfold resize vecResize; rw [if_neg hn]; rfl
      rw [this]
    rw [Rd.bind_def, this]
    exact ⟨fun _ => .here rfl (by omega), fun _ => rfl⟩

theorem Asks.forEach {cfg : Cfg} {f : α → Rd α} {g : List Nat} (hf : ∀ a {γ : Type} (K : α → Rd γ) gaps, (∀ b, Asks cfg (K b) gaps) → Asks cfg (f a >>= K) (g ++ gaps))
    (l : List α) {γ : Type} (K : List α → Rd γ) (gaps : List Nat) (hK : ∀ b, Asks cfg (K b) gaps) : Asks cfg (forEach f l >>= K) ((List.replicate l.length g).flatten ++ gaps) := by
  induction l generalizing K with
  | nil => exact hK []
  | cons a l ih =>
    unfold MshIO.forEach
    rw [List.length_cons, List.replicate_succ, List.flatten_cons, List.append_assoc]
    have e : ((f a >>= fun b => MshIO.forEach f l >>= fun as => (Pure.pure (b :: as) : Rd _)) >>= K) = (f a >>= fun b => MshIO.forEach f l >>= fun as => K (b :: as)) := by
      rw [Rd.bind_assoc]
      congr 1
      funext b
      rw [Rd.bind_assoc]
      rfl
    rw [e]
    exact hf a _ _ fun b => ih _ fun c => hK _

theorem asks_point {cfg : Cfg} (p : PointEntity) {γ : Type} (K : PointEntity → Rd γ) (gaps : List Nat) (hK : ∀ b, Asks cfg (K b) gaps) :
    Asks cfg (loadPointBinary cfg p >>= K) ([4 + 3 * 8] ++ gaps) := by
  unfold loadPointBinary
  simp only [Rd.bind_assoc, Rd.pure_bind]
  exact AsksFrom.asks (AsksFrom.skip (skips_readInt _) fun _ => AsksFrom.skip (skips_readDouble _) fun _ => AsksFrom.skip (skips_readDouble _) fun _ =>
    AsksFrom.skip (skips_readDouble _) fun _ => AsksFrom.list _ fun _ => hK _)

theorem asks_box {cfg : Cfg} (p : BoxEntity) {γ : Type} (K : BoxEntity → Rd γ) (gaps : List Nat) (hK : ∀ b, Asks cfg (K b) gaps) :
    Asks cfg (loadBoxBinary cfg p >>= K) ([4 + 6 * 8, 0] ++ gaps) := by
  unfold loadBoxBinary
  simp only [Rd.bind_assoc, Rd.pure_bind]
  exact AsksFrom.asks (AsksFrom.skip (skips_readInt _) fun _ => AsksFrom.skip (skips_readDouble _) fun _ => AsksFrom.skip (skips_readDouble _) fun _ =>
    AsksFrom.skip (skips_readDouble _) fun _ => AsksFrom.skip (skips_readDouble _) fun _ => AsksFrom.skip (skips_readDouble _) fun _ => AsksFrom.skip (skips_readDouble _) fun _ =>
    AsksFrom.list _ fun _ => AsksFrom.asks (AsksFrom.list _ fun _ => hK _))

theorem asks_tail {cfg : Cfg} (p : List PointEntity) (c s v : List BoxEntity) :
    Asks cfg (entitiesTail cfg p c s v) (List.replicate p.length (4 + 3 * 8) ++ (List.replicate (c.length + s.length + v.length) [4 + 6 * 8, 0]).flatten) := by
  have e : List.replicate p.length (4 + 3 * 8) ++ (List.replicate (c.length + s.length + v.length) [4 + 6 * 8, 0]).flatten =
      (List.replicate p.length [4 + 3 * 8]).flatten ++ ((List.replicate c.length [4 + 6 * 8, 0]).flatten ++ ((List.replicate s.length [4 + 6 * 8, 0]).flatten ++
        ((List.replicate v.length [4 + 6 * 8, 0]).flatten ++ []))) := by
    rw [List.append_nil, List.replicate_add, List.replicate_add, List.flatten_append, List.flatten_append, List.append_assoc]
    congr 1
    induction p.length with
    | zero => rfl
    | succ n ih => rw [List.replicate_succ, List.replicate_succ, List.flatten_cons, ← ih]; rfl
  rw [e]
  unfold entitiesTail
  exact Asks.forEach (fun a _ K g h => asks_point a K g h) p _ _ fun _ => Asks.forEach (fun a _ K g h => asks_box a K g h) c _ _ fun _ =>
    Asks.forEach (fun a _ K g h => asks_box a K g h) s _ _ fun _ => Asks.forEach (fun a _ K g h => asks_box a K g h) v _ _ fun _ => Asks.pure cfg _

theorem asks_resize {cfg : Cfg} {o : Option UInt64} {v : List α} {x : α} {f : List α → Rd β} {s : Stream} {Q : UInt64 → Prop}
    (hf : ∀ n ∈ o, ∀ l : List α, n.toNat ≤ cfg.maxCount → l.length = n.toNat → (f l s = .throw .alloc ↔ Q n)) :
    (useVar o >>= fun n => resize cfg v n x >>= f) s = .throw .alloc ↔ ∃ n ∈ o, cfg.maxCount < n.toNat ∨ (n.toNat ≤ cfg.maxCount ∧ Q n) := by
  cases o with
  | none => exact ⟨(fun h => by cases h), fun ⟨_, h, _⟩ => by cases h⟩
  | some n =>
    rw [Rd.bind_ok (useVar_some _ _)]
    have red : (∃ m ∈ some n, cfg.maxCount < m.toNat ∨ (m.toNat ≤ cfg.maxCount ∧ Q m)) ↔ cfg.maxCount < n.toNat ∨ (n.toNat ≤ cfg.maxCount ∧ Q n) :=
      ⟨fun ⟨_, e, h⟩ => by cases e; exact h, fun h => ⟨n, rfl, h⟩⟩
    rw [red]
    by_cases hn : n.toNat ≤ cfg.maxCount
    · obtain ⟨l, hl, hl'⟩ := vecResize_runs hn v x
      rw [Rd.bind_ok (show resize cfg v n x s = .ok (l, s) by unfold resize; rw [hl]; rfl), hf n rfl l hn hl']
      exact ⟨fun h => Or.inr ⟨hn, h⟩, fun h => (h.resolve_left (by omega)).2⟩
    · have : resize cfg v n x s = .throw .alloc := by unfold resize vecResize; rw [if_neg hn]; rfl
      rw [Rd.bind_def, this]
      exact ⟨fun _ => Or.inl (by omega), fun _ => rfl⟩

/-- The counts, one after the other, and what comes after them. -/
def CountsExhaust (cfg : Cfg) : List (Option UInt64) → (List UInt64 → Prop) → Prop
  | [], P => P []
  | o :: os, P => ∃ n ∈ o, cfg.maxCount < n.toNat ∨ (n.toNat ≤ cfg.maxCount ∧ CountsExhaust cfg os fun l => P (n :: l))

/-- Lists of tags for these counts. -/
def ListsFor (cfg : Cfg) (r : Bytes) : List UInt64 → Prop
  | [p, c, s, v] => ListsExhaust cfg (List.replicate p.toNat (4 + 3 * 8) ++ (List.replicate (c.toNat + s.toNat + v.toNat) [4 + 6 * 8, 0]).flatten) r
  | _ => False

theorem asks_counts (cfg : Cfg) (e : Entities) (p c s v : Option UInt64) (st : Stream) (r : Bytes) (h : ∀ q ∈ p, ∀ w ∈ c, ∀ u ∈ s, ∀ t ∈ v, st = gs r) :
    entitiesCounts cfg e p c s v st = .throw .alloc ↔ CountsExhaust cfg [p, c, s, v] (ListsFor cfg r) := by
  unfold entitiesCounts
  refine asks_resize fun p hp lp _ lp' => asks_resize fun c hc lc _ lc' => asks_resize fun s hs ls _ ls' => asks_resize fun v hv lv _ lv' => ?_
  rw [h p hp c hc s hs v hv]
  have h := (asks_tail (cfg := cfg) lp lc ls lv).1 r
  rwa [lp', lc', ls', lv'] at h

theorem countsExhaust_append (cfg : Cfg) (l : List UInt64) (t : List (Option UInt64)) (P : List UInt64 → Prop) : CountsExhaust cfg (l.map some ++ t) P ↔
    (∃ pre n post, l = pre ++ n :: post ∧ (∀ m ∈ pre, m.toNat ≤ cfg.maxCount) ∧ cfg.maxCount < n.toNat) ∨
      ((∀ m ∈ l, m.toNat ≤ cfg.maxCount) ∧ CountsExhaust cfg t fun l' => P (l ++ l')) := by
  induction l generalizing P with
  | nil =>
    refine ⟨fun h => Or.inr ⟨by simp, h⟩, fun h => ?_⟩
    rcases h with ⟨pre, n, post, h, -⟩ | ⟨-, h⟩
    · simp at h
    · exact h
  | cons a l ih =>
    have red : CountsExhaust cfg ((a :: l).map some ++ t) P ↔ cfg.maxCount < a.toNat ∨ (a.toNat ≤ cfg.maxCount ∧ CountsExhaust cfg (l.map some ++ t) fun l => P (a :: l)) :=
      ⟨fun ⟨_, e, h⟩ => by cases e; exact h, fun h => ⟨a, rfl, h⟩⟩
    rw [red, ih]
    constructor
    · rintro (h | ⟨h, ⟨pre, n, post, rfl, h1, h2⟩ | ⟨h1, h2⟩⟩)
      · exact Or.inl ⟨[], a, l, rfl, by simp, h⟩
      · exact Or.inl ⟨a :: pre, n, post, rfl, List.forall_mem_cons.mpr ⟨h, h1⟩, h2⟩
      · exact Or.inr ⟨List.forall_mem_cons.mpr ⟨h, h1⟩, h2⟩
    · rintro (⟨_ | ⟨b, pre⟩, n, post, e, h1, h2⟩ | ⟨h1, h2⟩)
      · cases e; exact Or.inl h2
      · cases e
        exact Or.inr ⟨(List.forall_mem_cons.mp h1).1, Or.inl ⟨pre, n, post, rfl, (List.forall_mem_cons.mp h1).2, h2⟩⟩
      · exact Or.inr ⟨(List.forall_mem_cons.mp h1).1, Or.inr ⟨(List.forall_mem_cons.mp h1).2, h2⟩⟩

theorem flatMap_encU64_length (l : List UInt64) : (l.flatMap encU64).length = 8 * l.length := by
  induction l with
  | nil => rfl
  | cons a l ih => rw [List.flatMap_cons, List.length_append, ih]; simp; omega

theorem flatMap_encU64_prefix {l m : List UInt64} {r r' : Bytes} (h : l.flatMap encU64 ++ r = m.flatMap encU64 ++ r') (hl : m.length ≤ l.length) :
    ∃ post, l = m ++ post ∧ post.flatMap encU64 ++ r = r' := by
  induction m generalizing l with
  | nil => exact ⟨l, rfl, h⟩
  | cons a m ih =>
    cases l with
    | nil => simp at hl
    | cons b l =>
      rw [List.flatMap_cons, List.flatMap_cons, List.append_assoc, List.append_assoc] at h
      obtain ⟨rfl, h'⟩ := encU64_append_inj h
      obtain ⟨post, rfl, h2⟩ := ih h' (by simpa using hl)
      exact ⟨post, rfl, h2⟩

/-- What the data says about the counts: the ones that are there, and what follows them. -/
theorem entitiesExhaust_iff (cfg : Cfg) (l : List UInt64) (r : Bytes) (hl : l.length = 4 ∨ (l.length < 4 ∧ r.length < 8)) : EntitiesExhaust cfg (l.flatMap encU64 ++ r) ↔
    ((cfg.asserts = true → l.length = 4) ∧ ∃ pre n post, l = pre ++ n :: post ∧ (∀ m ∈ pre, m.toNat ≤ cfg.maxCount) ∧ cfg.maxCount < n.toNat) ∨
      ((∀ m ∈ l, m.toNat ≤ cfg.maxCount) ∧ ListsFor cfg r l) := by
  have hlen : (l.flatMap encU64 ++ r).length = 8 * l.length + r.length := by rw [List.length_append, flatMap_encU64_length]
  have hle : ∀ {m : List UInt64} {r'}, l.flatMap encU64 ++ r = m.flatMap encU64 ++ r' → m.length ≤ 4 → m.length ≤ l.length := by
    intro m r' h hm
    have := congrArg List.length h
    rw [hlen, List.length_append, flatMap_encU64_length] at this
    omega
  have h32 : (cfg.asserts = true → 32 ≤ (l.flatMap encU64 ++ r).length) ↔ (cfg.asserts = true → l.length = 4) := by
    rw [hlen]
    refine imp_congr_right fun _ => ?_
    omega
  unfold EntitiesExhaust
  rw [h32]
  refine or_congr (and_congr_right fun _ => ?_) ?_
  · constructor
    · rintro ⟨pre, n, r', h, h1, h2, h3⟩
      obtain ⟨post, rfl, -⟩ := flatMap_encU64_prefix h (hle h (by simp; omega))
      exact ⟨pre, n, post, by simp, h2, h3⟩
    · rintro ⟨pre, n, post, rfl, h2, h3⟩
      refine ⟨pre, n, post.flatMap encU64 ++ r, by simp, ?_, h2, h3⟩
      simp at hl
      omega
  · constructor
    · rintro ⟨p, c, s, v, r', h, h1, h2⟩
      obtain ⟨post, rfl, hr⟩ := flatMap_encU64_prefix h (hle h (by simp))
      have : post = [] := by
        rcases hl with hl | hl <;> simp at hl
        · exact hl
        · omega
      subst this
      rw [List.append_nil]
      rw [List.flatMap_nil, List.nil_append] at hr
      subst hr
      exact ⟨h1, h2⟩
    · rintro ⟨h1, h2⟩
      match l, h2 with
      | [p, c, s, v], h2 => exact ⟨p, c, s, v, r, rfl, h1, h2⟩

/-- What reading four counts yields. -/
theorem readCounts (d : Bytes) {st : Stream} (h2 : st = gs d ∨ (d = [] ∧ st.good = false)) : ∃ (l : List UInt64) (r : Bytes) (st' : Stream), d = l.flatMap encU64 ++ r ∧
    ((l.length = 4 ∧ st' = gs r) ∨ (l.length < 4 ∧ r.length < 8 ∧ st'.good = false)) ∧
    ∀ {γ : Type} (f : Option UInt64 → Option UInt64 → Option UInt64 → Option UInt64 → Rd γ),
      (readSizeVar >>= fun p => readSizeVar >>= fun c => readSizeVar >>= fun s => readSizeVar >>= fun v => f p c s v) st = f l[0]? l[1]? l[2]? l[3]? st' := by
  rcases readSizeVar_start h2 with ⟨hd, s1, e1, g1⟩ | ⟨p, r1, rfl, e1⟩
  · obtain ⟨s2, e2, g2⟩ := readSizeVar_bad_any g1
    obtain ⟨s3, e3, g3⟩ := readSizeVar_bad_any g2
    obtain ⟨s4, e4, g4⟩ := readSizeVar_bad_any g3
    refine ⟨[], d, s4, rfl, Or.inr ⟨by decide, hd, g4⟩, fun f => ?_⟩
    rw [Rd.bind_ok e1, Rd.bind_ok e2, Rd.bind_ok e3, Rd.bind_ok e4]
    rfl
  rcases readSizeVar_start (Or.inl rfl : gs r1 = gs r1 ∨ _) with ⟨hd, s2, e2, g2⟩ | ⟨c, r2, rfl, e2⟩
  · obtain ⟨s3, e3, g3⟩ := readSizeVar_bad_any g2
    obtain ⟨s4, e4, g4⟩ := readSizeVar_bad_any g3
    refine ⟨[p], r1, s4, by simp, Or.inr ⟨by simp, hd, g4⟩, fun f => ?_⟩
    rw [Rd.bind_ok e1, Rd.bind_ok e2, Rd.bind_ok e3, Rd.bind_ok e4]
    rfl
  rcases readSizeVar_start (Or.inl rfl : gs r2 = gs r2 ∨ _) with ⟨hd, s3, e3, g3⟩ | ⟨s, r3, rfl, e3⟩
  · obtain ⟨s4, e4, g4⟩ := readSizeVar_bad_any g3
    refine ⟨[p, c], r2, s4, by simp, Or.inr ⟨by simp, hd, g4⟩, fun f => ?_⟩
    rw [Rd.bind_ok e1, Rd.bind_ok e2, Rd.bind_ok e3, Rd.bind_ok e4]
    rfl
  rcases readSizeVar_start (Or.inl rfl : gs r3 = gs r3 ∨ _) with ⟨hd, s4, e4, g4⟩ | ⟨v, r4, rfl, e4⟩
  · refine ⟨[p, c, s], r3, s4, by simp, Or.inr ⟨by simp, hd, g4⟩, fun f => ?_⟩
    rw [Rd.bind_ok e1, Rd.bind_ok e2, Rd.bind_ok e3, Rd.bind_ok e4]
    rfl
  refine ⟨[p, c, s, v], r4, gs r4, by simp, Or.inl ⟨rfl, rfl⟩, fun f => ?_⟩
  rw [Rd.bind_ok e1, Rd.bind_ok e2, Rd.bind_ok e3, Rd.bind_ok e4]
  rfl

theorem exhausts_entitiesBinary41 (cfg : Cfg) (e : Entities) {r d : Bytes} (h : DataAfter r d) : loadEntitiesBinary41 cfg e (payload r) = .throw .alloc ↔ EntitiesExhaust cfg d := by
  obtain ⟨st, h1, h2⟩ := eat_data h
  have : loadEntitiesBinary41 cfg e (payload r) = entitiesData cfg e st := by
    unfold loadEntitiesBinary41
    rw [Rd.bind_ok h1]
    rfl
  rw [this]
  unfold entitiesData
  obtain ⟨l, r, st', rfl, hl, hf⟩ := readCounts d h2
  rw [hf, entitiesExhaust_iff cfg l r (hl.imp (fun h => h.1) fun h => ⟨h.1, h.2.1⟩)]
  rcases hl with ⟨hl, rfl⟩ | ⟨hl, hr, hg⟩
  · have hg : MshIO.assertGood cfg (gs r) = .ok ((), gs r) := by simp [MshIO.assertGood, Stream.good]
    rw [Rd.bind_ok hg]
    match l, hl with
    | [p, c, s, v], _ =>
      refine (asks_counts cfg e (some p) (some c) (some s) (some v) (gs r) r fun _ _ _ _ _ _ _ _ => rfl).trans ?_
      refine (countsExhaust_append cfg [p, c, s, v] [] _).trans (or_congr ?_ Iff.rfl)
      exact ⟨fun h => ⟨fun _ => rfl, h⟩, fun h => h.2⟩
  · have hno : ¬ ListsFor cfg r l := by
      match l, hl with
      | [], _ => exact id
      | [_], _ => exact id
      | [_, _], _ => exact id
      | [_, _, _], _ => exact id
    cases ha : cfg.asserts with
    | true =>
      rw [Rd.bind_abort (by simp [MshIO.assertGood, ha, hg])]
      refine ⟨(fun h => by cases h), fun h => ?_⟩
      rcases h with ⟨h, -⟩ | ⟨-, h⟩
      · have := h rfl; omega
      · exact absurd h hno
    | false =>
      rw [Rd.bind_ok (show MshIO.assertGood cfg st' = .ok ((), st') by simp [MshIO.assertGood, ha])]
      have key : ∀ t, l[0]? :: l[1]? :: l[2]? :: [l[3]?] = l.map some ++ none :: t → (entitiesCounts cfg e l[0]? l[1]? l[2]? l[3]? st' = .throw .alloc ↔
          (∃ pre n post, l = pre ++ n :: post ∧ (∀ m ∈ pre, m.toNat ≤ cfg.maxCount) ∧ cfg.maxCount < n.toNat)) := by
        intro t ht
        have h3 : l[3]? = none := by simp; omega
        refine (asks_counts cfg e l[0]? l[1]? l[2]? l[3]? st' r fun _ _ _ _ _ _ _ h => by rw [h3] at h; cases h).trans ?_
        rw [ht, countsExhaust_append]
        exact ⟨fun h => h.elim id (fun ⟨_, _, h, _⟩ => (by cases h)), Or.inl⟩
      have : entitiesCounts cfg e l[0]? l[1]? l[2]? l[3]? st' = .throw .alloc ↔
          (∃ pre n post, l = pre ++ n :: post ∧ (∀ m ∈ pre, m.toNat ≤ cfg.maxCount) ∧ cfg.maxCount < n.toNat) := by
        rcases l with _ | ⟨p, _ | ⟨c, _ | ⟨q, _ | ⟨v, l⟩⟩⟩⟩
        · exact key [none, none, none] rfl
        · exact key [none, none] rfl
        · exact key [none] rfl
        · exact key [] rfl
        · simp at hl; omega
      refine this.trans ⟨fun h => Or.inl ⟨(fun h => by cases h), h⟩, fun h => ?_⟩
      rcases h with ⟨-, h⟩ | ⟨-, h⟩
      · exact h
      · exact absurd h hno

end MshIO
