import Verif.Proofs.EndingsData
import Verif.Proofs.EndingsNodes
import Verif.Proofs.Unstuck

/-! # How reading a section ends: binary files of version 4.1 -/

namespace MshIO

variable {α β : Type} {k : Ending}

theorem endOf_abort {o : Outcome (α × Stream)} : endOf o = .abort ↔ o = .abort := by cases o <;> simp [endOf]

theorem abort_bind {m : Rd α} {f : α → Rd β} {s : Stream} (h : ∀ a s', f a s' ≠ .abort) : (m >>= f) s = .abort ↔ m s = .abort := by
  rw [Rd.bind_def]
  cases hm : m s with
  | ok x => exact ⟨fun h' => absurd h' (h _ _), fun h => by cases h⟩
  | throw x => exact ⟨(fun h => by cases h), fun h => by cases h⟩
  | abort => exact ⟨fun _ => rfl, fun _ => rfl⟩
  | hang => exact ⟨(fun h => by cases h), fun h => by cases h⟩
  | ub => exact ⟨(fun h => by cases h), fun h => by cases h⟩

theorem flows_not_sticks {m : Rd α} (h : Flows m) (r : Bytes) : ¬ Ending.sticks.Of (m (payload r)) := by
  rintro ⟨a, s, e, h1, h2⟩
  have := h.all _ _ _ (fun h => by cases h) e h1
  rw [h2] at this
  cases this

/-! ## Nodes -/

theorem BlocksCut.inv {cfg : Cfg} {n : Nat} {dim tag par : Int32} {num : UInt64} {r : Bytes} {k : Nat} (hk : (k : Int) = num.toNat * (3 + if par = 1 then dim.toInt else 0) % 2 ^ 64)
    (h : BlocksCut cfg (n + 1) (blockHead dim tag par num ++ r)) : num.toNat ≤ cfg.maxCount ∧ (r.length < 8 * num.toNat ∨ (8 * num.toNat ≤ r.length ∧
      ¬ (par = 1 ∧ 2 ^ 31 ≤ dim.toInt + 3) ∧ k ≤ cfg.maxCount ∧ (r.length < 8 * num.toNat + 8 * k ∨ (8 * num.toNat + 8 * k ≤ r.length ∧ BlocksCut cfg n (r.drop (8 * num.toNat + 8 * k)))))) := by
  generalize hx : blockHead dim tag par num ++ r = x at h
  have hl : ∀ (a b c : Int32) (m : UInt64), (blockHead a b c m).length = 20 := fun _ _ _ _ => by simp [blockHead]
  cases h with
  | head h => rw [← hx, List.length_append, hl] at h; omega
  | tags h1 h2 =>
    obtain ⟨h, rfl⟩ := List.append_inj hx (by rw [hl, hl])
    obtain ⟨rfl, rfl, rfl, rfl⟩ := blockHead_inj h
    exact ⟨h1, Or.inl h2⟩
  | @data _ _ _ _ _ _ k' h1 h2 h3 h4 h5 h6 =>
    obtain ⟨h, rfl⟩ := List.append_inj hx (by rw [hl, hl])
    obtain ⟨rfl, rfl, rfl, rfl⟩ := blockHead_inj h
    have : k' = k := by exact_mod_cast h4.trans hk.symm
    subst this
    exact ⟨h1, Or.inr ⟨h2, h3, h5, Or.inl h6⟩⟩
  | @next _ _ _ _ _ _ k' h1 h2 h3 h4 h5 h6 =>
    obtain ⟨h, rfl⟩ := List.append_inj hx (by rw [hl, hl])
    obtain ⟨rfl, rfl, rfl, rfl⟩ := blockHead_inj h
    have : k' = k := by exact_mod_cast h3.trans hk.symm
    subst this
    exact ⟨h1, Or.inr ⟨by omega, h2, h4, Or.inr ⟨h5, h6⟩⟩⟩

theorem head_split {b : NodeBlock} {d : Bytes} {dim tag par : Int32} {num : UInt64} (h : ReadsHead b d dim tag par num) (hd : 20 ≤ d.length) :
    d = blockHead dim tag par num ++ d.drop 20 := by
  have hl : (blockHead b.entityDim b.entityTag b.parametric b.numNodesInBlock).length = 20 := by simp [blockHead]
  unfold ReadsHead at h
  rw [h]
  unfold Over
  rw [hl, List.drop_eq_nil_of_le (by rw [hl]; exact hd), List.append_nil, List.take_append_drop]

theorem blocks_abort_iff {cfg : Cfg} (ha : cfg.asserts = true) (bs : List NodeBlock) (n : Nat) (d : Bytes) (hn : n ≤ d.length) :
    endOf (forEach (loadNodeBlockBinary41 cfg) bs (after n d)) = .abort ↔ BlocksCut cfg bs.length (d.drop n) := by
  induction bs generalizing n with
  | nil => exact ⟨(fun h => by cases h), fun h => by cases h⟩
  | cons b bs ih =>
    obtain ⟨dim, tag, par, num, h⟩ := headOf b (d.drop n)
    rw [endOf_forEach, List.length_cons]
    have hl : (d.drop n).length = d.length - n := by simp
    by_cases h20 : n + 20 ≤ d.length
    swap
    · have hc : BlocksCut cfg (bs.length + 1) (d.drop n) := .head (by omega)
      refine ⟨fun _ => hc, fun _ => ?_⟩
      by_cases hd : par = 1 ∧ 2 ^ 31 ≤ dim.toInt + 3
      · rw [blockBinary_ub h hd.1 hd.2, if_neg (fun h => by have := h.2 ha; omega), if_neg (fun h => h20 (h.1 ha))]; rfl
      · obtain ⟨e, -, hk⟩ := entries_toNat num par dim hd
        rw [blockBinary_ok h hd hk, if_neg (fun h => by have := h.2.2 ha; omega), if_neg (fun h => h20 (h.1 ha))]; rfl
    have hs := head_split h (by omega)
    have hl2 : ((d.drop n).drop 20).length = d.length - n - 20 := by simp; omega
    by_cases hd : par = 1 ∧ 2 ^ 31 ≤ dim.toInt + 3
    · rw [blockBinary_ub h hd.1 hd.2]
      rw [hs]
      generalize hx : (d.drop n).drop 20 = x at hl2
      obtain ⟨kk, hk⟩ : ∃ kk : Nat, (kk : Int) = num.toNat * (3 + if par = 1 then dim.toInt else 0) % 2 ^ 64 := ⟨(num.toNat * (3 + if par = 1 then dim.toInt else 0) % 2 ^ 64).toNat,
        Int.toNat_of_nonneg (Int.emod_nonneg _ (by decide))⟩
      by_cases hc : num.toNat ≤ cfg.maxCount ∧ (cfg.asserts = true → n + (20 + 8 * num.toNat) ≤ d.length)
      · rw [if_pos hc]
        refine ⟨(fun h => by cases h), fun h => ?_⟩
        have := hc.2 ha
        rcases (h.inv hk).2 with h | h
        · omega
        · exact absurd hd h.2.1
      · rw [if_neg hc]
        by_cases hm : num.toNat ≤ cfg.maxCount
        · rw [if_neg (fun h => h.2 hm)]
          exact ⟨fun _ => .tags hm (by have : ¬ n + (20 + 8 * num.toNat) ≤ d.length := fun h => hc ⟨hm, fun _ => h⟩
                                       omega), fun _ => rfl⟩
        · rw [if_pos ⟨fun _ => h20, hm⟩]
          exact ⟨(fun h => by cases h), fun h => absurd (h.inv hk).1 hm⟩
    · obtain ⟨e, -, hk⟩ := entries_toNat num par dim hd
      rw [blockBinary_ok h hd hk]
      generalize (num * e).toNat = kk at hk ⊢
      by_cases hc : num.toNat ≤ cfg.maxCount ∧ kk ≤ cfg.maxCount ∧ (cfg.asserts = true → n + (20 + 8 * num.toNat + 8 * kk) ≤ d.length)
      · rw [if_pos hc]
        show endOf (forEach _ bs (after _ d)) = .abort ↔ _
        have h3 := hc.2.2 ha
        rw [ih _ h3]
        have e1 : d.drop (n + (20 + 8 * num.toNat + 8 * kk)) = ((d.drop n).drop 20).drop (8 * num.toNat + 8 * kk) := by
          rw [List.drop_drop, List.drop_drop]; congr 1; omega
        rw [e1]
        constructor
        · intro hb
          rw [hs]
          exact .next hc.1 hd hk hc.2.1 (by omega) hb
        · intro hb
          rw [hs] at hb
          rcases (hb.inv hk).2 with h | ⟨_, _, _, h | h⟩
          · omega
          · omega
          · exact h.2
      · rw [if_neg hc, hs]
        generalize hx : (d.drop n).drop 20 = x at hl2
        have hc2 : (cfg.asserts = true → n + 20 ≤ d.length) ∧ (¬ num.toNat ≤ cfg.maxCount ∨ ((cfg.asserts = true → n + (20 + 8 * num.toNat) ≤ d.length) ∧ ¬ kk ≤ cfg.maxCount)) ↔
            (¬ num.toNat ≤ cfg.maxCount ∨ (n + (20 + 8 * num.toNat) ≤ d.length ∧ ¬ kk ≤ cfg.maxCount)) :=
          ⟨fun h => h.2.imp id fun h => ⟨h.1 ha, h.2⟩, fun h => ⟨fun _ => h20, h.imp id fun h => ⟨fun _ => h.1, h.2⟩⟩⟩
        by_cases hq : ¬ num.toNat ≤ cfg.maxCount ∨ (n + (20 + 8 * num.toNat) ≤ d.length ∧ ¬ kk ≤ cfg.maxCount)
        · rw [if_pos (hc2.mpr hq)]
          refine ⟨(fun h => by cases h), fun h => ?_⟩
          obtain ⟨h1, h2⟩ := h.inv hk
          rcases hq with hq | hq
          · exact absurd h1 hq
          · rcases h2 with h2 | h2
            · omega
            · exact absurd h2.2.2.1 hq.2
        · rw [if_neg (fun h => hq (hc2.mp h))]
          refine ⟨fun _ => ?_, fun _ => rfl⟩
          have q1 : num.toNat ≤ cfg.maxCount := by by_contra h; exact hq (Or.inl h)
          by_cases q2 : n + (20 + 8 * num.toNat) ≤ d.length
          · have q3 : kk ≤ cfg.maxCount := by by_contra h; exact hq (Or.inr ⟨q2, h⟩)
            exact .data q1 (by omega) hd hk q3 (by
              have : ¬ n + (20 + 8 * num.toNat + 8 * kk) ≤ d.length := fun h => hc ⟨q1, q3, fun _ => h⟩
              omega)
          · exact .tags q1 (by omega)

theorem over_full {d : Bytes} {a o : UInt64} (h : encU64 a = Over d (encU64 o)) (hd : 8 ≤ d.length) : d = encU64 a ++ d.drop 8 := by
  rw [h]
  unfold Over
  rw [encU64_length, List.drop_eq_nil_of_le (by rw [encU64_length]; exact hd), List.append_nil, List.take_append_drop]

theorem nodesBinary_abort_iff {cfg : Cfg} (ha : cfg.asserts = true) (n : Nodes) {r d : Bytes} (h : DataAfter r d) :
    loadNodesBinary41 cfg n (payload r) = .abort ↔ Nodes41Cut cfg d := by
  obtain ⟨st, h1, h2⟩ := eat_start h
  unfold loadNodesBinary41
  rw [Rd.bind_ok h1]
  obtain ⟨N, hN, e1⟩ := readSize_any n.numEntityBlocks 0 d
  obtain ⟨_, -, e2⟩ := readSize_any n.numNodes (0 + 8) d
  obtain ⟨_, -, e3⟩ := readSize_any n.minNodeTag (0 + 8 + 8) d
  obtain ⟨_, -, e4⟩ := readSize_any n.maxNodeTag (0 + 8 + 8 + 8) d
  rw [Rd.bind_ok ((readSize_start _ h2).trans e1), Rd.bind_ok e2, Rd.bind_ok e3, Rd.bind_ok e4]
  by_cases h32 : 32 ≤ d.length
  swap
  · rw [Rd.bind_def, assertGood_after, if_neg (fun h => h32 (by have := h ha; omega))]
    exact ⟨fun _ => Or.inl (by omega), fun _ => rfl⟩
  rw [Rd.bind_ok ((assertGood_after ..).trans (if_pos fun h => by omega))]
  have hs := over_full hN (by simpa using (by omega : 8 ≤ d.length))
  rw [List.drop_zero] at hs
  have one : ∀ {M : UInt64} {r : Bytes}, d = encU64 M ++ r → M = N ∧ r = d.drop 8 := fun h => encU64_append_inj (h.symm.trans hs)
  by_cases hn : N.toNat ≤ cfg.maxCount
  swap
  · rw [Rd.bind_def, resize_after, if_neg hn]
    refine ⟨(fun h => by cases h), fun h => ?_⟩
    rcases h with h | ⟨M, r, hM, _, hm, _⟩
    · omega
    · exact absurd ((one hM).1 ▸ hm) hn
  rw [Rd.bind_ok ((resize_after ..).trans (if_pos hn)), abort_bind (fun _ _ h => by cases h), ← endOf_abort, blocks_abort_iff ha _ _ _ (by omega), resized_length]
  constructor
  · intro h
    exact Or.inr ⟨N, d.drop 8, hs, by simp; omega, hn, by rw [List.drop_drop]; exact h⟩
  · intro h
    rcases h with h | ⟨M, r, hM, _, hm, h⟩
    · omega
    · obtain ⟨rfl, rfl⟩ := one hM
      rw [List.drop_drop] at h
      exact h

/-! ## Elements -/

theorem elementBlocks_abort_iff {cfg : Cfg} (ha : cfg.asserts = true) (bs : List ElementBlock) (n : Nat) (d : Bytes) (hn : n ≤ d.length) :
    endOf (forEach (loadElementBlockBinary41 cfg) bs (after n d)) = .abort ↔ ElementBlocksCut cfg bs (d.drop n) := by
  induction bs generalizing n with
  | nil => exact ⟨(fun h => by cases h), fun h => by cases h⟩
  | cons b bs ih =>
    obtain ⟨t, num, h⟩ := elementHead_exists b ((d.drop n).drop 8)
    have one : ∀ {t' num'}, encI32 t' ++ encU64 num' = Over ((d.drop n).drop 8) (encI32 b.elementType ++ encU64 b.numElementsInBlock) → t' = t ∧ num' = num := fun h' =>
      elementHead_inj (h'.trans h.symm)
    rw [endOf_forEach, elementBlockBinary_end cfg b n d h]
    have hred : ElementBlocksCut cfg (b :: bs) (d.drop n) ↔ ∃ m ∈ mshNodes t, ∃ k, k = num.toNat * (m + 1) % 2 ^ 64 ∧ k ≤ cfg.maxCount ∧
        ((d.drop n).length < 20 + 8 * k ∨ ElementBlocksCut cfg bs ((d.drop n).drop (20 + 8 * k))) := by
      constructor
      · rintro ⟨t', num', h', h2⟩
        obtain ⟨rfl, rfl⟩ := one h'
        exact h2
      · exact fun h2 => ⟨t, num, h, h2⟩
    rw [hred]
    cases hk : mshNodes t with
    | none => exact ⟨(fun h => by cases h), fun ⟨_, h, _⟩ => by cases h⟩
    | some m =>
      dsimp only
      by_cases hm : num.toNat * (m + 1) % 2 ^ 64 ≤ cfg.maxCount
      swap
      · rw [if_neg hm]
        refine ⟨(fun h => by cases h), fun ⟨_, e, _, hk, h, _⟩ => ?_⟩
        cases e; subst hk; exact absurd h hm
      rw [if_pos hm]
      by_cases hl : n + (20 + 8 * (num.toNat * (m + 1) % 2 ^ 64)) ≤ d.length
      swap
      · rw [if_neg (fun h => hl (h ha))]
        exact ⟨fun _ => ⟨m, rfl, _, rfl, hm, Or.inl (by simp; omega)⟩, fun _ => rfl⟩
      rw [if_pos fun _ => hl]
      show endOf (forEach _ bs (after _ d)) = _ ↔ _
      rw [ih _ hl, ← List.drop_drop]
      refine ⟨fun h => ⟨m, rfl, _, rfl, hm, Or.inr h⟩, fun ⟨_, e, _, hk, h, h'⟩ => ?_⟩
      cases e; subst hk
      refine h'.resolve_left ?_
      rw [List.length_drop]; omega

theorem elementsBinary_abort_iff {cfg : Cfg} (ha : cfg.asserts = true) (e : Elements) {r d : Bytes} (h : DataAfter r d) :
    loadElementsBinary41 cfg e (payload r) = .abort ↔ Elements41Cut cfg e d := by
  obtain ⟨st, h1, h2⟩ := eat_start h
  unfold loadElementsBinary41
  rw [Rd.bind_ok h1]
  obtain ⟨N, hN, e1⟩ := readSize_any e.numEntityBlocks 0 d
  obtain ⟨_, -, e2⟩ := readSize_any e.numElements (0 + 8) d
  obtain ⟨_, -, e3⟩ := readSize_any e.minElementTag (0 + 8 + 8) d
  obtain ⟨_, -, e4⟩ := readSize_any e.maxElementTag (0 + 8 + 8 + 8) d
  rw [Rd.bind_ok ((readSize_start _ h2).trans e1), Rd.bind_ok e2, Rd.bind_ok e3, Rd.bind_ok e4]
  by_cases h32 : 32 ≤ d.length
  swap
  · rw [Rd.bind_def, assertGood_after, if_neg (fun h => h32 (by have := h ha; omega))]
    exact ⟨fun _ => Or.inl (by omega), fun _ => rfl⟩
  rw [Rd.bind_ok ((assertGood_after ..).trans (if_pos fun h => by omega))]
  have hs := over_full hN (by simpa using (by omega : 8 ≤ d.length))
  rw [List.drop_zero] at hs
  have one : ∀ {M : UInt64} {r : Bytes}, d = encU64 M ++ r → M = N ∧ r = d.drop 8 := fun h => encU64_append_inj (h.symm.trans hs)
  by_cases hn : N.toNat ≤ cfg.maxCount
  swap
  · rw [Rd.bind_def, resize_after, if_neg hn]
    refine ⟨(fun h => by cases h), fun h => ?_⟩
    rcases h with h | ⟨M, r, hM, _, hm, _⟩
    · omega
    · exact absurd ((one hM).1 ▸ hm) hn
  rw [Rd.bind_ok ((resize_after ..).trans (if_pos hn)), abort_bind (fun _ _ h => by cases h), ← endOf_abort, elementBlocks_abort_iff ha _ _ _ (by omega)]
  constructor
  · intro h
    exact Or.inr ⟨N, d.drop 8, hs, by simp; omega, hn, by rw [List.drop_drop]; exact h⟩
  · intro h
    rcases h with h | ⟨M, r, hM, _, hm, h⟩
    · omega
    · obtain ⟨rfl, rfl⟩ := one hM
      rw [List.drop_drop] at h
      exact h

/-! ## Entities -/

/-- With assertions, the reader stops exactly if lists of tags are cut off, `j` bytes before the first one having been read. -/
def CutsFrom (cfg : Cfg) (m : Rd α) (j g : Nat) (gaps : List Nat) : Prop := ∀ d, m (after j d) = .abort ↔ ListsCut cfg (g :: gaps) d

/-- With assertions, the reader stops exactly if lists of tags are cut off. -/
def Cuts (cfg : Cfg) (m : Rd α) (gaps : List Nat) : Prop := ∀ d, m (gs d) = .abort ↔ ListsCut cfg gaps d

theorem Cuts.pure (cfg : Cfg) (a : α) : Cuts cfg (pure a : Rd α) [] := fun _ => ⟨(fun h => by cases h), fun h => by cases h⟩

theorem CutsFrom.cuts {cfg : Cfg} {m : Rd α} {g : Nat} {gaps : List Nat} (h : CutsFrom cfg m 0 g gaps) : Cuts cfg m (g :: gaps) := fun d => by
  have := h d
  rwa [after_zero] at this

theorem CutsFrom.skip {cfg : Cfg} {m : Rd α} {f : α → Rd β} {j k g : Nat} {gaps : List Nat} (hm : Skips m k) (hf : ∀ a, CutsFrom cfg (f a) (j + k) g gaps) :
    CutsFrom cfg (m >>= f) j g gaps := by
  intro d
  obtain ⟨a, h⟩ := hm j d
  rw [Rd.bind_ok h]
  exact hf a d

theorem CutsFrom.list {cfg : Cfg} (ha : cfg.asserts = true) (v : List Int32) {f : List Int32 → Rd β} {g : Nat} {gaps : List Nat} (hf : ∀ a, Cuts cfg (f a) gaps) :
    CutsFrom cfg (loadIntListBinary cfg v >>= f) g g gaps := by
  intro d
  by_cases hd : d.length < g + 8
  · have h : readSizeVar (after g d) = .ok (none, spent) := by
      by_cases hg : g ≤ d.length
      · rw [after_gs hg, readSizeVar_short (by simp; omega)]
      · rw [after_spent (by omega), readSizeVar_spent]
    have : loadIntListBinary cfg v (after g d) = .abort := by
      unfold loadIntListBinary
      rw [Rd.bind_ok h]
      exact Rd.bind_abort (by simp [MshIO.assertGood, ha, Stream.good, spent])
    exact ⟨fun _ => .length hd, fun _ => Rd.bind_abort this⟩
  obtain ⟨sk, n, r, rfl, rfl⟩ := split_list (d := d) (g := g) (by omega)
  rw [after_gs (by simp)]
  have e1 : (sk ++ (encU64 n ++ r)).drop sk.length = encU64 n ++ r := by simp
  have hs : readSizeVar (gs (encU64 n ++ r)) = .ok (some n, gs r) := by
    rw [readSizeVar_gs (by simp), List.take_left' (by simp), List.drop_left' (by simp), decodeU64_encU64]
  have inv : ListsCut cfg (sk.length :: gaps) (sk ++ (encU64 n ++ r)) → n.toNat ≤ cfg.maxCount ∧
      (r.length < 4 * n.toNat ∨ (4 * n.toNat ≤ r.length ∧ ListsCut cfg gaps (r.drop (4 * n.toNat)))) := by
    generalize hg : sk.length = g at hd
    generalize hx : sk ++ (encU64 n ++ r) = x at hd
    intro h
    cases h with
    | length h => exact absurd h hd
    | tags h1 h2 h3 =>
      obtain ⟨-, h⟩ := List.append_inj hx (by omega)
      obtain ⟨rfl, rfl⟩ := encU64_append_inj h
      exact ⟨h2, Or.inl h3⟩
    | next h1 h2 h3 h4 =>
      obtain ⟨-, h⟩ := List.append_inj hx (by omega)
      obtain ⟨rfl, rfl⟩ := encU64_append_inj h
      exact ⟨h2, Or.inr ⟨h3, h4⟩⟩
  rw [e1]
  have hg : ∀ x : Bytes, MshIO.assertGood cfg (gs x) = .ok ((), gs x) := fun x => by simp [MshIO.assertGood, Stream.good]
  by_cases hn : n.toNat ≤ cfg.maxCount
  · obtain ⟨l, hl, hl'⟩ := vecResize_runs hn v 0
    obtain ⟨l2, hl2, -⟩ := readInts_after l 0 r
    rw [after_zero, Nat.zero_add, hl'] at hl2
    have hres : resize cfg v n 0 (gs r) = .ok (l, gs r) := by unfold resize; rw [hl]; rfl
    by_cases hr : 4 * n.toNat ≤ r.length
    · rw [after_gs hr] at hl2
      have : loadIntListBinary cfg v (gs (encU64 n ++ r)) = .ok (l2, gs (r.drop (4 * n.toNat))) := by
        unfold loadIntListBinary
        rw [Rd.bind_ok hs, Rd.bind_ok (hg _), Rd.bind_ok (useVar_some _ _), Rd.bind_ok hres, Rd.bind_ok hl2, Rd.bind_ok (hg _)]
        rfl
      rw [Rd.bind_ok this, hf l2]
      refine ⟨fun h => .next rfl hn hr h, fun h => ?_⟩
      rcases (inv h).2 with h | h
      · omega
      · exact h.2
    · rw [after_spent (by omega)] at hl2
      have : loadIntListBinary cfg v (gs (encU64 n ++ r)) = .abort := by
        unfold loadIntListBinary
        rw [Rd.bind_ok hs, Rd.bind_ok (hg _), Rd.bind_ok (useVar_some _ _), Rd.bind_ok hres, Rd.bind_ok hl2]
        exact Rd.bind_abort (by simp [MshIO.assertGood, ha, Stream.good, spent])
      exact ⟨fun _ => .tags rfl hn (by omega), fun _ => Rd.bind_abort this⟩
  · have : loadIntListBinary cfg v (gs (encU64 n ++ r)) = .throw .alloc := by
      unfold loadIntListBinary
      rw [Rd.bind_ok hs, Rd.bind_ok (hg _), Rd.bind_ok (useVar_some _ _), Rd.bind_def]
      have : resize cfg v n 0 (gs r) = .throw .alloc := by unfold resize vecResize; rw [if_neg hn]; rfl
      rw [this]
    rw [Rd.bind_def, this]
    exact ⟨(fun h => by cases h), fun h => absurd (inv h).1 hn⟩

theorem Cuts.forEach {cfg : Cfg} {f : α → Rd α} {g : List Nat} (hf : ∀ a {γ : Type} (K : α → Rd γ) gaps, (∀ b, Cuts cfg (K b) gaps) → Cuts cfg (f a >>= K) (g ++ gaps))
    (l : List α) {γ : Type} (K : List α → Rd γ) (gaps : List Nat) (hK : ∀ b, Cuts cfg (K b) gaps) : Cuts cfg (forEach f l >>= K) ((List.replicate l.length g).flatten ++ gaps) := by
  induction l generalizing K with
  | nil => exact hK []
  | cons a l ih =>
    unfold MshIO.forEach
    rw [List.length_cons, List.replicate_succ, List.flatten_cons, List.append_assoc]
    have e : ((f a >>= fun b => MshIO.forEach f l >>= fun as => (Pure.pure (b :: as) : Rd _)) >>= K) = (f a >>= fun b => MshIO.forEach f l >>= fun as => K (b :: as)) := by
      rw [Rd.bind_assoc]
      congr 1
      funext b
      rw [Rd.bind_assoc]
      rfl
    rw [e]
    exact hf a _ _ fun b => ih _ fun c => hK _

theorem cuts_point {cfg : Cfg} (ha : cfg.asserts = true) (p : PointEntity) {γ : Type} (K : PointEntity → Rd γ) (gaps : List Nat) (hK : ∀ b, Cuts cfg (K b) gaps) :
    Cuts cfg (loadPointBinary cfg p >>= K) ([4 + 3 * 8] ++ gaps) := by
  unfold loadPointBinary
  simp only [Rd.bind_assoc, Rd.pure_bind]
  exact CutsFrom.cuts (CutsFrom.skip (skips_readInt _) fun _ => CutsFrom.skip (skips_readDouble _) fun _ => CutsFrom.skip (skips_readDouble _) fun _ =>
    CutsFrom.skip (skips_readDouble _) fun _ => CutsFrom.list ha _ fun _ => hK _)

theorem cuts_box {cfg : Cfg} (ha : cfg.asserts = true) (p : BoxEntity) {γ : Type} (K : BoxEntity → Rd γ) (gaps : List Nat) (hK : ∀ b, Cuts cfg (K b) gaps) :
    Cuts cfg (loadBoxBinary cfg p >>= K) ([4 + 6 * 8, 0] ++ gaps) := by
  unfold loadBoxBinary
  simp only [Rd.bind_assoc, Rd.pure_bind]
  exact CutsFrom.cuts (CutsFrom.skip (skips_readInt _) fun _ => CutsFrom.skip (skips_readDouble _) fun _ => CutsFrom.skip (skips_readDouble _) fun _ =>
    CutsFrom.skip (skips_readDouble _) fun _ => CutsFrom.skip (skips_readDouble _) fun _ => CutsFrom.skip (skips_readDouble _) fun _ => CutsFrom.skip (skips_readDouble _) fun _ =>
    CutsFrom.list ha _ fun _ => CutsFrom.cuts (CutsFrom.list ha _ fun _ => hK _))

theorem cuts_tail {cfg : Cfg} (ha : cfg.asserts = true) (p : List PointEntity) (c s v : List BoxEntity) :
    Cuts cfg (entitiesTail cfg p c s v) (List.replicate p.length (4 + 3 * 8) ++ (List.replicate (c.length + s.length + v.length) [4 + 6 * 8, 0]).flatten) := by
  have e : List.replicate p.length (4 + 3 * 8) ++ (List.replicate (c.length + s.length + v.length) [4 + 6 * 8, 0]).flatten =
      (List.replicate p.length [4 + 3 * 8]).flatten ++ ((List.replicate c.length [4 + 6 * 8, 0]).flatten ++ ((List.replicate s.length [4 + 6 * 8, 0]).flatten ++
        ((List.replicate v.length [4 + 6 * 8, 0]).flatten ++ []))) := by
    rw [List.append_nil, List.replicate_add, List.replicate_add, List.flatten_append, List.flatten_append, List.append_assoc]
    congr 1
    induction p.length with
    | zero => rfl
    | succ n ih => rw [List.replicate_succ, List.replicate_succ, List.flatten_cons, ← ih]; rfl
  rw [e]
  unfold entitiesTail
  exact Cuts.forEach (fun a _ K g h => cuts_point ha a K g h) p _ _ fun _ => Cuts.forEach (fun a _ K g h => cuts_box ha a K g h) c _ _ fun _ =>
    Cuts.forEach (fun a _ K g h => cuts_box ha a K g h) s _ _ fun _ => Cuts.forEach (fun a _ K g h => cuts_box ha a K g h) v _ _ fun _ => Cuts.pure cfg _

theorem cuts_resize {cfg : Cfg} {v : List α} {x : α} {n : UInt64} {f : List α → Rd β} {s : Stream} {Q : Prop} (hf : ∀ l, l.length = n.toNat → (f l s = .abort ↔ Q)) :
    (useVar (some n) >>= fun n => resize cfg v n x >>= f) s = .abort ↔ n.toNat ≤ cfg.maxCount ∧ Q := by
  rw [Rd.bind_ok (useVar_some _ _)]
  by_cases hn : n.toNat ≤ cfg.maxCount
  · obtain ⟨l, hl, hl'⟩ := vecResize_runs hn v x
    rw [Rd.bind_ok (show resize cfg v n x s = .ok (l, s) by unfold resize; rw [hl]; rfl), hf l hl']
    exact ⟨fun h => ⟨hn, h⟩, fun h => h.2⟩
  · have : resize cfg v n x s = .throw .alloc := by unfold resize vecResize; rw [if_neg hn]; rfl
    rw [Rd.bind_def, this]
    exact ⟨(fun h => by cases h), fun h => absurd h.1 hn⟩

theorem cuts_four {cfg : Cfg} (ha : cfg.asserts = true) (e : Entities) (p c s v : UInt64) (r : Bytes) :
    entitiesCounts cfg e (some p) (some c) (some s) (some v) (gs r) = .abort ↔ (∀ n ∈ [p, c, s, v], n.toNat ≤ cfg.maxCount) ∧
      ListsCut cfg (List.replicate p.toNat (4 + 3 * 8) ++ (List.replicate (c.toNat + s.toNat + v.toNat) [4 + 6 * 8, 0]).flatten) r := by
  unfold entitiesCounts
  refine (cuts_resize fun lp hp => cuts_resize fun lc hc => cuts_resize fun ls hs => cuts_resize (Q := ListsCut cfg (List.replicate p.toNat (4 + 3 * 8) ++
    (List.replicate (c.toNat + s.toNat + v.toNat) [4 + 6 * 8, 0]).flatten) r) fun lv hv => ?_).trans ?_
  · have h := cuts_tail ha lp lc ls lv r
    rwa [hp, hc, hs, hv] at h
  · simp only [List.mem_cons, List.not_mem_nil, or_false, forall_eq_or_imp, forall_eq, and_assoc]

theorem readSizeVar_bad_any {st : Stream} (h : st.good = false) : ∃ st', readSizeVar st = .ok (none, st') ∧ st'.good = false :=
  ⟨_, readSizeVar_bad h, by simp [Stream.good]⟩

theorem readSizeVar_start {d : Bytes} {st : Stream} (h : st = gs d ∨ (d = [] ∧ st.good = false)) :
    (d.length < 8 ∧ ∃ st', readSizeVar st = .ok (none, st') ∧ st'.good = false) ∨ ∃ n r, d = encU64 n ++ r ∧ readSizeVar st = .ok (some n, gs r) := by
  by_cases hd : d.length < 8
  · exact Or.inl ⟨hd, sizeVar_none hd h⟩
  · obtain ⟨sk, n, r, rfl, h'⟩ := split_list (d := d) (g := 0) (by omega)
    have : sk = [] := List.length_eq_zero_iff.mp h'
    subst this
    exact Or.inr ⟨n, r, rfl, sizeVar_some h⟩

theorem entitiesBinary_abort_iff {cfg : Cfg} (ha : cfg.asserts = true) (e : Entities) {r d : Bytes} (h : DataAfter r d) :
    loadEntitiesBinary41 cfg e (payload r) = .abort ↔ EntitiesCut cfg d := by
  obtain ⟨st, h1, h2⟩ := eat_data h
  have : loadEntitiesBinary41 cfg e (payload r) = entitiesData cfg e st := by
    unfold loadEntitiesBinary41
    rw [Rd.bind_ok h1]
    rfl
  rw [this]
  unfold entitiesData
  have stop : ∀ {γ : Type} {f : Unit → Rd γ} {s : Stream}, s.good = false → (MshIO.assertGood cfg >>= f) s = .abort := fun hs =>
    Rd.bind_abort (by simp [MshIO.assertGood, ha, hs])
  rcases readSizeVar_start h2 with ⟨hd, s1, e1, g1⟩ | ⟨p, r1, rfl, e1⟩
  · obtain ⟨s2, e2, g2⟩ := readSizeVar_bad_any g1
    obtain ⟨s3, e3, g3⟩ := readSizeVar_bad_any g2
    obtain ⟨s4, e4, g4⟩ := readSizeVar_bad_any g3
    rw [Rd.bind_ok e1, Rd.bind_ok e2, Rd.bind_ok e3, Rd.bind_ok e4, stop g4]
    exact ⟨fun _ => Or.inl (by omega), fun _ => rfl⟩
  rcases readSizeVar_start (Or.inl rfl : gs r1 = gs r1 ∨ _) with ⟨hd, s2, e2, g2⟩ | ⟨c, r2, rfl, e2⟩
  · obtain ⟨s3, e3, g3⟩ := readSizeVar_bad_any g2
    obtain ⟨s4, e4, g4⟩ := readSizeVar_bad_any g3
    rw [Rd.bind_ok e1, Rd.bind_ok e2, Rd.bind_ok e3, Rd.bind_ok e4, stop g4]
    exact ⟨fun _ => Or.inl (by simp; omega), fun _ => rfl⟩
  rcases readSizeVar_start (Or.inl rfl : gs r2 = gs r2 ∨ _) with ⟨hd, s3, e3, g3⟩ | ⟨s, r3, rfl, e3⟩
  · obtain ⟨s4, e4, g4⟩ := readSizeVar_bad_any g3
    rw [Rd.bind_ok e1, Rd.bind_ok e2, Rd.bind_ok e3, Rd.bind_ok e4, stop g4]
    exact ⟨fun _ => Or.inl (by simp; omega), fun _ => rfl⟩
  rcases readSizeVar_start (Or.inl rfl : gs r3 = gs r3 ∨ _) with ⟨hd, s4, e4, g4⟩ | ⟨v, r4, rfl, e4⟩
  · rw [Rd.bind_ok e1, Rd.bind_ok e2, Rd.bind_ok e3, Rd.bind_ok e4, stop g4]
    exact ⟨fun _ => Or.inl (by simp; omega), fun _ => rfl⟩
  rw [Rd.bind_ok e1, Rd.bind_ok e2, Rd.bind_ok e3, Rd.bind_ok e4, Rd.bind_ok (show MshIO.assertGood cfg (gs r4) = .ok ((), gs r4) by simp [MshIO.assertGood, Stream.good]),
    cuts_four ha]
  have hd : encU64 p ++ (encU64 c ++ (encU64 s ++ (encU64 v ++ r4))) = [p, c, s, v].flatMap encU64 ++ r4 := by simp
  constructor
  · exact fun h => Or.inr ⟨p, c, s, v, r4, hd, h⟩
  · rintro (h | ⟨p', c', s', v', r', h', h⟩)
    · simp at h; omega
    · simp only [List.flatMap_cons, List.flatMap_nil, List.append_nil, List.append_assoc] at h'
      obtain ⟨q1, h1⟩ := encU64_append_inj h'
      obtain ⟨q2, h2⟩ := encU64_append_inj h1
      obtain ⟨q3, h3⟩ := encU64_append_inj h2
      obtain ⟨q4, q5⟩ := encU64_append_inj h3
      subst q1 q2 q3 q4 q5
      exact h

end MshIO
