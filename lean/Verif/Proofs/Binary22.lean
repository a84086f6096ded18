import Verif.Spec.Hazards
import Verif.Proofs.Safe22
import Verif.Proofs.Stuck
import Verif.Proofs.Frame
import Verif.Proofs.Mesh41
import Verif.Proofs.Boundary

/-!
# When reading nodes and elements of binary version 2.2 files is undefined
-/

namespace MshIO

variable {α β : Type}

/-- The stream after a read that came up short. -/
abbrev spent : Stream := ⟨[], true, true⟩

/-! ## Reading -/

theorem readIntVar_none_gs {d : Bytes} (h : 4 ≤ d.length) : readIntVar none (gs d) = .ok (some (decodeI32 (d.take 4)), gs (d.drop 4)) := by
  simp [readIntVar, Stream.good, h]

theorem readIntVar_none_short {d : Bytes} (h : d.length < 4) : readIntVar none (gs d) = .ok (none, spent) := by
  simp [readIntVar, Stream.good, Nat.not_le.mpr h]

theorem readIntVar_none_spent : readIntVar none spent = .ok (none, spent) := by simp [readIntVar, Stream.good]

theorem readRaw_gs {o d : Bytes} (h : o.length ≤ d.length) : readRaw o (gs d) = .ok (d.take o.length, gs (d.drop o.length)) := by
  simp [readRaw, Stream.good, h]

theorem readRaw_short {o d : Bytes} (h : d.length < o.length) : ∃ b, readRaw o (gs d) = .ok (b, spent) ∧ b.length = o.length := by
  refine ⟨d ++ o.drop d.length, by simp [readRaw, Stream.good, Nat.not_le.mpr h], ?_⟩
  simp; omega

theorem readRaw_spent (o : Bytes) : readRaw o spent = .ok (o, spent) := by simp [readRaw, Stream.good]

/-- The stream after reading `n` bytes. -/
def after (n : Nat) (d : Bytes) : Stream := if n ≤ d.length then gs (d.drop n) else spent

theorem readRaw_after (o d : Bytes) : ∃ b, readRaw o (gs d) = .ok (b, after o.length d) := by
  unfold after
  by_cases h : o.length ≤ d.length
  · exact ⟨_, by rw [if_pos h, readRaw_gs h]⟩
  · obtain ⟨b, hb, -⟩ := readRaw_short (Nat.not_le.mp h)
    exact ⟨b, by rw [if_neg h, hb]⟩

theorem readRaw_after2 (o : Bytes) (n : Nat) (d : Bytes) : ∃ b, readRaw o (after n d) = .ok (b, after (n + o.length) d) := by
  unfold after
  by_cases h : n ≤ d.length
  · rw [if_pos h]
    obtain ⟨b, hb⟩ := readRaw_after o (d.drop n)
    refine ⟨b, ?_⟩
    rw [hb]
    unfold after
    rw [List.length_drop]
    by_cases h2 : n + o.length ≤ d.length
    · rw [if_pos (by omega), if_pos h2, List.drop_drop]
    · rw [if_neg (by omega), if_neg h2]
  · rw [if_neg h, if_neg (by omega)]
    exact ⟨_, readRaw_spent o⟩

theorem flatMap_encI32_length (v : List Int32) : (v.flatMap encI32).length = 4 * v.length := by
  induction v with
  | nil => rfl
  | cons x v ih => simp [ih]; omega

theorem decodeMany_length (k : Nat) (dec : Bytes → α) (n : Nat) (b : Bytes) : (decodeMany k dec n b).length = n := by
  induction n generalizing b with
  | zero => rfl
  | succ n ih => simp [decodeMany, ih]

theorem readInts_after (v : List Int32) (n : Nat) (d : Bytes) : ∃ l, readInts v (after n d) = .ok (l, after (n + 4 * v.length) d) ∧ l.length = v.length := by
  unfold readInts
  obtain ⟨b, hb⟩ := readRaw_after2 (v.flatMap encI32) n d
  rw [flatMap_encI32_length] at hb
  exact ⟨_, by rw [Rd.bind_ok hb]; rfl, decodeMany_length ..⟩

theorem readInts_spent (v : List Int32) : ∃ l, readInts v spent = .ok (l, spent) ∧ l.length = v.length := by
  unfold readInts
  exact ⟨_, by rw [Rd.bind_ok (readRaw_spent _)]; rfl, decodeMany_length ..⟩

theorem readIntVar_some_after (v : Int32) (n : Nat) (d : Bytes) : ∃ w, readIntVar (some v) (after n d) = .ok (some w, after (n + 4) d) := by
  rw [readIntVar_some]
  unfold readInt
  obtain ⟨b, hb⟩ := readRaw_after2 (encI32 v) n d
  rw [encI32_length] at hb
  exact ⟨_, by rw [Rd.bind_ok (show (readRaw (encI32 v) >>= fun b => pure (decodeI32 b)) _ = _ by rw [Rd.bind_ok hb]; rfl)]; rfl⟩

theorem after_spent {n : Nat} {d : Bytes} (h : d.length < n) : after n d = spent := if_neg (Nat.not_le.mpr h)
theorem after_gs {n : Nat} {d : Bytes} (h : n ≤ d.length) : after n d = gs (d.drop n) := if_pos h
theorem after_zero (d : Bytes) : after 0 d = gs d := by simp [after]

theorem after_drop {n m : Nat} {d : Bytes} (h : n ≤ d.length) : after m (d.drop n) = after (n + m) d := by
  unfold after
  rw [List.length_drop]
  by_cases h2 : n + m ≤ d.length
  · rw [if_pos (by omega), if_pos h2, List.drop_drop]
  · rw [if_neg (by omega), if_neg h2]

/-! ## Nodes -/

theorem flatMap_double_length (v : List Double) : (v.flatMap fun d => encU64 d.bits).length = 8 * v.length := by
  induction v with
  | nil => rfl
  | cons x v ih => simp [ih]; omega

theorem readDoubles_after (v : List Double) (n : Nat) (d : Bytes) : ∃ l, readDoubles v (after n d) = .ok (l, after (n + 8 * v.length) d) ∧ l.length = v.length := by
  unfold readDoubles
  obtain ⟨b, hb⟩ := readRaw_after2 (v.flatMap fun d => encU64 d.bits) n d
  rw [flatMap_double_length] at hb
  exact ⟨_, by rw [Rd.bind_ok hb]; rfl, decodeMany_length ..⟩

theorem vecGet_some {v : List α} {i : UInt64} (h : i.toNat < v.length) : vecGet v i = .ok (v[i.toNat]) := by
  unfold vecGet; rw [List.getElem?_eq_getElem h]

theorem nodeBinary22_ok {cfg : Cfg} {i n : Nat} {tags : List UInt64} {xs : List Double} (hi : i < n) (hn : 3 * n < 2 ^ 64) (ht : tags.length = n) (hx : xs.length = 3 * n)
    {d : Bytes} (hd : 4 ≤ d.length) :
    ∃ tags' xs', loadNodeBinary22 cfg i (tags, xs) (gs d) = .ok ((tags', xs'), after 28 d) ∧ tags'.length = n ∧ xs'.length = 3 * n := by
  unfold loadNodeBinary22
  have hi0 : (UInt64.ofNat i).toNat = i := by rw [UInt64.toNat_ofNat']; omega
  have h3 : (UInt64.ofNat i * 3).toNat = 3 * i := by
    rw [UInt64.toNat_mul, hi0]
    show i * 3 % 2 ^ 64 = _
    omega
  have h31 : (UInt64.ofNat i * 3 + 1).toNat = 3 * i + 1 := by
    rw [UInt64.toNat_add, h3]
    show (3 * i + 1) % 2 ^ 64 = _
    omega
  have h32 : (UInt64.ofNat i * 3 + 2).toNat = 3 * i + 2 := by
    rw [UInt64.toNat_add, h3]
    show (3 * i + 2) % 2 ^ 64 = _
    omega
  have ha : assertGood cfg (gs d) = .ok ((), gs d) := by simp [assertGood, Stream.good]
  rw [Rd.bind_ok ha, Rd.bind_ok (readIntVar_none_gs hd)]
  have hs : vecSet tags (UInt64.ofNat i) (sizeOfInt (decodeI32 (d.take 4))) = .ok (tags.set i (sizeOfInt (decodeI32 (d.take 4)))) := by
    unfold vecSet; rw [hi0, if_pos (by omega)]
  rw [Rd.bind_ok (show useVar (some (decodeI32 (d.take 4))) (gs (d.drop 4)) = .ok (_, _) from rfl)]
  simp only
  rw [hs, Rd.bind_ok (show Rd.lift (Outcome.ok _) (gs (d.drop 4)) = .ok (_, _) from rfl),
    vecGet_some (by omega), Rd.bind_ok (show Rd.lift (Outcome.ok _) (gs (d.drop 4)) = .ok (_, _) from rfl),
    vecGet_some (by omega), Rd.bind_ok (show Rd.lift (Outcome.ok _) (gs (d.drop 4)) = .ok (_, _) from rfl),
    vecGet_some (by omega), Rd.bind_ok (show Rd.lift (Outcome.ok _) (gs (d.drop 4)) = .ok (_, _) from rfl)]
  obtain ⟨l, hl, hlen⟩ := readDoubles_after [xs[(UInt64.ofNat i * 3).toNat]'(by omega), xs[(UInt64.ofNat i * 3 + 1).toNat]'(by omega), xs[(UInt64.ofNat i * 3 + 2).toNat]'(by omega)] 4 d
  rw [after_gs hd] at hl
  rw [Rd.bind_ok hl]
  refine ⟨_, _, rfl, by simp [ht], ?_⟩
  simp only [List.length_append, List.length_take, List.length_drop, hlen, List.length_cons, List.length_nil, hx]
  omega

theorem nodeBinary22_short (cfg : Cfg) (i : Nat) (st : List UInt64 × List Double) {d : Bytes} (hd : d.length < 4) : loadNodeBinary22 cfg i st (gs d) = .ub := by
  unfold loadNodeBinary22
  have ha : assertGood cfg (gs d) = .ok ((), gs d) := by simp [assertGood, Stream.good]
  rw [Rd.bind_ok ha, Rd.bind_ok (readIntVar_none_short hd)]
  rfl

theorem nodeBinary22_spent (cfg : Cfg) (i : Nat) (st : List UInt64 × List Double) (r : Bytes) (f : Bool) :
    loadNodeBinary22 cfg i st ⟨r, true, f⟩ = if cfg.asserts = true then .abort else .ub := by
  unfold loadNodeBinary22
  split
  · rename_i h
    exact Rd.bind_abort (by simp [assertGood, Stream.good, h])
  · rename_i h
    have ha : assertGood cfg ⟨r, true, f⟩ = .ok ((), ⟨r, true, f⟩) := by simp [assertGood, h]
    rw [Rd.bind_ok ha, Rd.bind_ok (show readIntVar none ⟨r, true, f⟩ = .ok (none, ⟨r, true, true⟩) by simp [readIntVar, Stream.good])]
    rfl

theorem nodesLoop22_short {cfg : Cfg} {m : Nat} (hm : 3 * m < 2 ^ 64) (n i : Nat) (hi : i + n = m) {tags : List UInt64} {xs : List Double}
    (ht : tags.length = m) (hx : xs.length = 3 * m) {d : Bytes} (hd : d.length + 24 < 28 * n) :
    loopN (loadNodeBinary22 cfg) n i (tags, xs) (gs d) = if cfg.asserts = true ∧ 4 ≤ d.length % 28 then .abort else .ub := by
  induction n generalizing i tags xs d with
  | zero => omega
  | succ n ih =>
    rw [loopN]
    by_cases h4 : d.length < 4
    · rw [Rd.bind_ub (nodeBinary22_short cfg i _ h4), if_neg (by omega)]
    · obtain ⟨tags', xs', h1, h2, h3⟩ := nodeBinary22_ok (cfg := cfg) (show i < m by omega) hm ht hx (d := d) (by omega)
      rw [Rd.bind_ok h1]
      by_cases h28 : 28 ≤ d.length
      · rw [after_gs h28, ih (i + 1) (by omega) h2 h3 (by simp only [List.length_drop]; omega)]
        simp only [List.length_drop]
        have : (d.length - 28) % 28 = d.length % 28 := by omega
        rw [this]
      · rw [after_spent (by omega)]
        cases n with
        | zero => omega
        | succ n =>
          rw [loopN]
          have := nodeBinary22_spent cfg (i + 1) (tags', xs') [] true
          have h4' : 4 ≤ d.length % 28 := by omega
          by_cases ha : cfg.asserts = true
          · rw [if_pos ha] at this
            rw [Rd.bind_abort this, if_pos ⟨ha, h4'⟩]
          · rw [if_neg ha] at this
            rw [Rd.bind_ub this, if_neg fun h => ha h.1]

theorem nodesLoop22_long {cfg : Cfg} {m : Nat} (hm : 3 * m < 2 ^ 64) (n i : Nat) (hi : i + n = m) {tags : List UInt64} {xs : List Double}
    (ht : tags.length = m) (hx : xs.length = 3 * m) {d : Bytes} (hd : 28 * n ≤ d.length + 24) :
    ∃ st, loopN (loadNodeBinary22 cfg) n i (tags, xs) (gs d) = .ok (st, after (28 * n) d) := by
  induction n generalizing i tags xs d with
  | zero => exact ⟨_, by rw [Nat.mul_zero, after_zero]; rfl⟩
  | succ n ih =>
    rw [loopN]
    obtain ⟨tags', xs', h1, h2, h3⟩ := nodeBinary22_ok (cfg := cfg) (show i < m by omega) hm ht hx (d := d) (by omega)
    rw [Rd.bind_ok h1]
    by_cases h28 : 28 ≤ d.length
    · rw [after_gs h28]
      obtain ⟨st, hst⟩ := ih (i + 1) (by omega) h2 h3 (d := d.drop 28) (by simp only [List.length_drop]; omega)
      rw [after_drop h28] at hst
      exact ⟨st, by rw [hst]; congr 3; omega⟩
    · have : n = 0 := by omega
      subst this
      exact ⟨_, by rw [loopN]; rfl⟩

/-- What follows the count of a section, after `eat_white_space(in, 1)`. -/
def payload (d : Bytes) : Stream := ⟨d, d.isEmpty, false⟩

theorem eat_payload {c : UInt8} (hc : isEatSpace c = true) (d : Bytes) : eatWhiteSpace 1 (gs (c :: d)) = .ok ((), payload d) := by
  cases d with
  | nil => simp [eatWhiteSpace, Stream.good, eatLoop, hc, payload]
  | cons x d => simp [eatWhiteSpace, Stream.good, eatLoop, hc, payload]

theorem payload_ne {d : Bytes} (h : d ≠ []) : payload d = gs d := by
  cases d with
  | nil => exact absurd rfl h
  | cons x d => rfl

theorem vecResize_nil {cfg : Cfg} {n : UInt64} (h : n.toNat ≤ cfg.maxCount) (x : α) : vecResize cfg [] n x = .ok (List.replicate n.toNat x) := by
  unfold vecResize; rw [if_pos h]; simp

theorem nodesBinary22_start {cfg : Cfg} {n : Nodes} {w d : Bytes} {c : UInt8} {N : UInt64} (hw : Blank w) (hc : isEatSpace c = true)
    (hN : 3 * N.toNat ≤ cfg.maxCount) (hs : n.entityBlocks.length < cfg.maxCount) :
    ∃ f : List UInt64 × List Double → Nodes, loadNodesBinary22 cfg n (gs (w ++ decU64 N ++ c :: d)) =
      (loopN (loadNodeBinary22 cfg) N.toNat 0 (List.replicate N.toNat 0, List.replicate (3 * N.toNat) Double.zero) >>= fun st => pure (f st)) (payload d) := by
  have hlt := cfg.maxCount_lt
  have h3 : (N * 3).toNat = 3 * N.toNat := by
    rw [UInt64.toNat_mul]
    show N.toNat * 3 % 2 ^ 64 = _
    omega
  refine ⟨fun st => {
    numEntityBlocks := n.numEntityBlocks + 1
    numNodes := n.numNodes + N
    minNodeTag := (updateTagRange n st.1).1
    maxNodeTag := (updateTagRange n st.1).2
    entityBlocks := (n.entityBlocks ++ [({} : NodeBlock)]).dropLast ++ [{ numNodesInBlock := N, tags := st.1, data := st.2 }] }, ?_⟩
  unfold loadNodesBinary22
  have hp : pushBack cfg n.entityBlocks {} (gs (w ++ decU64 N ++ c :: d)) = .ok (n.entityBlocks ++ [({} : NodeBlock)], gs (w ++ decU64 N ++ c :: d)) := by
    unfold pushBack vecPush; rw [if_pos hs]; rfl
  rw [Rd.bind_ok hp, Rd.bind_ok (inSize_tok 0 N w (c :: d) hw ⟨c, d, rfl, isSpace_of_isEatSpace hc⟩)]
  have ha : assertGood cfg (gs (c :: d)) = .ok ((), gs (c :: d)) := by simp [assertGood, Stream.good]
  rw [Rd.bind_ok ha]
  unfold resize
  rw [vecResize_nil (by omega), Rd.bind_ok (show Rd.lift (Outcome.ok _) (gs (c :: d)) = .ok (_, _) from rfl), vecResize_nil (by omega),
    Rd.bind_ok (show Rd.lift (Outcome.ok _) (gs (c :: d)) = .ok (_, _) from rfl), Rd.bind_ok (eat_payload hc d), h3]

theorem nodesBinary22_short {cfg : Cfg} {n : Nodes} {w d : Bytes} {c : UInt8} {N : UInt64} (hw : Blank w) (hc : isEatSpace c = true)
    (hN : 3 * N.toNat ≤ cfg.maxCount) (hs : n.entityBlocks.length < cfg.maxCount) (hd : d.length + 24 < 28 * N.toNat) :
    loadNodesBinary22 cfg n (gs (w ++ decU64 N ++ c :: d)) = if cfg.asserts = true ∧ (d = [] ∨ 4 ≤ d.length % 28) then .abort else .ub := by
  have hlt := cfg.maxCount_lt
  obtain ⟨f, hf⟩ := nodesBinary22_start (d := d) hw hc hN hs
  rw [hf]
  by_cases he : d = []
  · subst he
    obtain ⟨k, hk⟩ : ∃ k, N.toNat = k + 1 := ⟨N.toNat - 1, by simp at hd; omega⟩
    rw [hk, loopN]
    have h1 := nodeBinary22_spent cfg 0 (List.replicate (k + 1) 0, List.replicate (3 * (k + 1)) Double.zero) [] false
    rw [show payload [] = ⟨[], true, false⟩ from rfl]
    by_cases ha : cfg.asserts = true
    · rw [if_pos ha] at h1
      rw [if_pos ⟨ha, Or.inl rfl⟩, Rd.bind_abort (Rd.bind_abort h1)]
    · rw [if_neg ha] at h1
      rw [if_neg fun h => ha h.1, Rd.bind_ub (Rd.bind_ub h1)]
  · rw [payload_ne he]
    have h1 := nodesLoop22_short (cfg := cfg) (m := N.toNat) (by omega) N.toNat 0 (by omega) (tags := List.replicate N.toNat 0)
      (xs := List.replicate (3 * N.toNat) Double.zero) (by simp) (by simp) hd
    by_cases ha : cfg.asserts = true ∧ 4 ≤ d.length % 28
    · rw [if_pos ha] at h1
      rw [if_pos ⟨ha.1, Or.inr ha.2⟩, Rd.bind_abort h1]
    · rw [if_neg ha] at h1
      rw [if_neg fun h => ha ⟨h.1, h.2.resolve_left he⟩, Rd.bind_ub h1]

theorem nodesBinary22_long {cfg : Cfg} {n : Nodes} {w d : Bytes} {c : UInt8} {N : UInt64} (hw : Blank w) (hc : isEatSpace c = true)
    (hN : 3 * N.toNat ≤ cfg.maxCount) (hs : n.entityBlocks.length < cfg.maxCount) (hd : 28 * N.toNat ≤ d.length + 24) :
    ∃ n' s, loadNodesBinary22 cfg n (gs (w ++ decU64 N ++ c :: d)) = .ok (n', s) := by
  have hlt := cfg.maxCount_lt
  obtain ⟨f, hf⟩ := nodesBinary22_start (d := d) hw hc hN hs
  rw [hf]
  by_cases he : d = []
  · subst he
    have : N.toNat = 0 := by simp at hd; omega
    rw [this]
    exact ⟨_, _, rfl⟩
  · rw [payload_ne he]
    obtain ⟨st, h⟩ := nodesLoop22_long (cfg := cfg) (m := N.toNat) (by omega) N.toNat 0 (by omega) (tags := List.replicate N.toNat 0)
      (xs := List.replicate (3 * N.toNat) Double.zero) (by simp) (by simp) hd
    exact ⟨_, _, by rw [Rd.bind_ok h]; rfl⟩

/-! ## Elements -/

variable {B : Nat}

theorem makeElement22_runs {cfg : Cfg} (num : Int32) {ty : Int32} (tags : List Int32) {ids : List Int32} {blocks : List ElementBlock} {maps : List PhysMap}
    (hty : mshNodes ty = some ids.length) (hb : blocks.length < cfg.maxCount) (hc : 57 ≤ cfg.maxCount) (hm : maps.length = 4) :
    ∃ b m, makeElement22 cfg num ty tags ids blocks maps = .ok (blocks ++ [b], m) ∧ m.length = 4 := by
  obtain ⟨d, hd, -⟩ := mshDim_of_mshNodes hty
  obtain ⟨hgd, hd3⟩ := getElementDim_of_mshDim hd
  obtain ⟨-, h56, -⟩ := nodesPerElement_of_mshNodes hty
  have hlt := cfg.maxCount_lt
  have hs : (sizeOfInt (Int32.ofNat d)).toNat = d := by
    have : d = 0 ∨ d = 1 ∨ d = 2 ∨ d = 3 := by omega
    rcases this with rfl | rfl | rfl | rfl <;> decide
  have hr : vecResize cfg ([] : List UInt64) (UInt64.ofNat (ids.length + 1)) 0 = .ok (List.replicate (UInt64.ofNat (ids.length + 1)).toNat 0) :=
    vecResize_nil (by rw [UInt64.toNat_ofNat']; omega) 0
  unfold makeElement22 vecPush
  rw [if_pos hb, okBind, hgd, okBind]
  match tags with
  | [] => simp only [hr]; exact ⟨_, _, rfl, hm⟩
  | [_] => simp only [hr]; exact ⟨_, _, rfl, hm⟩
  | _ :: _ :: _ =>
    have h1 := vecGet_some (v := maps) (i := sizeOfInt (Int32.ofNat d)) (by omega)
    have h2 : ∀ x, vecSet maps (sizeOfInt (Int32.ofNat d)) x = .ok (maps.set d x) := by
      intro x; unfold vecSet; rw [hs, if_pos (by omega)]
    simp only [hr, h1, h2]
    exact ⟨_, _, rfl, by simp [hm]⟩

/-- What the loops over elements keep. -/
structure Binary22.Fits (cfg : Cfg) (N B : Nat) (st : Binary22) : Prop where
  maps : st.maps.length = 4
  le : st.processed.toNat ≤ N
  room : st.processed.toNat ≤ cfg.maxCount - B
  blocks : st.blocks.length = B + st.processed.toNat

/-- What the inner loop keeps as well. -/
structure Binary22.Ready (nt k : Nat) (st : Binary22) : Prop where
  tags : st.tags.length = nt
  nodeIds : st.nodeIds.length = k

/-- One element, once its number has been read or kept. -/
theorem elementBinary22_rest {cfg : Cfg} {N : UInt64} {ty nt : Int32} {k : Nat} (hty : mshNodes ty = some k) (h31 : nt.toInt < 2 ^ 29) (hc : 57 ≤ cfg.maxCount) (hN' : N.toNat ≤ cfg.maxCount)
    {o : Option Int32} {id : Int32} {st : Binary22} (hf : st.Fits cfg N.toNat B) (hr : st.Ready nt.toInt.toNat k) {s s1 s2 s3 : Stream}
    (h1 : readIntVar o s = .ok (some id, s1)) (h2 : ∃ l, readInts st.tags s1 = .ok (l, s2) ∧ l.length = st.tags.length)
    (h3 : ∃ l, readInts st.nodeIds s2 = .ok (l, s3) ∧ l.length = st.nodeIds.length) :
    if st.processed.toNat < N.toNat ∧ st.processed.toNat < cfg.maxCount - B then
      ∃ st', loadElementBinary22 cfg N ty nt (o, st) s = .ok ((some id, st'), s3) ∧ st'.Fits cfg N.toNat B ∧ st'.Ready nt.toInt.toNat k ∧
        st'.processed.toNat = st.processed.toNat + 1
    else loadElementBinary22 cfg N ty nt (o, st) s = .throw (if st.processed.toNat < cfg.maxCount - B then .invalidFormat else .alloc) := by
  obtain ⟨tags, h2, hl2⟩ := h2
  obtain ⟨ids, h3, hl3⟩ := h3
  have key : loadElementBinary22 cfg N ty nt (o, st) s = (Rd.lift (makeElement22 cfg id ty tags ids st.blocks st.maps) >>= fun r =>
      if N < st.processed + 1 then Rd.throw .invalidFormat
      else pure (some id, (⟨tags, ids, if id < st.minTag then id else st.minTag, if st.maxTag < id then id else st.maxTag, st.processed + 1, r.1, r.2⟩ : Binary22))) s3 := by
    unfold loadElementBinary22
    rw [Rd.bind_ok h1, if_neg (by omega), Rd.bind_ok h2, Rd.bind_ok h3, Rd.bind_ok (show useVar (some id) s3 = .ok (id, s3) from rfl)]
  rw [key]
  have hN := N.toNat_lt
  have hblk := hf.blocks
  have hle := hf.le
  have hroom := hf.room
  have hlt := cfg.maxCount_lt
  have hids : mshNodes ty = some ids.length := by rw [hl3, hr.nodeIds]; exact hty
  split
  · rename_i hp
    obtain ⟨b, m, hmk, hm⟩ := makeElement22_runs (cfg := cfg) id tags (blocks := st.blocks) (maps := st.maps) hids (by omega) hc hf.maps
    rw [hmk, Rd.bind_ok (show Rd.lift (Outcome.ok _) s3 = .ok (_, _) from rfl)]
    have h1' : (st.processed + 1).toNat = st.processed.toNat + 1 := by
      rw [UInt64.toNat_add]
      show (st.processed.toNat + 1) % 2 ^ 64 = _
      omega
    rw [if_neg (by rw [UInt64.lt_iff_toNat_lt, h1']; omega)]
    refine ⟨_, rfl, ⟨hm, ?_, ?_, ?_⟩, ⟨hl2.trans hr.tags, hl3.trans hr.nodeIds⟩, h1'⟩
    · show (st.processed + 1).toNat ≤ _
      omega
    · show (st.processed + 1).toNat ≤ _
      omega
    · simp only [List.length_append, List.length_cons, List.length_nil, h1']
      omega
  · rename_i hp
    by_cases hb : st.blocks.length < cfg.maxCount
    · obtain ⟨b, m, hmk, hm⟩ := makeElement22_runs (cfg := cfg) id tags (blocks := st.blocks) (maps := st.maps) hids hb hc hf.maps
      rw [hmk, Rd.bind_ok (show Rd.lift (Outcome.ok _) s3 = .ok (_, _) from rfl)]
      have h1' : (st.processed + 1).toNat = st.processed.toNat + 1 := by
        rw [UInt64.toNat_add]
        show (st.processed.toNat + 1) % 2 ^ 64 = _
        omega
      rw [if_pos (by rw [UInt64.lt_iff_toNat_lt, h1']; omega), if_pos (by omega)]
      rfl
    · have : makeElement22 cfg id ty tags ids st.blocks st.maps = .throw .alloc := by
        unfold makeElement22 vecPush
        rw [if_neg hb]; rfl
      have hx : ¬ st.processed.toNat < cfg.maxCount - B := by omega
      rw [this]
      simp only [hx, if_false]
      rfl

/-- One element from a stream that has been read to its end and failed: the number of the last element is kept. -/
theorem elementBinary22_spent {cfg : Cfg} {N : UInt64} {ty nt : Int32} {k : Nat} (hty : mshNodes ty = some k) (h31 : nt.toInt < 2 ^ 29) (hc : 57 ≤ cfg.maxCount)
    (hN' : N.toNat ≤ cfg.maxCount) {id : Int32} {st : Binary22} (hf : st.Fits cfg N.toNat B) (hr : st.Ready nt.toInt.toNat k) :
    if st.processed.toNat < N.toNat ∧ st.processed.toNat < cfg.maxCount - B then
      ∃ id' st', loadElementBinary22 cfg N ty nt (some id, st) spent = .ok ((some id', st'), spent) ∧ st'.Fits cfg N.toNat B ∧ st'.Ready nt.toInt.toNat k ∧
        st'.processed.toNat = st.processed.toNat + 1
    else loadElementBinary22 cfg N ty nt (some id, st) spent = .throw (if st.processed.toNat < cfg.maxCount - B then .invalidFormat else .alloc) := by
  have h1 : ∃ w, readIntVar (some id) spent = .ok (some w, spent) := by
    have := readIntVar_some_after id 1 []
    rwa [after_spent (by simp), after_spent (by simp)] at this
  obtain ⟨w, h1⟩ := h1
  have := elementBinary22_rest (cfg := cfg) (N := N) hty h31 hc hN' hf hr h1 (readInts_spent _) (readInts_spent _)
  split at this
  · rename_i h; rw [if_pos h]; obtain ⟨st', h⟩ := this; exact ⟨w, st', h⟩
  · rename_i h; rw [if_neg h]; exact this

/-- One element, from data that holds at least its number, or after another element of the group. -/
theorem elementBinary22_gs {cfg : Cfg} {N : UInt64} {ty nt : Int32} {k : Nat} (hty : mshNodes ty = some k) (h0 : 0 ≤ nt.toInt) (h31 : nt.toInt < 2 ^ 29)
    (hc : 57 ≤ cfg.maxCount) (hN' : N.toNat ≤ cfg.maxCount) {o : Option Int32} {st : Binary22} (hf : st.Fits cfg N.toNat B) (hr : st.Ready nt.toInt.toNat k)
    {d : Bytes} (hd : o = none → 4 ≤ d.length) :
    if st.processed.toNat < N.toNat ∧ st.processed.toNat < cfg.maxCount - B then
      ∃ id' st', loadElementBinary22 cfg N ty nt (o, st) (gs d) = .ok ((some id', st'), after (4 * (1 + nt.toInt.toNat + k)) d) ∧
        st'.Fits cfg N.toNat B ∧ st'.Ready nt.toInt.toNat k ∧ st'.processed.toNat = st.processed.toNat + 1
    else loadElementBinary22 cfg N ty nt (o, st) (gs d) = .throw (if st.processed.toNat < cfg.maxCount - B then .invalidFormat else .alloc) := by
  have h1 : ∃ w, readIntVar o (gs d) = .ok (some w, after 4 d) := by
    cases o with
    | none => exact ⟨_, by rw [readIntVar_none_gs (hd rfl), after_gs (hd rfl)]⟩
    | some v =>
      have := readIntVar_some_after v 0 d
      rwa [after_zero, Nat.zero_add] at this
  obtain ⟨w, h1⟩ := h1
  have h2 := readInts_after st.tags 4 d
  have h3 := readInts_after st.nodeIds (4 + 4 * st.tags.length) d
  have e : 4 + 4 * st.tags.length + 4 * st.nodeIds.length = 4 * (1 + nt.toInt.toNat + k) := by rw [hr.tags, hr.nodeIds]; omega
  rw [e] at h3
  have := elementBinary22_rest (cfg := cfg) (N := N) hty h31 hc hN' hf hr h1 h2 h3
  split at this
  · rename_i h; rw [if_pos h]; obtain ⟨st', h⟩ := this; exact ⟨w, st', h⟩
  · rename_i h; rw [if_neg h]; exact this

/-- What a loop over `m` elements does: it counts them, or throws when there are too many. -/
def Counts (cfg : Cfg) (N : UInt64) (B nt k m : Nat) (st : Binary22) (r : Outcome ((Option Int32 × Binary22) × Stream)) (s' : Stream) : Prop :=
  if st.processed.toNat + m ≤ N.toNat ∧ st.processed.toNat + m ≤ cfg.maxCount - B then
    ∃ o st', r = .ok ((o, st'), s') ∧ st'.Fits cfg N.toNat B ∧ st'.Ready nt k ∧ st'.processed.toNat = st.processed.toNat + m
  else r = .throw (if N.toNat < cfg.maxCount - B then .invalidFormat else .alloc)

theorem elementsLoop22_spent {cfg : Cfg} {N : UInt64} {ty nt : Int32} {k : Nat} (hty : mshNodes ty = some k) (h31 : nt.toInt < 2 ^ 29) (hc : 57 ≤ cfg.maxCount)
    (hN' : N.toNat ≤ cfg.maxCount) (m i : Nat) {id : Int32} {st : Binary22} (hf : st.Fits cfg N.toNat B) (hr : st.Ready nt.toInt.toNat k) :
    Counts cfg N B nt.toInt.toNat k m st (loopN (fun _ st => loadElementBinary22 cfg N ty nt st) m i (some id, st) spent) spent := by
  have hle := hf.le
  have hroom := hf.room
  induction m generalizing i id st with
  | zero =>
    unfold Counts
    rw [if_pos (by omega)]
    exact ⟨_, _, rfl, hf, hr, rfl⟩
  | succ m ih =>
    rw [loopN]
    have h := elementBinary22_spent (cfg := cfg) (N := N) hty h31 hc hN' (id := id) hf hr
    by_cases hp : st.processed.toNat < N.toNat ∧ st.processed.toNat < cfg.maxCount - B
    · rw [if_pos hp] at h
      obtain ⟨id', st', h1, h2, h3, h4⟩ := h
      rw [Rd.bind_ok h1]
      have := ih (i + 1) (id := id') h2 h3 h2.le h2.room
      unfold Counts at this ⊢
      rw [h4] at this
      have e : st.processed.toNat + 1 + m = st.processed.toNat + (m + 1) := by omega
      rwa [e] at this
    · rw [if_neg hp] at h
      unfold Counts
      have hx : st.processed.toNat < cfg.maxCount - B ↔ N.toNat < cfg.maxCount - B := by omega
      simp only [hx] at h
      rw [if_neg (by omega), Rd.bind_def, h]

theorem elementsLoop22_gs {cfg : Cfg} {N : UInt64} {ty nt : Int32} {k : Nat} (hty : mshNodes ty = some k) (h0 : 0 ≤ nt.toInt) (h31 : nt.toInt < 2 ^ 29)
    (hc : 57 ≤ cfg.maxCount) (hN' : N.toNat ≤ cfg.maxCount) (m i : Nat) {o : Option Int32} {st : Binary22} (hf : st.Fits cfg N.toNat B)
    (hr : st.Ready nt.toInt.toNat k) {d : Bytes} (hd : o = none → m = 0 ∨ 4 ≤ d.length) :
    Counts cfg N B nt.toInt.toNat k m st (loopN (fun _ st => loadElementBinary22 cfg N ty nt st) m i (o, st) (gs d)) (after (m * (4 * (1 + nt.toInt.toNat + k))) d) := by
  have hle := hf.le
  have hroom := hf.room
  induction m generalizing i o st d with
  | zero =>
    unfold Counts
    rw [if_pos (by omega), Nat.zero_mul, after_zero]
    exact ⟨_, _, rfl, hf, hr, rfl⟩
  | succ m ih =>
    rw [loopN]
    have h := elementBinary22_gs (cfg := cfg) (N := N) hty h0 h31 hc hN' (o := o) hf hr (d := d) (fun h => by have := hd h; omega)
    by_cases hp : st.processed.toNat < N.toNat ∧ st.processed.toNat < cfg.maxCount - B
    · rw [if_pos hp] at h
      obtain ⟨id', st', h1, h2, h3, h4⟩ := h
      rw [Rd.bind_ok h1]
      have e : st.processed.toNat + 1 + m = st.processed.toNat + (m + 1) := by omega
      generalize hL : 4 * (1 + nt.toInt.toNat + k) = L at *
      have eL : (m + 1) * L = L + m * L := by rw [Nat.succ_mul, Nat.add_comm]
      by_cases hl : L ≤ d.length
      · rw [after_gs hl]
        have := ih (i + 1) (o := some id') h2 h3 (d := d.drop L) (by simp) h2.le h2.room
        rw [after_drop hl, ← eL] at this
        unfold Counts at this ⊢
        rwa [h4, e] at this
      · rw [after_spent (n := L) (by omega), after_spent (n := (m + 1) * L) (by rw [eL]; omega)]
        have := elementsLoop22_spent (cfg := cfg) (N := N) hty h31 hc hN' m (i + 1) (id := id') h2 h3
        unfold Counts at this ⊢
        rwa [h4, e] at this
    · rw [if_neg hp] at h
      unfold Counts
      have hx : st.processed.toNat < cfg.maxCount - B ↔ N.toNat < cfg.maxCount - B := by omega
      simp only [hx] at h
      rw [if_neg (by omega), Rd.bind_def, h]

theorem elementBinary22_first {cfg : Cfg} {N : UInt64} {ty nt : Int32} (h31 : nt.toInt < 2 ^ 29) {st : Binary22} {d : Bytes} (hd : d.length < 4) :
    loadElementBinary22 cfg N ty nt (none, st) (gs d) = .ub := by
  unfold loadElementBinary22
  rw [Rd.bind_ok (readIntVar_none_short hd), if_neg (by omega)]
  obtain ⟨_, h2, _⟩ := readInts_spent st.tags
  obtain ⟨_, h3, _⟩ := readInts_spent st.nodeIds
  rw [Rd.bind_ok h2, Rd.bind_ok h3]
  rfl

theorem elementBinary22_tags {cfg : Cfg} {N : UInt64} {ty nt : Int32} (h31 : 2 ^ 29 ≤ nt.toInt) (o : Option Int32 × Binary22) (s : Stream) :
    loadElementBinary22 cfg N ty nt o s = .ub := by
  unfold loadElementBinary22
  have h : ∃ x s', readIntVar o.1 s = .ok (x, s') := by
    cases o.1 with
    | none =>
      unfold readIntVar
      simp only
      split
      · split <;> exact ⟨_, _, rfl⟩
      · exact ⟨_, _, rfl⟩
    | some v =>
      have hraw : ∃ x s', readRaw (encI32 v) s = .ok (x, s') := by
        unfold readRaw
        split
        · split <;> exact ⟨_, _, rfl⟩
        · exact ⟨_, _, rfl⟩
      obtain ⟨x, s', hraw⟩ := hraw
      rw [readIntVar_some]
      unfold readInt
      rw [Rd.bind_def, Rd.bind_ok hraw]
      exact ⟨_, _, rfl⟩
  obtain ⟨x, s', h⟩ := h
  rw [Rd.bind_ok h, if_pos (by omega)]
  rfl

theorem elementsLoop22_ub {cfg : Cfg} {N : UInt64} {ty nt : Int32} {m : Nat} (hm : m ≠ 0) {o : Option Int32 × Binary22} {s : Stream}
    (h : loadElementBinary22 cfg N ty nt o s = .ub) : loopN (fun _ st => loadElementBinary22 cfg N ty nt st) m 0 o s = .ub := by
  cases m with
  | zero => exact absurd rfl hm
  | succ m => rw [loopN]; exact Rd.bind_ub h

theorem startsGroup_of {d : Bytes} (h : 12 ≤ d.length) : ∃ ty nb nt r, d = encI32 ty ++ (encI32 nb ++ (encI32 nt ++ r)) := by
  refine ⟨decodeI32 (d.take 4), decodeI32 ((d.drop 4).take 4), decodeI32 ((d.drop 8).take 4), d.drop 12, ?_⟩
  rw [encI32_decodeI32 (by simp; omega), encI32_decodeI32 (by simp; omega), encI32_decodeI32 (by simp; omega)]
  have h1 : (d.drop 8).take 4 ++ d.drop 12 = d.drop 8 := by
    have := List.take_append_drop 4 (d.drop 8); rwa [List.drop_drop] at this
  have h2 : (d.drop 4).take 4 ++ d.drop 8 = d.drop 4 := by
    have := List.take_append_drop 4 (d.drop 4); rwa [List.drop_drop] at this
  rw [h1, h2, List.take_append_drop]

theorem encI32_append_inj {a b : Int32} {x y : Bytes} (h : encI32 a ++ x = encI32 b ++ y) : a = b ∧ x = y := by
  obtain ⟨h1, h2⟩ := List.append_inj h (by simp)
  exact ⟨by have := congrArg decodeI32 h1; simpa using this, h2⟩

theorem header_inj {ty ty' nb nb' nt nt' : Int32} {r r' : Bytes}
    (h : encI32 ty ++ (encI32 nb ++ (encI32 nt ++ r)) = encI32 ty' ++ (encI32 nb' ++ (encI32 nt' ++ r'))) : ty = ty' ∧ nb = nb' ∧ nt = nt' ∧ r = r' := by
  obtain ⟨h1, h⟩ := encI32_append_inj h
  obtain ⟨h2, h⟩ := encI32_append_inj h
  obtain ⟨h3, h⟩ := encI32_append_inj h
  exact ⟨h1, h2, h3, h⟩

/-- The header of a group. -/
theorem groupBinary22_header (cfg : Cfg) (N : UInt64) (st : Binary22) (ty nb nt : Int32) (r : Bytes) :
    loadElementGroupBinary22 cfg N st (gs (encI32 ty ++ (encI32 nb ++ (encI32 nt ++ r)))) =
      (resize cfg st.tags (sizeOfInt nt) 0 >>= fun tags => Rd.lift (nodesPerElement ty) >>= fun n => resize cfg st.nodeIds n 0 >>= fun nodeIds =>
        loopN (fun _ st => loadElementBinary22 cfg N ty nt st) (sizeOfInt nb).toNat 0 (none, { st with tags := tags, nodeIds := nodeIds }) >>= fun q =>
          pure q.2) (gs r) := by
  unfold loadElementGroupBinary22
  rw [Rd.bind_ok (readIntVar_reads ty _), Rd.bind_ok (readIntVar_reads nb _), Rd.bind_ok (readIntVar_reads nt _)]
  rfl

theorem groupBinary22_short (cfg : Cfg) (N : UInt64) (st : Binary22) {d : Bytes} (h : d.length < 12) : loadElementGroupBinary22 cfg N st (gs d) = .ub := by
  unfold loadElementGroupBinary22
  by_cases h4 : d.length < 4
  · rw [Rd.bind_ok (readIntVar_none_short h4), Rd.bind_ok readIntVar_none_spent, Rd.bind_ok readIntVar_none_spent]
    rfl
  rw [Rd.bind_ok (readIntVar_none_gs (by omega))]
  by_cases h8 : d.length < 8
  · rw [Rd.bind_ok (readIntVar_none_short (by simp; omega)), Rd.bind_ok readIntVar_none_spent]
    rfl
  rw [Rd.bind_ok (readIntVar_none_gs (by simp; omega)), Rd.bind_ok (readIntVar_none_short (by simp; omega))]
  rfl

theorem groupBinary22_bad (cfg : Cfg) (N : UInt64) (st : Binary22) (r : Bytes) (f : Bool) : loadElementGroupBinary22 cfg N st ⟨r, true, f⟩ = .ub := by
  unfold loadElementGroupBinary22
  have h : ∀ f, readIntVar none ⟨r, true, f⟩ = .ok (none, ⟨r, true, true⟩) := by intro f; simp [readIntVar, Stream.good]
  rw [Rd.bind_ok (h f), Rd.bind_ok (h true), Rd.bind_ok (h true)]
  rfl

theorem groups22_bad {cfg : Cfg} {N : UInt64} {fuel : Nat} (hf : 0 < fuel) (st : Binary22) (r : Bytes) (f : Bool) :
    loadElementGroups22 cfg N fuel st ⟨r, true, f⟩ = if st.processed = N then .ok (st, ⟨r, true, f⟩) else .ub := by
  cases fuel with
  | zero => omega
  | succ fuel =>
    rw [loadElementGroups22]
    split
    · rfl
    · exact Rd.bind_ub (groupBinary22_bad ..)

theorem sizeOfInt_fits {cfg : Cfg} (x : Int32) : (sizeOfInt x).toNat ≤ cfg.maxCount ↔ 0 ≤ x.toInt ∧ x.toInt ≤ cfg.maxCount := by
  have h1 := toNat_sizeOfInt x
  have h2 := x.le_toInt
  have h3 := cfg.maxCount_lt
  split at h1 <;> omega

theorem vecResize_runs {cfg : Cfg} {n : UInt64} (h : n.toNat ≤ cfg.maxCount) (v : List α) (x : α) : ∃ l, vecResize cfg v n x = .ok l ∧ l.length = n.toNat := by
  unfold vecResize; rw [if_pos h]
  refine ⟨_, rfl, ?_⟩
  simp; omega

theorem GroupsUndefined.room {cfg : Cfg} {N R p : Nat} {d : Bytes} (h : GroupsUndefined cfg N R p d) : p ≤ R := by
  induction h with
  | header _ h | first _ h | tags _ h => exact h
  | cut => omega
  | next => omega

theorem groups22_ub_iff {cfg : Cfg} {N : UInt64} (hc : 57 ≤ cfg.maxCount) (hN' : N.toNat ≤ cfg.maxCount) (fuel : Nat) {st : Binary22} {d : Bytes}
    (hl : d.length < fuel) (hf : st.Fits cfg N.toNat B) :
    (∀ x s, loadElementGroups22 cfg N fuel st (gs d) = .ok (x, s) → x.maps.length = 4) ∧
    (loadElementGroups22 cfg N fuel st (gs d) = .ub ↔ GroupsUndefined cfg N.toNat (cfg.maxCount - B) st.processed.toNat d) := by
  induction fuel generalizing st d with
  | zero => omega
  | succ fuel ih =>
    rw [loadElementGroups22]
    by_cases hp : st.processed = N
    · rw [if_pos hp]
      have hp' : st.processed.toNat = N.toNat := by rw [hp]
      refine ⟨fun x s e => ?_, ?_⟩
      · rw [Rd.pure_def] at e; cases e; exact hf.maps
      · refine ⟨(fun h => by cases h), fun h => ?_⟩
        cases h <;> first | contradiction | omega
    rw [if_neg hp]
    have hp' : st.processed.toNat ≠ N.toNat := fun h => hp (UInt64.toNat_inj.mp h)
    by_cases h12 : d.length < 12
    · rw [Rd.bind_ub (groupBinary22_short cfg N st h12)]
      exact ⟨(fun _ _ e => by cases e), ⟨fun _ => .header hp' hf.room h12, fun _ => rfl⟩⟩
    obtain ⟨ty, nb, nt, r, rfl⟩ := startsGroup_of (Nat.not_lt.mp h12)
    -- what does not start a group that is read is not undefined
    have inv : GroupsUndefined cfg N.toNat (cfg.maxCount - B) st.processed.toNat (encI32 ty ++ (encI32 nb ++ (encI32 nt ++ r))) →
        (0 ≤ nt.toInt ∧ nt.toInt ≤ cfg.maxCount) ∧ ∃ k, mshNodes ty = some k ∧
          ((nb ≠ 0 ∧ r.length < 4) ∨ (nb ≠ 0 ∧ 2 ^ 29 ≤ nt.toInt) ∨
            ((nt.toInt < 2 ^ 29 ∧ 0 < nb.toInt) ∧ st.processed.toNat + nb.toInt.toNat < N.toNat ∧ st.processed.toNat + nb.toInt.toNat ≤ cfg.maxCount - B ∧ r.length < groupBytes nb nt k) ∨
            ((nt.toInt < 2 ^ 29 ∨ nb = 0) ∧ 0 ≤ nb.toInt ∧ st.processed.toNat + nb.toInt.toNat ≤ N.toNat ∧ groupBytes nb nt k ≤ r.length ∧
              GroupsUndefined cfg N.toNat (cfg.maxCount - B) (st.processed.toNat + nb.toInt.toNat) (r.drop (groupBytes nb nt k)))) := by
      intro h
      cases h with
      | header _ _ h => exact absurd h h12
      | first _ _ hg h0 hm hb hr =>
        obtain ⟨e, hk⟩ := hg
        obtain ⟨rfl, rfl, rfl, rfl⟩ := header_inj e
        exact ⟨⟨h0, hm⟩, _, hk, Or.inl ⟨hb, hr⟩⟩
      | tags _ _ hg h0 hm hb =>
        obtain ⟨e, hk⟩ := hg
        obtain ⟨rfl, rfl, rfl, rfl⟩ := header_inj e
        exact ⟨⟨by omega, hm⟩, _, hk, Or.inr (Or.inl ⟨hb, h0⟩)⟩
      | cut hg h0 h29 hm hb hlt hR hr =>
        obtain ⟨e, hk⟩ := hg
        obtain ⟨rfl, rfl, rfl, rfl⟩ := header_inj e
        exact ⟨⟨h0, hm⟩, _, hk, Or.inr (Or.inr (Or.inl ⟨⟨h29, hb⟩, hlt, hR, hr⟩))⟩
      | next _ hg h0 h29 hm hb hle hr hn =>
        obtain ⟨e, hk⟩ := hg
        obtain ⟨rfl, rfl, rfl, rfl⟩ := header_inj e
        exact ⟨⟨h0, hm⟩, _, hk, Or.inr (Or.inr (Or.inr ⟨h29, hb, hle, hr, hn⟩))⟩
    have throws : ∀ e, loadElementGroupBinary22 cfg N st (gs (encI32 ty ++ (encI32 nb ++ (encI32 nt ++ r)))) = .throw e →
        ¬ GroupsUndefined cfg N.toNat (cfg.maxCount - B) st.processed.toNat (encI32 ty ++ (encI32 nb ++ (encI32 nt ++ r))) → 
        (∀ x s, (loadElementGroupBinary22 cfg N st >>= loadElementGroups22 cfg N fuel) (gs (encI32 ty ++ (encI32 nb ++ (encI32 nt ++ r)))) = .ok (x, s) → x.maps.length = 4) ∧
        ((loadElementGroupBinary22 cfg N st >>= loadElementGroups22 cfg N fuel) (gs (encI32 ty ++ (encI32 nb ++ (encI32 nt ++ r)))) = .ub ↔
          GroupsUndefined cfg N.toNat (cfg.maxCount - B) st.processed.toNat (encI32 ty ++ (encI32 nb ++ (encI32 nt ++ r)))) := by
      intro e he hn
      rw [Rd.bind_def, he]
      exact ⟨(fun _ _ e => by cases e), ⟨(fun h => by cases h), fun h => absurd h hn⟩⟩
    have hstart := groupBinary22_header cfg N st ty nb nt r
    by_cases hnt : (sizeOfInt nt).toNat ≤ cfg.maxCount
    swap
    · refine throws .alloc ?_ fun h => hnt ((sizeOfInt_fits nt).mpr (inv h).1)
      rw [hstart]
      unfold resize vecResize
      rw [if_neg hnt]
      rfl
    have hnt' := (sizeOfInt_fits nt).mp hnt
    obtain ⟨tags, ht, htl⟩ := vecResize_runs hnt st.tags 0
    rw [sizeOfInt_toNat hnt'.1] at htl
    unfold resize at hstart
    rw [ht, Rd.bind_ok (show Rd.lift (Outcome.ok _) (gs r) = .ok (_, _) from rfl)] at hstart
    cases hk : mshNodes ty with
    | none =>
      rw [mshNodes_none hk] at hstart
      refine throws .unsupportedFeature hstart fun h => ?_
      obtain ⟨-, k, h, -⟩ := inv h
      rw [hk] at h
      cases h
    | some k =>
      obtain ⟨hn, h56, h1⟩ := nodesPerElement_of_mshNodes hk
      have hk64 : (UInt64.ofNat k).toNat = k := by rw [UInt64.toNat_ofNat']; omega
      obtain ⟨ids, hi, hil⟩ := vecResize_runs (cfg := cfg) (n := UInt64.ofNat k) (by omega) st.nodeIds 0
      rw [hk64] at hil
      rw [hn, Rd.bind_ok (show Rd.lift (Outcome.ok _) (gs r) = .ok (_, _) from rfl), hi, Rd.bind_ok (show Rd.lift (Outcome.ok _) (gs r) = .ok (_, _) from rfl)] at hstart
      have inv' : GroupsUndefined cfg N.toNat (cfg.maxCount - B) st.processed.toNat (encI32 ty ++ (encI32 nb ++ (encI32 nt ++ r))) →
          ((nb ≠ 0 ∧ r.length < 4) ∨ (nb ≠ 0 ∧ 2 ^ 29 ≤ nt.toInt) ∨
            ((nt.toInt < 2 ^ 29 ∧ 0 < nb.toInt) ∧ st.processed.toNat + nb.toInt.toNat < N.toNat ∧ st.processed.toNat + nb.toInt.toNat ≤ cfg.maxCount - B ∧ r.length < groupBytes nb nt k) ∨
            ((nt.toInt < 2 ^ 29 ∨ nb = 0) ∧ 0 ≤ nb.toInt ∧ st.processed.toNat + nb.toInt.toNat ≤ N.toNat ∧ groupBytes nb nt k ≤ r.length ∧
              GroupsUndefined cfg N.toNat (cfg.maxCount - B) (st.processed.toNat + nb.toInt.toNat) (r.drop (groupBytes nb nt k)))) := by
        intro h
        obtain ⟨-, k', hk', h⟩ := inv h
        rw [hk] at hk'
        cases hk'
        exact h
      have hsg : StartsGroup (encI32 ty ++ (encI32 nb ++ (encI32 nt ++ r))) ty nb nt k r := ⟨rfl, hk⟩
      have hnb := toNat_sizeOfInt nb
      have hnb2 := nb.le_toInt
      have hnb3 := nb.toInt_lt
      have hnb0 : nb = 0 ↔ nb.toInt = 0 := by rw [← Int32.toInt_inj]; rfl
      have hnbm : nb ≠ 0 → (sizeOfInt nb).toNat ≠ 0 := by
        intro h h'
        rw [h'] at hnb
        apply h
        rw [hnb0]
        split at hnb <;> omega
      have ubs : loopN (fun _ st => loadElementBinary22 cfg N ty nt st) (sizeOfInt nb).toNat 0 (none, { st with tags := tags, nodeIds := ids }) (gs r) = .ub →
          GroupsUndefined cfg N.toNat (cfg.maxCount - B) st.processed.toNat (encI32 ty ++ (encI32 nb ++ (encI32 nt ++ r))) → 
          (∀ x s, (loadElementGroupBinary22 cfg N st >>= loadElementGroups22 cfg N fuel) (gs (encI32 ty ++ (encI32 nb ++ (encI32 nt ++ r)))) = .ok (x, s) → x.maps.length = 4) ∧
          ((loadElementGroupBinary22 cfg N st >>= loadElementGroups22 cfg N fuel) (gs (encI32 ty ++ (encI32 nb ++ (encI32 nt ++ r)))) = .ub ↔
            GroupsUndefined cfg N.toNat (cfg.maxCount - B) st.processed.toNat (encI32 ty ++ (encI32 nb ++ (encI32 nt ++ r)))) := by
        intro hu hg
        rw [Rd.bind_ub hu] at hstart
        rw [Rd.bind_ub hstart]
        exact ⟨(fun _ _ e => by cases e), ⟨fun _ => hg, fun _ => rfl⟩⟩
      by_cases hb29 : nb ≠ 0 ∧ 2 ^ 29 ≤ nt.toInt
      · refine ubs (elementsLoop22_ub (hnbm hb29.1) (elementBinary22_tags hb29.2 _ _)) (.tags hp' hf.room hsg hb29.2 hnt'.2 hb29.1)
      by_cases hb4 : nb ≠ 0 ∧ r.length < 4
      · exact ubs (elementsLoop22_ub (hnbm hb4.1) (elementBinary22_first (Int.not_le.mp fun h => hb29 ⟨hb4.1, h⟩) hb4.2)) (.first hp' hf.room hsg hnt'.1 hnt'.2 hb4.1 hb4.2)
      by_cases hz : nb = 0
      · -- an empty group
        subst hz
        have hg0 : groupBytes 0 nt k = 0 := by unfold groupBytes; simp
        have : loadElementGroupBinary22 cfg N st (gs (encI32 ty ++ (encI32 0 ++ (encI32 nt ++ r)))) = .ok (⟨tags, ids, st.minTag, st.maxTag, st.processed, st.blocks, st.maps⟩, gs r) := hstart
        rw [Rd.bind_ok this]
        have ih' := ih (st := ⟨tags, ids, st.minTag, st.maxTag, st.processed, st.blocks, st.maps⟩) (d := r) (by simp at hl; omega) ⟨hf.maps, hf.le, hf.room, hf.blocks⟩
        refine ⟨ih'.1, ih'.2.trans ⟨fun h => ?_, fun h => ?_⟩⟩
        · refine .next hp' hsg hnt'.1 (Or.inr rfl) hnt'.2 (by simp) (by simpa using hf.le) (by rw [hg0]; omega) ?_
          rw [hg0]
          simpa using h
        · rcases inv' h with h | h | h | h
          · exact absurd rfl h.1
          · exact absurd rfl h.1
          · exact absurd h.1.2 (by simp)
          · have := h.2.2.2.2
            rw [hg0] at this
            simpa using this
      have h29 : nt.toInt < 2 ^ 29 := Int.not_le.mp fun h => hb29 ⟨hz, h⟩
      have h4 : 4 ≤ r.length := Nat.not_lt.mp fun h => hb4 ⟨hz, h⟩
      have hloop := elementsLoop22_gs (cfg := cfg) (N := N) hk hnt'.1 h29 hc hN' (sizeOfInt nb).toNat 0 (o := none)
        (st := ⟨tags, ids, st.minTag, st.maxTag, st.processed, st.blocks, st.maps⟩) ⟨hf.maps, hf.le, hf.room, hf.blocks⟩ ⟨htl, hil⟩ (d := r) (fun _ => Or.inr h4)
      have hbl := hf.blocks
      unfold Counts at hloop
      by_cases hle : st.processed.toNat + (sizeOfInt nb).toNat ≤ N.toNat ∧ st.processed.toNat + (sizeOfInt nb).toNat ≤ cfg.maxCount - B
      · rw [if_pos hle] at hloop
        obtain ⟨o, st', hrun, hf', hr', hpr⟩ := hloop
        have hmax := cfg.maxCount_lt
        have hpos : 0 ≤ nb.toInt := by split at hnb <;> omega
        rw [sizeOfInt_toNat hpos] at hle hrun hpr hstart
        rw [Rd.bind_ok hrun] at hstart
        rw [Rd.bind_ok hstart]
        have hpr' : st'.processed.toNat = st.processed.toNat + nb.toInt.toNat := hpr
        have hgb : nb.toInt.toNat * (4 * (1 + nt.toInt.toNat + k)) = groupBytes nb nt k := rfl
        rw [hgb]
        by_cases hlen : groupBytes nb nt k ≤ r.length
        · rw [after_gs hlen]
          have ih' := ih (st := st') (d := r.drop (groupBytes nb nt k)) (by simp at hl ⊢; omega) hf'
          rw [hpr'] at ih'
          refine ⟨ih'.1, ih'.2.trans ⟨fun h => .next hp' hsg hnt'.1 (Or.inl h29) hnt'.2 hpos hle.1 hlen h, fun h => ?_⟩⟩
          rcases inv' h with h | h | h | h
          · exact absurd h.2 (by omega)
          · exact absurd h.2 (by omega)
          · exact absurd h.2.2.2 (by omega)
          · exact h.2.2.2.2
        · rw [after_spent (by omega)]
          unfold spent
          rw [groups22_bad (by simp at hl; omega)]
          by_cases hfull : st'.processed = N
          · rw [if_pos hfull]
            refine ⟨fun x s e => ?_, ⟨(fun e => by cases e), fun h => ?_⟩⟩
            · cases e; exact hf'.maps
            · have : st'.processed.toNat = N.toNat := by rw [hfull]
              rcases inv' h with h | h | h | h
              · exact absurd h.2 (by omega)
              · exact absurd h.2 (by omega)
              · exact absurd h.2.1 (by omega)
              · exact absurd h.2.2.2.1 hlen
          · rw [if_neg hfull]
            have : st'.processed.toNat ≠ N.toNat := fun h => hfull (UInt64.toNat_inj.mp h)
            have hle' := hf'.le
            refine ⟨(fun _ _ e => by cases e), ⟨fun _ => .cut hsg hnt'.1 h29 hnt'.2 ?_ (by omega) hle.2 (by omega), fun _ => rfl⟩⟩
            have : nb.toInt ≠ 0 := fun h => hz (hnb0.mpr h)
            omega
      · rw [if_neg hle] at hloop
        rw [Rd.bind_def, hloop] at hstart
        refine throws _ hstart fun h => ?_
        have hmax := cfg.maxCount_lt
        rcases inv' h with h | h | h | h
        · exact absurd h.2 (by omega)
        · exact absurd h.2 (by omega)
        · have := sizeOfInt_toNat (x := nb) (by omega)
          omega
        · have := sizeOfInt_toNat (x := nb) (by omega)
          have := h.2.2.2.2.room
          omega

/-! ## Sections -/

theorem Counted.wsHead {r : Bytes} {N : UInt64} {d : Bytes} (h : Counted r N d) : WsHead r := by
  obtain ⟨w, c, rfl, hw, hn, -⟩ := h
  cases w with
  | nil => exact absurd rfl hn
  | cons x w => exact ⟨x, w ++ decU64 N ++ c :: d, rfl, hw x (by simp)⟩

theorem nodesBinary22_throws {cfg : Cfg} {n : Nodes} {w d : Bytes} {c : UInt8} {N : UInt64} (hw : Blank w) (hc : isEatSpace c = true)
    (h : ¬ (n.entityBlocks.length < cfg.maxCount ∧ 3 * N.toNat ≤ cfg.maxCount)) :
    loadNodesBinary22 cfg n (gs (w ++ decU64 N ++ c :: d)) = .throw .alloc := by
  have hlt := cfg.maxCount_lt
  unfold loadNodesBinary22
  by_cases hs : n.entityBlocks.length < cfg.maxCount
  · have hp : pushBack cfg n.entityBlocks {} (gs (w ++ decU64 N ++ c :: d)) = .ok (n.entityBlocks ++ [({} : NodeBlock)], gs (w ++ decU64 N ++ c :: d)) := by
      unfold pushBack vecPush; rw [if_pos hs]; rfl
    rw [Rd.bind_ok hp, Rd.bind_ok (inSize_tok 0 N w (c :: d) hw ⟨c, d, rfl, isSpace_of_isEatSpace hc⟩)]
    have ha : assertGood cfg (gs (c :: d)) = .ok ((), gs (c :: d)) := by simp [assertGood, Stream.good]
    rw [Rd.bind_ok ha]
    unfold resize
    by_cases hN : N.toNat ≤ cfg.maxCount
    · rw [vecResize_nil hN, Rd.bind_ok (show Rd.lift (Outcome.ok _) (gs (c :: d)) = .ok (_, _) from rfl)]
      have h3 : (N * 3).toNat = 3 * N.toNat := by
        rw [UInt64.toNat_mul]
        show N.toNat * 3 % 2 ^ 64 = _
        omega
      have : ∀ x : Double, vecResize cfg ([] : List Double) (N * 3) x = .throw .alloc := by
        intro x; unfold vecResize; rw [if_neg (by omega)]
      rw [this]
      rfl
    · have : ∀ x : UInt64, vecResize cfg ([] : List UInt64) N x = .throw .alloc := by
        intro x; unfold vecResize; rw [if_neg hN]
      rw [this]
      rfl
  · have hp : pushBack cfg n.entityBlocks {} (gs (w ++ decU64 N ++ c :: d)) = .throw .alloc := by
      unfold pushBack vecPush; rw [if_neg hs]; rfl
    rw [Rd.bind_def, hp]

theorem bind_ub_iff {α β : Type} {m : Rd α} {f : α → Rd β} {s : Stream} : (m >>= f) s = .ub ↔ m s = .ub ∨ ∃ a s', m s = .ok (a, s') ∧ f a s' = .ub := by
  rw [Rd.bind_def]
  cases hm : m s with
  | ok x =>
    obtain ⟨a, t⟩ := x
    refine ⟨fun h => Or.inr ⟨a, t, rfl, h⟩, ?_⟩
    rintro (h | ⟨a', t', h, h'⟩)
    · cases h
    · cases h; exact h'
  | ub => exact ⟨fun _ => Or.inl rfl, fun _ => rfl⟩
  | throw x => exact ⟨(fun h => by cases h), by rintro (h | ⟨_, _, h, _⟩) <;> cases h⟩
  | abort => exact ⟨(fun h => by cases h), by rintro (h | ⟨_, _, h, _⟩) <;> cases h⟩
  | hang => exact ⟨(fun h => by cases h), by rintro (h | ⟨_, _, h, _⟩) <;> cases h⟩

theorem elementsBinary22_ub_iff {cfg : Cfg} (hc57 : 57 ≤ cfg.maxCount) {e : Elements} {ents : Entities} {w d : Bytes} {c : UInt8} {N : UInt64} (hw : Blank w)
    (hc : isEatSpace c = true) : loadElementsBinary22 cfg e ents (gs (w ++ decU64 N ++ c :: d)) = .ub ↔
      N.toNat ≤ cfg.maxCount ∧ GroupsUndefined cfg N.toNat (cfg.maxCount - e.entityBlocks.length) 0 d := by
  unfold loadElementsBinary22
  rw [Rd.bind_ok (inSize_tok _ N w (c :: d) hw ⟨c, d, rfl, isSpace_of_isEatSpace hc⟩)]
  unfold vecReserve
  by_cases hN : N.toNat ≤ cfg.maxCount
  swap
  · rw [if_neg hN]
    exact ⟨(fun h => by cases h), fun h => absurd h.1 hN⟩
  rw [if_pos hN, Rd.bind_ok (show Rd.lift (Outcome.ok _) (gs (c :: d)) = .ok (_, _) from rfl), Rd.bind_ok (eat_payload hc d)]
  have key : (∀ x s, loadElementGroups22 cfg N ((payload d).rem.length + 2) { blocks := e.entityBlocks } (payload d) = .ok (x, s) → x.maps.length = 4) ∧
      (loadElementGroups22 cfg N ((payload d).rem.length + 2) { blocks := e.entityBlocks } (payload d) = .ub ↔
        GroupsUndefined cfg N.toNat (cfg.maxCount - e.entityBlocks.length) 0 d) := by
    by_cases hd : d = []
    · subst hd
      rw [show payload [] = ⟨[], true, false⟩ from rfl, groups22_bad (by simp)]
      by_cases h0 : (0 : UInt64) = N
      · subst h0
        refine ⟨fun x s h => by cases h; rfl, ⟨(fun h => by cases h), fun h => ?_⟩⟩
        cases h <;> contradiction
      · refine ⟨fun x s h => ?_, ⟨fun _ => .header (fun h => h0 (UInt64.toNat_inj.mp (by simpa using h))) (Nat.zero_le _) (by simp), fun _ => ?_⟩⟩
        · rw [if_neg h0] at h; cases h
        · rw [if_neg h0]
    · rw [payload_ne hd]
      exact groups22_ub_iff (B := e.entityBlocks.length) (st := { blocks := e.entityBlocks }) hc57 hN (d.length + 2) (by omega)
        ⟨rfl, Nat.zero_le _, Nat.zero_le _, rfl⟩
  refine bind_ub_iff.trans ⟨fun h => ⟨hN, ?_⟩, fun h => Or.inl (key.2.mpr h.2)⟩
  rcases h with h | ⟨st, s', hg, h⟩
  · exact key.2.mp h
  · have hs := (createAllEntities_safe cfg (key.1 st s' hg) ents).1
    rcases bind_ub_iff.mp h with h | ⟨_, _, _, h⟩
    · exact absurd h (fun h => hs (by unfold Rd.lift at h; cases hcr : createAllEntities cfg st.maps ents <;> rw [hcr] at h <;> first | rfl | cases h))
    · cases h

theorem isEatSpace_of {c : UInt8} (h : c = 10 ∨ c = 13 ∨ c = 32 ∨ c = 9) : isEatSpace c = true := by
  rcases h with rfl | rfl | rfl | rfl <;> rfl

/-- The `$Nodes` section of a binary version 2.2 file. -/
theorem loadNodes22b_ub_iff {cfg : Cfg} {s : MshSpec} (hv : s.meshFormat.version = b! "2.2") (ht : s.meshFormat.fileType ≠ 0) {r d : Bytes} {N : UInt64}
    (hr : Counted r N d) : loadNodes cfg s.meshFormat s.nodes (gs r) = .ub ↔ NodesUndefined cfg s N d := by
  obtain ⟨w, c, rfl, hw, -, hc⟩ := hr
  have hc' := isEatSpace_of hc
  unfold loadNodes
  simp only [hv, if_neg ht, if_pos trivial]
  rw [if_neg (by decide)]
  have hb : ∀ n : Nodes, (if n.entityBlocks.length = 0 then { n with minNodeTag := sizeMax, maxNodeTag := 0, numNodes := 0 } else n).entityBlocks = n.entityBlocks := by
    intro n; split <;> rfl
  generalize hn : (if s.nodes.entityBlocks.length = 0 then { s.nodes with minNodeTag := sizeMax, maxNodeTag := 0, numNodes := 0 } else s.nodes) = n
  have hbn : n.entityBlocks = s.nodes.entityBlocks := by rw [← hn, hb]
  unfold NodesUndefined
  rw [← hbn]
  by_cases hm : n.entityBlocks.length < cfg.maxCount ∧ 3 * N.toNat ≤ cfg.maxCount
  swap
  · rw [nodesBinary22_throws hw hc' hm]
    exact ⟨(fun h => by cases h), fun h => absurd ⟨h.1, h.2.1⟩ hm⟩
  by_cases hd : d.length + 24 < 28 * N.toNat
  swap
  · obtain ⟨n', s', h⟩ := nodesBinary22_long hw hc' hm.2 hm.1 (Nat.not_lt.mp hd)
    rw [h]
    exact ⟨(fun h => by cases h), fun h => absurd h.2.2.1 hd⟩
  rw [nodesBinary22_short hw hc' hm.2 hm.1 hd]
  by_cases ha : cfg.asserts = true ∧ (d = [] ∨ 4 ≤ d.length % 28)
  · rw [if_pos ha]
    refine ⟨(fun h => by cases h), fun h => ?_⟩
    obtain ⟨h1, h2⟩ := h.2.2.2 ha.1
    rcases ha.2 with h' | h'
    · exact absurd h' h1
    · omega
  · rw [if_neg ha]
    refine ⟨fun _ => ⟨hm.1, hm.2, hd, fun h => ?_⟩, fun _ => rfl⟩
    refine ⟨fun h' => ha ⟨h, Or.inl h'⟩, ?_⟩
    have : ¬ 4 ≤ d.length % 28 := fun h' => ha ⟨h, Or.inr h'⟩
    omega

/-- The `$Elements` section of a binary version 2.2 file. -/
theorem loadElements22b_ub_iff {cfg : Cfg} (hc57 : 57 ≤ cfg.maxCount) {s : MshSpec} (hv : s.meshFormat.version = b! "2.2") (ht : s.meshFormat.fileType ≠ 0)
    {r d : Bytes} {N : UInt64} (hr : Counted r N d) : loadElements cfg s.meshFormat s.elements s.entities (gs r) = .ub ↔ ElementsUndefined cfg s N d := by
  obtain ⟨w, c, rfl, hw, -, hc⟩ := hr
  have hc' := isEatSpace_of hc
  unfold loadElements
  simp only [hv, if_neg ht, if_pos trivial]
  rw [if_neg (by decide)]
  have hb : ∀ n : Elements, (if n.entityBlocks.length = 0 then { n with minElementTag := sizeMax, maxElementTag := 0 } else n).entityBlocks = n.entityBlocks := by
    intro n; split <;> rfl
  rw [elementsBinary22_ub_iff hc57 hw hc', hb]
  rfl

theorem ub_bind {α β : Type} {m : Rd α} {f : α → Rd β} {s : Stream} (h : ∀ a s', f a s' ≠ .ub) : (m >>= f) s = .ub ↔ m s = .ub := by
  rw [Rd.bind_def]
  cases hm : m s with
  | ok x => obtain ⟨a, t⟩ := x; exact ⟨fun h' => absurd h' (h a t), fun h => by cases h⟩
  | throw x => exact ⟨(fun h => by cases h), fun h => by cases h⟩
  | abort => exact ⟨(fun h => by cases h), fun h => by cases h⟩
  | hang => exact ⟨(fun h => by cases h), fun h => by cases h⟩
  | ub => exact ⟨fun _ => rfl, fun _ => rfl⟩

/-- A round of the main loop at a `$Nodes` or `$Elements` section. -/
theorem round22b_nodes {cfg : Cfg} {s : MshSpec} (hv : s.meshFormat.version = b! "2.2") (ht : s.meshFormat.fileType ≠ 0) {w r d : Bytes} {N : UInt64} (hw : Blank w)
    (hr : Counted r N d) : loadRound cfg s (gs (w ++ b! "$Nodes" ++ r)) = .ub ↔ NodesUndefined cfg s N d := by
  rw [List.append_assoc, loadRound_ws _ _ hw]
  have h := loadRound_start cfg s (name := b! "Nodes") (by decide) hr.wsHead
  rw [show b! "$Nodes" ++ r = 36 :: b! "Nodes" ++ r from rfl, h, loadSection_nodes, ub_bind, ub_bind]
  · exact loadNodes22b_ub_iff hv ht hr
  · intro a s' h; cases h
  · intro a s' h
    exact forwardTo_ne_ub _ _ ((ub_bind (fun a s' h => by cases h)).mp h)

theorem round22b_elements {cfg : Cfg} (hc57 : 57 ≤ cfg.maxCount) {s : MshSpec} (hv : s.meshFormat.version = b! "2.2") (ht : s.meshFormat.fileType ≠ 0)
    {w r d : Bytes} {N : UInt64} (hw : Blank w) (hr : Counted r N d) : loadRound cfg s (gs (w ++ b! "$Elements" ++ r)) = .ub ↔ ElementsUndefined cfg s N d := by
  rw [List.append_assoc, loadRound_ws _ _ hw]
  have h := loadRound_start cfg s (name := b! "Elements") (by decide) hr.wsHead
  rw [show b! "$Elements" ++ r = 36 :: b! "Elements" ++ r from rfl, h, loadSection_elements, ub_bind, ub_bind]
  · exact loadElements22b_ub_iff hc57 hv ht hr
  · intro a s' h; cases h
  · intro a s' h
    exact forwardTo_ne_ub _ _ ((ub_bind (fun a s' h => by cases h)).mp h)

/-! ## Whole files -/

theorem inString_at {s s' : Stream} {buf : Bytes} (h : inString [] s = .ok (buf, s')) (hb : buf ≠ []) :
    ∃ w, Blank w ∧ s = gs (w ++ buf ++ s'.rem) ∧ s' = ⟨s'.rem, s'.rem.isEmpty, false⟩ ∧ WsNext s'.rem := by
  unfold inString sentry at h
  by_cases hg : s.good = true
  · rw [if_pos hg] at h
    have hs : s = gs s.rem := by
      obtain ⟨r, e, f⟩ := s
      simp [Stream.good] at hg
      simp [hg]
    have hsp := List.takeWhile_append_dropWhile (p := isSpace) (l := s.rem)
    cases hd : s.rem.dropWhile isSpace with
    | nil => rw [hd] at h; cases h; exact absurd rfl hb
    | cons c r =>
      rw [hd] at h
      cases h
      refine ⟨s.rem.takeWhile isSpace, fun c hc => List.mem_takeWhile_imp hc, ?_, rfl, fun d hd => by simpa using head_dropWhile d hd⟩
      conv_lhs => rw [hs, ← hsp, hd, ← List.takeWhile_append_dropWhile (p := fun c => !isSpace c) (l := c :: r)]
      rw [List.append_assoc]
  · rw [if_neg hg] at h
    cases h
    exact absurd rfl hb

/-- A round of the main loop is undefined because of the section it reads. -/
theorem round_ub {cfg : Cfg} {s : MshSpec} {st : Stream} (h : loadRound cfg s st = .ub) :
    ∃ w buf r, Blank w ∧ st = gs (w ++ buf ++ r) ∧ WsNext r ∧ loadSection cfg buf s (payload r) = .ub := by
  unfold loadRound at h
  rw [Rd.bind_def] at h
  cases hi : inString [] st with
  | ok x =>
    obtain ⟨buf, s'⟩ := x
    rw [hi] at h
    simp only at h
    split at h
    · rename_i rest
      obtain ⟨w, hw, hst, hs', hn⟩ := inString_at hi (by simp)
      have h' := (ub_bind (fun a t h => forwardTo_ne_ub _ _ ((ub_bind (fun a s' h => by cases h)).mp h))).mp h
      rw [hs'] at h'
      exact ⟨w, 36 :: rest, s'.rem, hw, hst, hn, h'⟩
    · cases h
  | throw x => rw [hi] at h; cases h
  | abort => rw [hi] at h; cases h
  | hang => rw [hi] at h; cases h
  | ub => exact absurd hi (inString_ne_ub _ _)

/-- What has been read when the main loop arrives in `rest`. -/
theorem format_of_reach {cfg : Cfg} {rest : Bytes} {fmt : MeshFormat} (hr : ¬ b! "$MeshFormat" <:+: rest) {x : MshSpec × Stream}
    (h : Relation.ReflTransGen (MainIter cfg) ({ meshFormat := fmt }, gs rest) x) (hv : fmt.version = b! "2.2") :
    x.1.meshFormat = fmt ∧ x.2.rem <:+ rest := by
  have := reach_keeps (F := rest) (I := MshSpec.Raw fmt) (fun buf hb s hs => loadSection_raw cfg hv (fun e => hr (e ▸ hb)) hs) h
    ⟨⟨rfl, ⟨fun b hb => (List.not_mem_nil hb).elim, fun b hb => (List.not_mem_nil hb).elim⟩, fun b hb => (List.not_mem_nil hb).elim⟩, List.suffix_refl _⟩
  exact ⟨this.1.format, this.2⟩

/-- A round that is undefined, in `rest`, is met in `header ++ rest`. -/
theorem arrivesAt_of_reach {cfg : Cfg} {header rest : Bytes} {spec : MshSpec} (hh : Boundary cfg header spec) {s : MshSpec} {w name r : Bytes} (hw : Blank w) (hn : WsNext r)
    (h : Relation.ReflTransGen (MainIter cfg) (spec, gs rest) (s, gs (w ++ name ++ r))) : ArrivesAt cfg (header ++ rest) s name r := by
  obtain ⟨w', hw', h'⟩ := hh
  have h2 := arrives_ext h' spec w' rfl rest
  rcases Relation.ReflTransGen.cases_head h with e | ⟨y, hy, hr⟩
  · cases e
    refine ⟨hn, w' ++ w, fun c hc => ?_, ?_⟩
    · rcases List.mem_append.mp hc with hc | hc
      · exact hw' c hc
      · exact hw c hc
    · simpa [Arrives, Stream.ofBytes] using h2
  · refine ⟨hn, w, hw, h2.trans (.head ⟨rfl, ?_⟩ hr)⟩
    rw [loadRound_ws _ _ hw']
    exact hy.2

end MshIO
