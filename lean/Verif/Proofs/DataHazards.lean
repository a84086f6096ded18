import Verif.Proofs.Binary22
import Verif.Proofs.FormatWords

/-! # When reading data sections is undefined -/

namespace MshIO

variable {α β : Type}

theorem Skipped.eat {c : UInt8} (h : Skipped c) : isEatSpace c = true := isEatSpace_of h

theorem Skipped.space {c : UInt8} (h : Skipped c) : isSpace c = true := isSpace_of_isEatSpace h.eat

/-! ## The head -/

theorem loadDataHeader_at {cfg : Cfg} {lead t : Bytes} {P : Fmt} {strs : List Bytes} {reals : List Double} {ints : List Int32} (hreals : ∀ d ∈ reals, Printable P d)
    {words : List (Bytes × Bytes)} (hwords : words.map Prod.fst ++ [t] = headerWords P strs reals ints) (hseps : ∀ q ∈ words, Blank q.2 ∧ q.2 ≠ [])
    (hlead : Blank lead) (hm : strs.length ≤ cfg.maxCount ∧ reals.length ≤ cfg.maxCount ∧ ints.length ≤ cfg.maxCount) {c : UInt8} (hc : isSpace c = true) (d : Bytes) :
    loadDataHeader cfg {} (gs (Spaced lead words ++ (t ++ c :: d))) = .ok (⟨strs, reals.map (reread P), ints⟩, gs (c :: d)) := by
  obtain ⟨m4, m5, m6⟩ := hm
  have hlt := cfg.maxCount_lt
  have hk := loadDataHeader_reads cfg (P := P) (rd := reread P) ⟨strs, reals, ints⟩ (fun d hd => (hreals d hd).dtok) m4 m5 m6
  have := hk (words ++ [(t, [c])]) (by
    rw [List.map_append, List.map_cons, List.map_nil, hwords]; simp [headerWords, quoted_eq', headerToks, decU64, sizeU_toNat (v := strs) (by omega),
      sizeU_toNat (v := reals) (by omega), sizeU_toNat (v := ints) (by omega)]) (by
    intro q hq
    rcases List.mem_append.mp hq with hq | hq
    · exact hseps q hq
    · rw [List.mem_singleton] at hq
      subst hq
      exact ⟨by intro x hx; rw [List.mem_singleton] at hx; subst hx; exact hc, by simp⟩) lead d hlead
  rw [lastSep_append] at this
  have e : Spaced lead words ++ (t ++ c :: d) = lead ++ flat (words ++ [(t, [c])]) ++ d := by simp [Spaced, flat, List.flatMap_def]
  rw [e, this]
  rfl

theorem StartsData.read {cfg : Cfg} {r : Bytes} {ints : List Int32} {c : UInt8} {d : Bytes} (h : StartsData cfg r ints c d) (hc : isSpace c = true) :
    ∃ hd : DataHeader, hd.intTags = ints ∧ loadDataHeader cfg {} (gs r) = .ok (hd, gs (c :: d)) := by
  obtain ⟨lead, words, t, P, strs, reals, rfl, hl, -, hs, hw, hp, h1, h2, h3⟩ := h
  exact ⟨_, rfl, loadDataHeader_at hp hw hs hl ⟨h1, h2, h3⟩ hc d⟩

theorem StartsData.ne {cfg : Cfg} {r : Bytes} {ints : List Int32} {c : UInt8} {d : Bytes} (h : StartsData cfg r ints c d) : r ≠ [] := by
  obtain ⟨lead, words, t, P, strs, reals, rfl, -⟩ := h
  simp

/-! ## Binary entries -/

/-- The reader of an entry. -/
def loadDataEntryBinary (v22 : Bool) (cfg : Cfg) (fields : UInt64) (en : Bool) (e : DataEntry) : Rd DataEntry :=
  if v22 then loadDataEntryBinary22 cfg fields en e else loadDataEntryBinary41 cfg fields en e

theorem product_fits {cfg : Cfg} (x y : Int32) :
    (sizeOfInt x * sizeOfInt y).toNat ≤ cfg.maxCount ↔ 0 ≤ x.toInt * y.toInt ∧ x.toInt * y.toInt ≤ cfg.maxCount := by
  have h1 := toNat_sizeOfInt x
  have h2 := toNat_sizeOfInt y
  have h3 := cfg.maxCount_lt
  have b1 := x.le_toInt
  have b2 := x.toInt_lt
  have b3 := y.le_toInt
  have b4 := y.toInt_lt
  have hb : -(2 ^ 62) ≤ x.toInt * y.toInt ∧ x.toInt * y.toInt ≤ 2 ^ 62 := by
    have := abs_le.mp (show |x.toInt * y.toInt| ≤ 2 ^ 62 by
      rw [abs_mul]
      calc |x.toInt| * |y.toInt| ≤ 2 ^ 31 * 2 ^ 31 := by
            apply mul_le_mul <;> first | exact abs_nonneg _ | exact abs_le.mpr ⟨by omega, by omega⟩ | positivity
        _ = 2 ^ 62 := by norm_num)
    exact this
  have hm : ((sizeOfInt x * sizeOfInt y).toNat : Int) = (x.toInt * y.toInt) % 2 ^ 64 := by
    rw [UInt64.toNat_mul, Int.natCast_mod, Int.natCast_mul, h1, h2]
    have e : ∀ z : Int, (if z < 0 then z + 2 ^ 64 else z) % 2 ^ 64 = z % 2 ^ 64 := by
      intro z; split <;> omega
    have c : (((2 ^ 64 : Nat)) : Int) = 2 ^ 64 := by norm_num
    rw [c, Int.mul_emod, e, e, ← Int.mul_emod]
  generalize x.toInt * y.toInt = p at hb hm ⊢
  omega

theorem product_toNat {cfg : Cfg} {x y : Int32} {k : Nat} (h : x.toInt * y.toInt = k) (hk : k ≤ cfg.maxCount) : (sizeOfInt x * sizeOfInt y).toNat = k := by
  have h0 := (product_fits (cfg := cfg) x y).mpr ⟨by omega, by omega⟩
  have h1 := (product_fits (cfg := ⟨true, true, .general 6, k, by have := cfg.maxCount_lt; omega⟩) x y).mpr ⟨by omega, by simp only; omega⟩
  simp only at h1
  rcases Nat.eq_or_lt_of_le h1 with h1 | h1
  · exact h1
  · have h2 := (product_fits (cfg := ⟨true, true, .general 6, k - 1, by have := cfg.maxCount_lt; omega⟩) x y).mp (by simp only; omega)
    simp only at h2
    omega

theorem readIntVar_none_bad {s : Stream} (h : s.good = false) : readIntVar none s = .ok (none, { s with fail := true }) := by
  simp [readIntVar, h]

theorem entry_bad (v22 : Bool) (cfg : Cfg) (fields : UInt64) (en : Bool) (e : DataEntry) {s : Stream} (h : s.good = false) :
    loadDataEntryBinary v22 cfg fields en e s = .ub := by
  unfold loadDataEntryBinary
  cases v22
  · rw [if_neg (by simp)]; unfold loadDataEntryBinary41; rw [Rd.bind_ok (readIntVar_none_bad h)]; rfl
  · rw [if_pos rfl]; unfold loadDataEntryBinary22; rw [Rd.bind_ok (readIntVar_none_bad h)]; rfl

theorem entry_tag (v22 : Bool) (cfg : Cfg) (fields : UInt64) (en : Bool) (e : DataEntry) {d : Bytes} (h : d.length < 4) :
    loadDataEntryBinary v22 cfg fields en e (gs d) = .ub := by
  unfold loadDataEntryBinary
  cases v22
  · rw [if_neg (by simp)]; unfold loadDataEntryBinary41; rw [Rd.bind_ok (readIntVar_none_short h)]; rfl
  · rw [if_pos rfl]; unfold loadDataEntryBinary22; rw [Rd.bind_ok (readIntVar_none_short h)]; rfl

theorem readIntVar_none_enc (x : Int32) (r : Bytes) : readIntVar none (gs (encI32 x ++ r)) = .ok (some x, gs r) := by
  rw [readIntVar_none_gs (by simp)]
  simp [List.take_left' (encI32_length x), List.drop_left' (encI32_length x)]

theorem readInt_enc (o x : Int32) (r : Bytes) : readInt o (gs (encI32 x ++ r)) = .ok (x, gs r) := by
  unfold readInt
  rw [Rd.bind_ok (readRaw_gs (by simp))]
  simp [List.take_left' (encI32_length x), List.drop_left' (encI32_length x)]
  rfl

/-- The values of an entry. -/
theorem values_read {cfg : Cfg} {n : UInt64} (mk : List Double → DataEntry) (v : List Double) (s : Stream) :
    (resize cfg v n Double.zero >>= fun data => readDoubles data >>= fun data => (pure (mk data) : Rd DataEntry)) s =
      if n.toNat ≤ cfg.maxCount then
        (readDoubles (v.take n.toNat ++ List.replicate (n.toNat - v.length) Double.zero) >>= fun data => (pure (mk data) : Rd DataEntry)) s
      else .throw .alloc := by
  unfold resize vecResize
  split <;> rfl

theorem values_after {cfg : Cfg} {n : UInt64} (hn : n.toNat ≤ cfg.maxCount) (mk : List Double → DataEntry) (v : List Double) (d : Bytes) :
    ∃ e, (resize cfg v n Double.zero >>= fun data => readDoubles data >>= fun data => (pure (mk data) : Rd DataEntry)) (gs d) = .ok (e, after (8 * n.toNat) d) := by
  rw [values_read, if_pos hn]
  obtain ⟨l, h, -⟩ := readDoubles_after (v.take n.toNat ++ List.replicate (n.toNat - v.length) Double.zero) 0 d
  rw [after_zero] at h
  refine ⟨mk l, ?_⟩
  rw [Rd.bind_ok h]
  have : (v.take n.toNat ++ List.replicate (n.toNat - v.length) Double.zero).length = n.toNat := by simp; omega
  rw [this, Nat.zero_add]
  rfl

theorem values_spent {cfg : Cfg} {n : UInt64} (hn : n.toNat ≤ cfg.maxCount) (mk : List Double → DataEntry) (v : List Double) :
    ∃ e, (resize cfg v n Double.zero >>= fun data => readDoubles data >>= fun data => (pure (mk data) : Rd DataEntry)) spent = .ok (e, spent) := by
  rw [values_read, if_pos hn]
  unfold readDoubles
  rw [Rd.bind_def, Rd.bind_ok (readRaw_spent _)]
  exact ⟨_, rfl⟩

theorem values_throw {cfg : Cfg} {n : UInt64} (hn : ¬ n.toNat ≤ cfg.maxCount) (mk : List Double → DataEntry) (v : List Double) (s : Stream) :
    (resize cfg v n Double.zero >>= fun data => readDoubles data >>= fun data => (pure (mk data) : Rd DataEntry)) s = .throw .alloc := by
  rw [values_read, if_neg hn]

theorem useVar_some (a : α) (s : Stream) : useVar (some a) s = .ok (a, s) := rfl

theorem entry_plain (v22 : Bool) (cfg : Cfg) (fields : UInt64) (e : DataEntry) (tag : Int32) (r : Bytes) :
    loadDataEntryBinary v22 cfg fields false e (gs (encI32 tag ++ r)) =
      (resize cfg e.data fields Double.zero >>= fun data => readDoubles data >>= fun data => (pure { e with tag := sizeOfInt tag, data } : Rd DataEntry)) (gs r) := by
  unfold loadDataEntryBinary
  cases v22
  · rw [if_neg (by simp)]; unfold loadDataEntryBinary41; rw [Rd.bind_ok (readIntVar_none_enc tag r)]; rfl
  · rw [if_pos rfl]; unfold loadDataEntryBinary22; rw [Rd.bind_ok (readIntVar_none_enc tag r)]; rfl

theorem entry_node (v22 : Bool) (cfg : Cfg) (fields : UInt64) (e : DataEntry) (tag npe : Int32) (r : Bytes) :
    loadDataEntryBinary v22 cfg fields true e (gs (encI32 tag ++ (encI32 npe ++ r))) =
      (resize cfg e.data (fields * sizeOfInt npe) Double.zero >>= fun data => readDoubles data >>= fun data =>
        (pure { tag := sizeOfInt tag, numNodesPerElement := npe, data } : Rd DataEntry)) (gs r) := by
  unfold loadDataEntryBinary
  cases v22
  · rw [if_neg (by simp)]
    unfold loadDataEntryBinary41
    rw [Rd.bind_ok (readIntVar_none_enc tag _)]
    rw [Rd.bind_ok (useVar_some tag _), if_pos rfl, Rd.bind_ok (readInt_enc _ npe r)]
  · rw [if_pos rfl]
    unfold loadDataEntryBinary22
    rw [Rd.bind_ok (readIntVar_none_enc tag _)]
    rw [Rd.bind_ok (useVar_some tag _), if_pos rfl, Rd.bind_ok (readIntVar_none_enc npe r), Rd.bind_ok (useVar_some npe _)]

theorem entry_node_cut22 (cfg : Cfg) (fields : UInt64) (e : DataEntry) (tag : Int32) {r : Bytes} (h : r.length < 4) :
    loadDataEntryBinary true cfg fields true e (gs (encI32 tag ++ r)) = .ub := by
  unfold loadDataEntryBinary loadDataEntryBinary22
  rw [if_pos rfl, Rd.bind_ok (readIntVar_none_enc tag _)]
  rw [Rd.bind_ok (useVar_some tag _), if_pos rfl, Rd.bind_ok (readIntVar_none_short h)]
  rfl

theorem entry_node_cut41 (cfg : Cfg) (fields : UInt64) (tag npe : Int32) {r : Bytes} (h : r.length < 4) (hn : encI32 npe = r ++ List.replicate (4 - r.length) 0) :
    loadDataEntryBinary false cfg fields true {} (gs (encI32 tag ++ r)) =
      (resize cfg [] (fields * sizeOfInt npe) Double.zero >>= fun data => readDoubles data >>= fun data =>
        (pure { tag := sizeOfInt tag, numNodesPerElement := npe, data } : Rd DataEntry)) spent := by
  unfold loadDataEntryBinary loadDataEntryBinary41
  rw [if_neg (by simp), Rd.bind_ok (readIntVar_none_enc tag _)]
  rw [Rd.bind_ok (useVar_some tag _), if_pos rfl]
  have : readInt 0 (gs r) = .ok (npe, spent) := by
    unfold readInt
    have h0 : encI32 0 = [0, 0, 0, 0] := by decide
    have hr : readRaw (encI32 0) (gs r) = .ok (encI32 npe, spent) := by
      rw [hn, h0]
      simp only [readRaw, Stream.good, Bool.not_false, Bool.and_self, if_true, List.length_cons, List.length_nil]
      rw [if_neg (by omega)]
      congr 3
      have : r.length = 0 ∨ r.length = 1 ∨ r.length = 2 ∨ r.length = 3 := by omega
      rcases this with h | h | h | h <;> rw [h] <;> rfl
    rw [Rd.bind_ok hr]
    simp
    rfl
  rw [Rd.bind_ok this]

theorem StartsEntry.length {cfg : Cfg} {N : Prop} {f : Int32} {d : Bytes} {k : Nat} {r : Bytes} (h : StartsEntry cfg N f d k r) : 4 ≤ d.length ∧ (N → 8 ≤ d.length) := by
  rcases h with ⟨⟨hN, tag, rfl, -⟩ | ⟨hN, tag, npe, rfl, -⟩, -⟩
  · exact ⟨by simp, fun h => absurd h hN⟩
  · simp only [List.length_append, encI32_length]
    exact ⟨by omega, fun _ => by omega⟩

theorem StartsEntry.unique {cfg : Cfg} {N : Prop} {f : Int32} {d : Bytes} {k k' : Nat} {r r' : Bytes} (h : StartsEntry cfg N f d k r) (h' : StartsEntry cfg N f d k' r') :
    k = k' ∧ r = r' := by
  rcases h with ⟨⟨hN, tag, rfl, hk⟩ | ⟨hN, tag, npe, rfl, hk⟩, -⟩
  · rcases h' with ⟨⟨-, tag', e, hk'⟩ | ⟨hN', -⟩, -⟩
    · exact ⟨by omega, (encI32_append_inj e).2⟩
    · exact absurd hN' hN
  · rcases h' with ⟨⟨hN', -⟩ | ⟨-, tag', npe', e, hk'⟩, -⟩
    · exact absurd hN hN'
    · have e := (encI32_append_inj e).2
      obtain ⟨rfl, rfl⟩ := encI32_append_inj e
      exact ⟨by omega, rfl⟩

theorem StartsEntry.read {cfg : Cfg} {en v22 : Bool} {N : Prop} (hN : N ↔ en = true) {f : Int32} {d : Bytes} {k : Nat} {r : Bytes} (h : StartsEntry cfg N f d k r) (e : DataEntry) :
    ∃ e', loadDataEntryBinary v22 cfg (sizeOfInt f) en e (gs d) = .ok (e', after (8 * k) r) := by
  rcases h with ⟨⟨hN', tag, rfl, hk⟩ | ⟨hN', tag, npe, rfl, hk⟩, hm⟩
  · have : en = false := by simpa using fun h => hN' (hN.mpr h)
    subst this
    rw [entry_plain]
    have e1 : (sizeOfInt f).toNat = k := by have := toNat_sizeOfInt f; split at this <;> omega
    have := values_after (cfg := cfg) (n := sizeOfInt f) (by omega) (fun data => { e with tag := sizeOfInt tag, data }) e.data r
    rwa [e1] at this
  · have : en = true := hN.mp hN'
    subst this
    rw [entry_node]
    have e1 := product_toNat hk hm
    have := values_after (cfg := cfg) (n := sizeOfInt f * sizeOfInt npe) (by omega)
      (fun data => { tag := sizeOfInt tag, numNodesPerElement := npe, data }) e.data r
    rwa [e1] at this

theorem encI32_split {d : Bytes} (h : 4 ≤ d.length) : ∃ x r, d = encI32 x ++ r :=
  ⟨decodeI32 (d.take 4), d.drop 4, by rw [encI32_decodeI32 (by simp; omega), List.take_append_drop]⟩

theorem entry_throws {cfg : Cfg} {en v22 : Bool} {N : Prop} (hN : N ↔ en = true) {f : Int32} {d : Bytes} (h4 : 4 ≤ d.length) (h8 : N → 8 ≤ d.length)
    (h : ¬ ∃ k r, StartsEntry cfg N f d k r) (e : DataEntry) : loadDataEntryBinary v22 cfg (sizeOfInt f) en e (gs d) = .throw .alloc := by
  obtain ⟨tag, r, rfl⟩ := encI32_split h4
  cases en with
  | false =>
    rw [entry_plain, values_throw]
    intro hf
    have h1 := (sizeOfInt_fits f).mp hf
    exact h ⟨f.toInt.toNat, r, Or.inl ⟨by simpa using hN, tag, rfl, by omega⟩, by omega⟩
  | true =>
    obtain ⟨npe, r, rfl⟩ := encI32_split (d := r) (by have := h8 (hN.mpr rfl); simp at this; omega)
    rw [entry_node, values_throw]
    intro hf
    have h1 := (product_fits f npe).mp hf
    exact h ⟨(f.toInt * npe.toInt).toNat, r, Or.inr ⟨hN.mpr rfl, tag, npe, rfl, by omega⟩, by omega⟩

theorem forEach_ub {f : α → Rd α} {a : α} {l : List α} {s : Stream} (h : f a s = .ub) : forEach f (a :: l) s = .ub := by
  unfold forEach
  rw [Rd.bind_def, h]

theorem forEach_throw {f : α → Rd α} {a : α} {l : List α} {s : Stream} {e : Exc} (h : f a s = .throw e) : forEach f (a :: l) s = .throw e := by
  unfold forEach
  rw [Rd.bind_def, h]

theorem forEach_ok {f : α → Rd α} {a b : α} {l : List α} {s s' : Stream} (h : f a s = .ok (b, s')) : forEach f (a :: l) s = .ub ↔ forEach f l s' = .ub := by
  unfold forEach
  rw [Rd.bind_ok h, ub_bind]
  · cases l <;> rfl
  · intro a s' h; cases h

theorem entries_ub_iff {cfg : Cfg} {en v22 : Bool} {V N : Prop} (hV : V ↔ v22 = true) (hN : N ↔ en = true) (f : Int32) (n : Nat) (d : Bytes) :
    forEach (loadDataEntryBinary v22 cfg (sizeOfInt f) en) (List.replicate n {}) (gs d) = .ub ↔ EntriesUndefined cfg V N f n d := by
  induction n generalizing d with
  | zero => exact ⟨(fun h => by cases h), fun h => by cases h⟩
  | succ n ih =>
    rw [List.replicate_succ]
    by_cases h4 : d.length < 4
    · exact ⟨fun _ => .tag h4, fun _ => forEach_ub (entry_tag _ _ _ _ _ h4)⟩
    by_cases h8 : N ∧ d.length < 8
    · obtain ⟨tag, r, rfl⟩ := encI32_split (d := d) (by omega)
      have hr : r.length < 4 := by have := h8.2; simp at this; omega
      have hen := hN.mp h8.1
      subst hen
      cases v22 with
      | true => exact ⟨fun _ => .count (hV.mpr rfl) h8.1 h8.2, fun _ => forEach_ub (entry_node_cut22 _ _ _ _ hr)⟩
      | false =>
        have hV' : ¬ V := by simpa using hV
        obtain ⟨npe, hnpe⟩ : ∃ npe, encI32 npe = r ++ List.replicate (4 - r.length) 0 := ⟨decodeI32 (r ++ List.replicate (4 - r.length) 0), encI32_decodeI32 (by simp; omega)⟩
        have hE := entry_node_cut41 cfg (sizeOfInt f) tag npe hr hnpe
        by_cases hf : (sizeOfInt f * sizeOfInt npe).toNat ≤ cfg.maxCount
        · obtain ⟨e', he⟩ := values_spent hf (fun data => { tag := sizeOfInt tag, numNodesPerElement := npe, data }) []
          rw [he] at hE
          rw [forEach_ok hE]
          cases n with
          | zero =>
            refine ⟨(fun h => by cases h), fun h => ?_⟩
            cases h with
            | tag h => exact absurd h h4
            | count h => exact absurd h hV'
            | next h => have := h.length.2 h8.1; omega
          | succ n =>
            have h1 := (product_fits f npe).mp hf
            rw [List.replicate_succ]
            exact ⟨fun _ => .short hV' h8.1 hr hnpe h1.1 h1.2, fun _ => forEach_ub (entry_bad _ _ _ _ _ rfl)⟩
        · rw [values_throw hf] at hE
          rw [forEach_throw hE]
          refine ⟨(fun h => by cases h), fun h => ?_⟩
          generalize hd : encI32 tag ++ r = d at h h4 h8
          cases h with
          | tag h => exact absurd h h4
          | count h => exact absurd h hV'
          | next h => have := h.length.2 h8.1; omega
          | values h => have := h.length.2 h8.1; omega
          | short _ _ hr' hn' h1 h2 =>
            obtain ⟨-, rfl⟩ := encI32_append_inj hd
            have hx := congrArg decodeI32 (hnpe.trans hn'.symm)
            rw [decodeI32_encI32, decodeI32_encI32] at hx
            rw [← hx] at h1 h2
            exact absurd ((product_fits f npe).mpr ⟨h1, h2⟩) hf
    have h8' : N → 8 ≤ d.length := fun h => by by_contra h'; exact h8 ⟨h, by omega⟩
    by_cases hs : ∃ k r, StartsEntry cfg N f d k r
    swap
    · rw [forEach_throw (entry_throws hN (by omega) h8' hs _)]
      refine ⟨(fun h => by cases h), fun h => ?_⟩
      cases h with
      | tag h => exact absurd h h4
      | count _ h h' => exact absurd ⟨h, h'⟩ h8
      | next h => exact absurd ⟨_, _, h⟩ hs
      | values h => exact absurd ⟨_, _, h⟩ hs
      | short _ h hr => have := h8' h; simp at this; omega
    obtain ⟨k, r, hs⟩ := hs
    obtain ⟨e', he⟩ := hs.read (v22 := v22) hN {}
    rw [forEach_ok he]
    by_cases hk : 8 * k ≤ r.length
    · rw [after_gs hk, ih]
      refine ⟨fun h => .next hs hk h, fun h => ?_⟩
      cases h with
      | tag h => exact absurd h h4
      | count _ h h' => exact absurd ⟨h, h'⟩ h8
      | short _ h hr => have := h8' h; simp at this; omega
      | values h h' =>
        obtain ⟨rfl, rfl⟩ := hs.unique h
        omega
      | next h _ h' =>
        obtain ⟨rfl, rfl⟩ := hs.unique h
        exact h'
    · rw [after_spent (by omega)]
      cases n with
      | zero =>
        refine ⟨(fun h => by cases h), fun h => ?_⟩
        cases h with
        | tag h => exact absurd h h4
        | count _ h h' => exact absurd ⟨h, h'⟩ h8
        | next h h' =>
          obtain ⟨rfl, rfl⟩ := hs.unique h
          exact absurd h' hk
      | succ n =>
        rw [List.replicate_succ]
        exact ⟨fun _ => .values hs (by omega), fun _ => forEach_ub (entry_bad _ _ _ _ _ rfl)⟩

theorem entries_payload {cfg : Cfg} {en v22 : Bool} {V N : Prop} (hV : V ↔ v22 = true) (hN : N ↔ en = true) (f : Int32) (n : Nat) (d : Bytes) :
    forEach (loadDataEntryBinary v22 cfg (sizeOfInt f) en) (List.replicate n {}) (payload d) = .ub ↔ EntriesUndefined cfg V N f n d := by
  by_cases hd : d = []
  · subst hd
    cases n with
    | zero => exact ⟨(fun h => by cases h), fun h => by cases h⟩
    | succ n =>
      rw [List.replicate_succ]
      exact ⟨fun _ => .tag (by simp), fun _ => forEach_ub (entry_bad _ _ _ _ _ rfl)⟩
  · rw [payload_ne hd]
    exact entries_ub_iff hV hN f n d

theorem assertGood_ne_ub (cfg : Cfg) (s : Stream) : assertGood cfg s ≠ .ub := (safe_assertGood (F := ⟨s.rem, false⟩) cfg s (Ends.At.refl _)).1

theorem data_tail {cfg : Cfg} {l : List DataEntry} {f : DataEntry → Rd DataEntry} {mk : List DataEntry → Data} {s : Stream} :
    (forEach f l >>= fun entries => assertGood cfg >>= fun _ => (pure (mk entries) : Rd Data)) s = .ub ↔ forEach f l s = .ub := by
  apply ub_bind
  intro a s' h
  rw [ub_bind (fun _ _ h => by cases h)] at h
  exact assertGood_ne_ub cfg s' h

theorem loadData_ub_iff {cfg : Cfg} {f : MeshFormat} (hv : f.version = b! "4.1" ∨ f.version = b! "2.2") (ht : 0 < f.fileType) {en : Bool} {N : Prop} (hN : N ↔ en = true)
    {r : Bytes} {ints : List Int32} {c : UInt8} {d : Bytes} (h : StartsData cfg r ints c d) (hc : Skipped c) :
    loadData cfg f en (payload r) = .ub ↔ ∃ g y n more, ints = g :: y :: n :: more ∧ 0 ≤ n.toInt ∧ n.toInt ≤ cfg.maxCount ∧
      EntriesUndefined cfg (f.version = b! "2.2") N y n.toInt.toNat d := by
  obtain ⟨hd, rfl, hh⟩ := h.read hc.space
  rw [payload_ne h.ne]
  unfold loadData
  rw [Rd.bind_ok hh]
  rcases hints : hd.intTags with _ | ⟨g, _ | ⟨y, _ | ⟨n, more⟩⟩⟩
  · exact ⟨(fun h => by cases h), (fun ⟨_, _, _, _, h, _⟩ => by cases h)⟩
  · exact ⟨(fun h => by cases h), (fun ⟨_, _, _, _, h, _⟩ => by cases h)⟩
  · exact ⟨(fun h => by cases h), (fun ⟨_, _, _, _, h, _⟩ => by cases h)⟩
  simp only
  by_cases hn : (sizeOfInt n).toNat ≤ cfg.maxCount
  swap
  · have e : resize cfg ([] : List DataEntry) (sizeOfInt n) {} (gs (c :: d)) = .throw .alloc := by unfold resize vecResize; rw [if_neg hn]; rfl
    rw [Rd.bind_def, e]
    refine ⟨(fun h => by cases h), ?_⟩
    rintro ⟨_, _, _, _, h, h0, h1, -⟩
    cases h
    exact absurd ((sizeOfInt_fits n).mpr ⟨h0, h1⟩) hn
  have hn' := (sizeOfInt_fits n).mp hn
  have en' : (sizeOfInt n).toNat = n.toInt.toNat := by have := toNat_sizeOfInt n; split at this <;> omega
  have e : resize cfg ([] : List DataEntry) (sizeOfInt n) {} (gs (c :: d)) = .ok (List.replicate n.toInt.toNat {}, gs (c :: d)) := by
    unfold resize; rw [vecResize_nil hn, en']; rfl
  rw [Rd.bind_ok e, if_pos ht, Rd.bind_ok (eat_payload hc.eat d)]
  have key : ∀ (v22 : Bool), (f.version = b! "2.2" ↔ v22 = true) →
      (forEach (loadDataEntryBinary v22 cfg (sizeOfInt y) en) (List.replicate n.toInt.toNat {}) (payload d) = .ub ↔
      ∃ g' y' n' more', g :: y :: n :: more = g' :: y' :: n' :: more' ∧ 0 ≤ n'.toInt ∧ n'.toInt ≤ cfg.maxCount ∧
      EntriesUndefined cfg (f.version = b! "2.2") N y' n'.toInt.toNat d) := by
    intro v22 hV
    rw [entries_payload hV hN]
    constructor
    · intro h
      exact ⟨g, y, n, more, rfl, hn'.1, hn'.2, h⟩
    · rintro ⟨_, _, _, _, h, -, -, h'⟩
      cases h
      exact h'
  rcases hv with hv | hv
  · rw [if_pos hv, data_tail]
    exact key false (by rw [hv]; decide)
  · rw [if_neg (by rw [hv]; decide), if_pos hv, data_tail]
    exact key true (by rw [hv]; decide)

theorem pushBack_ok {cfg : Cfg} {v : List α} (h : v.length < cfg.maxCount) (x : α) (s : Stream) : pushBack cfg v x s = .ok (v ++ [x], s) := by
  unfold pushBack vecPush
  rw [if_pos h]
  rfl

theorem pushBack_throw {cfg : Cfg} {v : List α} (h : ¬ v.length < cfg.maxCount) (x : α) (s : Stream) : pushBack cfg v x s = .throw .alloc := by
  unfold pushBack vecPush
  rw [if_neg h]
  rfl

theorem loadDataSection_ub_iff {cfg : Cfg} {f : MeshFormat} {en : Bool} {ds : List Data} {s : Stream} :
    loadDataSection cfg f en ds s = .ub ↔ ds.length < cfg.maxCount ∧ loadData cfg f en s = .ub := by
  unfold loadDataSection
  by_cases h : ds.length < cfg.maxCount
  · rw [Rd.bind_ok (pushBack_ok h _ _), ub_bind (fun _ _ h => by cases h)]
    exact ⟨fun h' => ⟨h, h'⟩, fun h' => h'.2⟩
  · rw [Rd.bind_def, pushBack_throw h]
    exact ⟨(fun h => by cases h), fun h' => absurd h'.1 h⟩

theorem loadSection_data_ub_iff {cfg : Cfg} {s : MshSpec} (hv : s.meshFormat.version = b! "4.1" ∨ s.meshFormat.version = b! "2.2") (ht : 0 < s.meshFormat.fileType)
    {name : Bytes} (hn : name ∈ dataSections) {r : Bytes} {ints : List Int32} {c : UInt8} {d : Bytes} (h : StartsData cfg r ints c d) (hc : Skipped c) :
    loadSection cfg name s (payload r) = .ub ↔ DataUndefined cfg s name ints d := by
  unfold DataUndefined
  simp only [dataSections, List.mem_cons, List.not_mem_nil, or_false] at hn
  rcases hn with rfl | rfl | rfl
  · show (loadDataSection cfg s.meshFormat false s.nodeData >>= fun x => (pure { s with nodeData := x } : Rd MshSpec)) _ = _ ↔ _
    rw [ub_bind (fun _ _ h => by cases h), loadDataSection_ub_iff, loadData_ub_iff hv ht (N := b! "$NodeData" = b! "$ElementNodeData") (by decide) h hc]
    rfl
  · show (loadDataSection cfg s.meshFormat false s.elementData >>= fun x => (pure { s with elementData := x } : Rd MshSpec)) _ = _ ↔ _
    rw [ub_bind (fun _ _ h => by cases h), loadDataSection_ub_iff, loadData_ub_iff hv ht (N := b! "$ElementData" = b! "$ElementNodeData") (by decide) h hc]
    rfl
  · show (loadDataSection cfg s.meshFormat true s.elementNodeData >>= fun x => (pure { s with elementNodeData := x } : Rd MshSpec)) _ = _ ↔ _
    rw [ub_bind (fun _ _ h => by cases h), loadDataSection_ub_iff, loadData_ub_iff hv ht (N := b! "$ElementNodeData" = b! "$ElementNodeData") (by decide) h hc]
    rfl

/-! ## Text entries -/

theorem loop_columns {F : Ends} (e : UInt64) {m : Nat} (he : e.toNat = 0) (data : List Double) :
    Safe F (loopN (fun j data => loopN (fun k data => inDoubleAt (UInt64.ofNat j * e + UInt64.ofNat k) data) e.toNat 0 data) m 0 data) fun _ => True := by
  refine Safe.loopN (P := fun _ => True) m 0 data trivial fun i st _ _ _ => ?_
  rw [he]
  exact Safe.pure trivial

theorem safe_entryAscii {F : Ends} (cfg : Cfg) {f : Int32} {en : Bool} (hf : en = true → 0 ≤ f.toInt) (e : DataEntry) :
    Safe F (loadDataEntryAscii cfg (sizeOfInt f) en e) fun _ => True := by
  unfold loadDataEntryAscii
  refine Safe.skip (safe_inSize _) fun tag => ?_
  refine Safe.ite (fun h => ?_) fun _ => ?_
  · have h0 := hf h
    refine Safe.skip (safe_inInt _) fun npe => ?_
    have ef : ((sizeOfInt f).toNat : Int) = f.toInt := by have := toNat_sizeOfInt f; split at this <;> omega
    refine Safe.bind (safe_resize' cfg _ _ _) fun data hd => ?_
    refine Safe.skip ?_ fun _ => Safe.pure trivial
    by_cases hz : f.toInt = 0
    · exact loop_columns _ (by omega) _
    · have hp := (product_fits (cfg := cfg) f npe).mp (by have := cfg.maxCount_lt; omega)
      have hnpe : 0 ≤ npe.toInt := by by_contra hc; have := mul_neg_of_pos_of_neg (show 0 < f.toInt by omega) (show npe.toInt < 0 by omega); omega
      have en' : ((sizeOfInt npe).toNat : Int) = npe.toInt := by have := toNat_sizeOfInt npe; split at this <;> omega
      have e2 := product_toNat (cfg := cfg) (x := f) (y := npe) (k := (f.toInt * npe.toInt).toNat) (by omega) (by omega)
      have b := npe.toInt_lt
      refine (loop_rows_double (L := data.length) (by have := cfg.maxCount_lt; omega) (by omega) (Or.inr ?_) data rfl).any
      have : ((sizeOfInt npe).toNat * (sizeOfInt f).toNat : Int) = f.toInt * npe.toInt := by rw [en', ef, mul_comm]
      have h3 : (((sizeOfInt npe).toNat * (sizeOfInt f).toNat : Nat) : Int) = f.toInt * npe.toInt := by rw [← this]; push_cast; rfl
      omega
  · exact Safe.skip (safe_resize' cfg _ _ _).any fun data => Safe.skip (Safe.each safe_inDouble _) fun _ => Safe.pure trivial

theorem StartsData.suffix {cfg : Cfg} {r : Bytes} {ints : List Int32} {c : UInt8} {d : Bytes} (h : StartsData cfg r ints c d) : c :: d <:+ r := by
  obtain ⟨lead, words, t, P, strs, reals, rfl, -⟩ := h
  exact ⟨Spaced lead words ++ t, by simp⟩

theorem loadData_text {F : Ends} {cfg : Cfg} {f : MeshFormat} (ht : f.fileType = 0) {en : Bool} {r : Bytes} {ints : List Int32} {c : UInt8} {d : Bytes}
    (h : StartsData cfg r ints c d) (hc : isSpace c = true) (hf : en = true → ∀ x ∈ ints[1]?, 0 ≤ x.toInt) (hr : r <:+ F.bytes) :
    SafeAt F (loadData cfg f en) (payload r) fun _ => True := by
  obtain ⟨hd, rfl, hh⟩ := h.read hc
  have hat : F.At (c :: d) := by
    obtain ⟨a, ha⟩ := h.suffix
    obtain ⟨b, hb⟩ := hr
    exact WsNext.at (name := b ++ a) (fun x hx => by cases hx; exact hc) ⟨[], by simp [← hb, ← ha]⟩
  rw [payload_ne h.ne]
  unfold loadData
  refine SafeAt.step hh ?_
  rcases hints : hd.intTags with _ | ⟨g, _ | ⟨y, _ | ⟨n, more⟩⟩⟩
  · exact SafeAt.of Safe.throw hat
  · exact SafeAt.of Safe.throw hat
  · exact SafeAt.of Safe.throw hat
  simp only
  rw [hints] at hf
  refine SafeAt.of (Safe.skip (safe_resize' cfg _ _ _).any fun entries => ?_) hat
  rw [if_neg (by rw [ht]; decide)]
  exact Safe.skip (Safe.each (fun e => safe_entryAscii cfg (fun h => hf h y rfl) e) _) fun _ => Safe.skip (safe_assertGood cfg) fun _ => Safe.pure trivial

theorem after_text_data {F : Ends} {cfg : Cfg} {f : MeshFormat} (ht : f.fileType = 0) {en : Bool} {name : Bytes} (hn : en = true → name = b! "$ElementNodeData")
    (hd : ∀ r, name ++ r <:+ F.bytes → TextData cfg name r) (ds : List Data) : SafeAfter (fun _ => False) F name (loadDataSection cfg f en ds) fun _ => True := by
  intro r hr hw
  obtain ⟨ints, c, d, h, hc, hf⟩ := hd r hr
  unfold loadDataSection
  by_cases h' : ds.length < cfg.maxCount
  · have := SafeAt.bind (f := fun d => (pure ((ds ++ [({} : Data)]).dropLast ++ [d]) : Rd (List Data))) (Q := fun _ => True)
      (loadData_text (F := F) ht (en := en) h hc (fun h => hf (hn h)) ((List.suffix_append _ _).trans hr)) (fun _ _ => Safe.pure trivial)
    rw [Rd.bind_ok (pushBack_ok h' _ _)]
    exact ⟨fun h => absurd h this.1, this.2⟩
  · rw [Rd.bind_def, pushBack_throw h']
    exact ⟨(fun h => by cases h), (fun _ _ h => by cases h)⟩

end MshIO
