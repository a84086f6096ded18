import Verif.Proofs.EndingsText

/-! # How reading a data section ends -/

namespace MshIO

variable {k : Ending}

theorem LastEntryCut.length {cfg : Cfg} {V N : Prop} {f : Int32} {n : Nat} {d : Bytes} (h : LastEntryCut cfg V N f n d) : 4 ≤ d.length := by
  cases h with
  | short => simp
  | values h => exact h.length.1
  | next h => exact h.length.1

theorem assertGood_spent {γ : Type} (cfg : Cfg) (a : γ) : k.Of ((assertGood cfg >>= fun _ => (pure a : Rd γ)) spent) ↔ k = .stops ∧ cfg.asserts = true := by
  rcases assertGood_cases cfg spent with ⟨h1, h2, -⟩ | ⟨h1, h2⟩
  · rw [Rd.bind_def, h1]
    exact Ending.abort.trans ⟨fun h => ⟨h, h2⟩, fun h => h.1⟩
  · rw [Rd.bind_ok h1]
    show k.Of (.ok (a, spent)) ↔ _
    rw [Ending.ok]
    exact ⟨(fun h => by cases h.2.2), fun h => by have := h2 h.2; cases this⟩

theorem assertGood_gs {γ : Type} (cfg : Cfg) (a : γ) (d : Bytes) : ¬ k.Of ((assertGood cfg >>= fun _ => (pure a : Rd γ)) (gs d)) := by
  rcases assertGood_cases cfg (gs d) with ⟨_, _, h⟩ | ⟨h1, -⟩
  · cases h
  · rw [Rd.bind_ok h1]
    show ¬ k.Of (.ok (a, gs d))
    rw [Ending.ok]
    exact fun h => by cases h.2.1

theorem forEach_step {α γ : Type} {f : α → Rd α} {a b : α} {l : List α} {K : List α → Rd γ} {s s' : Stream} (h : f a s = .ok (b, s')) :
    (forEach f (a :: l) >>= K) s = (forEach f l >>= fun l => K (b :: l)) s' := by
  unfold forEach
  simp only [Rd.bind_assoc]
  rw [Rd.bind_ok h]
  cases l <;> rfl

theorem entries_end {cfg : Cfg} {en v22 : Bool} {V N : Prop} (hV : V ↔ v22 = true) (hN : N ↔ en = true) (f : Int32) (n : Nat) (d : Bytes) {γ : Type} (mk : List DataEntry → γ) :
    k.Of ((forEach (loadDataEntryBinary v22 cfg (sizeOfInt f) en) (List.replicate n {}) >>= fun es => assertGood cfg >>= fun _ => (pure (mk es) : Rd γ)) (gs d)) ↔
      k = .stops ∧ cfg.asserts = true ∧ LastEntryCut cfg V N f n d := by
  have bad : ∀ {s : Stream} {l : List DataEntry} {K : List DataEntry → Rd γ}, loadDataEntryBinary v22 cfg (sizeOfInt f) en {} s = .ub →
      ¬ k.Of ((forEach (loadDataEntryBinary v22 cfg (sizeOfInt f) en) ({} :: l) >>= K) s) := by
    intro s l K h h'
    rw [Rd.bind_def, forEach_ub h] at h'
    exact absurd h' Ending.not_ub
  have badT : ∀ {s : Stream} {l : List DataEntry} {K : List DataEntry → Rd γ} {e}, loadDataEntryBinary v22 cfg (sizeOfInt f) en {} s = .throw e →
      ¬ k.Of ((forEach (loadDataEntryBinary v22 cfg (sizeOfInt f) en) ({} :: l) >>= K) s) := by
    intro s l K e h h'
    rw [Rd.bind_def, forEach_throw h] at h'
    exact absurd h' Ending.not_throw
  induction n generalizing d mk with
  | zero => exact ⟨fun h => absurd h (assertGood_gs cfg _ d), fun h => by cases h.2.2⟩
  | succ n ih =>
    rw [List.replicate_succ]
    by_cases h4 : d.length < 4
    · exact ⟨fun h => absurd h (bad (entry_tag _ _ _ _ _ h4)), fun h => by have := h.2.2.length; omega⟩
    by_cases h8 : N ∧ d.length < 8
    · obtain ⟨tag, r, rfl⟩ := encI32_split (d := d) (by omega)
      have hr : r.length < 4 := by have := h8.2; simp at this; omega
      have hen := hN.mp h8.1
      subst hen
      have none : ∀ {d k r'}, encI32 tag ++ r = d → ¬ StartsEntry cfg N f d k r' := fun e h => by subst e; have := h.length.2 h8.1; have := h8.2; omega
      cases v22 with
      | true =>
        refine ⟨fun h => absurd h (bad (entry_node_cut22 _ _ _ _ hr)), fun h => ?_⟩
        generalize hd : encI32 tag ++ r = d at h
        obtain ⟨-, -, h⟩ := h
        cases h with
        | short h1 => exact absurd (hV.mpr rfl) h1
        | values h => exact absurd h (none hd)
        | next h => exact absurd h (none hd)
      | false =>
        have hV' : ¬ V := by simpa using hV
        obtain ⟨npe, hnpe⟩ : ∃ npe, encI32 npe = r ++ List.replicate (4 - r.length) 0 := ⟨decodeI32 (r ++ List.replicate (4 - r.length) 0), encI32_decodeI32 (by simp; omega)⟩
        have hE := entry_node_cut41 cfg (sizeOfInt f) tag npe hr hnpe
        by_cases hf : (sizeOfInt f * sizeOfInt npe).toNat ≤ cfg.maxCount
        · obtain ⟨e', he⟩ := values_spent hf (fun data => { tag := sizeOfInt tag, numNodesPerElement := npe, data }) []
          rw [he] at hE
          rw [forEach_step hE]
          cases n with
          | zero =>
            have h1 := (product_fits f npe).mp hf
            refine (assertGood_spent cfg _).trans ⟨fun h => ⟨h.1, h.2, .short hV' h8.1 hr hnpe h1.1 h1.2⟩, fun h => ⟨h.1, h.2.1⟩⟩
          | succ n =>
            rw [List.replicate_succ]
            refine ⟨fun h => absurd h (bad (entry_bad _ _ _ _ _ rfl)), fun h => ?_⟩
            generalize hm : n + 1 + 1 = m at h
            generalize hd : encI32 tag ++ r = d at h
            cases h.2.2 with
            | short => omega
            | values h => exact absurd h (none hd)
            | next h => exact absurd h (none hd)
        · rw [values_throw hf] at hE
          refine ⟨fun h => absurd h (badT hE), fun h => ?_⟩
          generalize hd : encI32 tag ++ r = d at h
          cases h.2.2 with
          | @short tag' npe' r' _ _ hr' hn' h1 h2 =>
            obtain ⟨-, rfl⟩ := encI32_append_inj hd
            rw [← hnpe] at hn'
            have := congrArg decodeI32 hn'
            rw [decodeI32_encI32, decodeI32_encI32] at this
            subst this
            exact absurd ((product_fits f npe').mpr ⟨h1, h2⟩) hf
          | values h => exact absurd h (none hd)
          | next h => exact absurd h (none hd)
    have h8' : N → 8 ≤ d.length := fun h => by have : ¬ d.length < 8 := fun h' => h8 ⟨h, h'⟩; omega
    by_cases hs : ∃ j r, StartsEntry cfg N f d j r
    · obtain ⟨j, r, hs⟩ := hs
      obtain ⟨e', he⟩ := hs.read (v22 := v22) hN {}
      rw [forEach_step he]
      by_cases hj : 8 * j ≤ r.length
      · rw [show after (8 * j) r = gs (r.drop (8 * j)) from if_pos hj]
        refine (ih (r.drop (8 * j)) fun l => mk (e' :: l)).trans ?_
        refine and_congr_right fun _ => and_congr_right fun _ => ⟨fun h => .next hs hj h, fun h => ?_⟩
        generalize hm : n + 1 = m at h
        cases h with
        | @short tag npe r' _ hn hr => have := h8' hn; simp at this; omega
        | values h1 h2 => obtain ⟨rfl, rfl⟩ := hs.unique h1; omega
        | next h1 h2 h3 =>
          obtain ⟨rfl, rfl⟩ := hs.unique h1
          have : n = _ := Nat.succ.inj hm
          subst this
          exact h3
      · rw [show after (8 * j) r = spent from if_neg hj]
        cases n with
        | zero => exact (assertGood_spent cfg _).trans ⟨fun h => ⟨h.1, h.2, .values hs (by omega)⟩, fun h => ⟨h.1, h.2.1⟩⟩
        | succ n =>
          rw [List.replicate_succ]
          refine ⟨fun h => absurd h (bad (entry_bad _ _ _ _ _ rfl)), fun h => ?_⟩
          generalize hm : n + 1 + 1 = m at h
          cases h.2.2 with
          | short => omega
          | values => omega
          | next h1 h2 => obtain ⟨rfl, rfl⟩ := hs.unique h1; exact absurd h2 hj
    · refine ⟨fun h => absurd h (badT (entry_throws hN (by omega) h8' hs {})), fun h => ?_⟩
      cases h.2.2 with
      | @short tag npe r' _ hn hr => have := h8' hn; simp at this; omega
      | values h1 => exact absurd ⟨_, _, h1⟩ hs
      | next h1 => exact absurd ⟨_, _, h1⟩ hs

theorem entries_endAt {cfg : Cfg} {en v22 : Bool} {V N : Prop} (hV : V ↔ v22 = true) (hN : N ↔ en = true) (f : Int32) (n : Nat) {y : Place} {d : Bytes} {st : Stream} (hs : DataAt d st)
    (hst : st.fail = true ∧ st.eof = false ↔ y = .stuck) (hy : cfg.asserts = true → y.Good) {γ : Type} (mk : List DataEntry → γ) :
    k.Of ((forEach (loadDataEntryBinary v22 cfg (sizeOfInt f) en) (List.replicate n {}) >>= fun es => assertGood cfg >>= fun _ => (pure (mk es) : Rd γ)) st) ↔
      (k = .stops ∧ cfg.asserts = true ∧ (n = 0 ∧ d = [] ∨ LastEntryCut cfg V N f n d)) ∨ (k = .sticks ∧ n = 0 ∧ y = .stuck) := by
  rcases hs with ⟨hd, rfl⟩ | ⟨rfl, hg⟩
  · rw [entries_end hV hN]
    have hy' : y ≠ .stuck := fun h => by have := (hst.mpr h).1; cases this
    exact ⟨fun h => Or.inl ⟨h.1, h.2.1, Or.inr h.2.2⟩, fun h => h.elim (fun h => ⟨h.1, h.2.1, h.2.2.resolve_left fun h => hd h.2⟩) fun h => absurd h.2.2 hy'⟩
  · cases n with
    | zero =>
      show k.Of ((assertGood cfg >>= fun _ => (pure (mk []) : Rd γ)) st) ↔ _
      rcases assertGood_cases cfg st with ⟨h1, h2, -⟩ | ⟨h1, h2⟩
      · rw [Rd.bind_def, h1]
        refine Ending.abort.trans ⟨fun h => Or.inl ⟨h, h2, Or.inl ⟨rfl, rfl⟩⟩, fun h => h.elim (fun h => h.1) fun h => ?_⟩
        obtain ⟨c, r, e⟩ := hy h2
        rw [e] at h
        cases h.2.2
      · rw [Rd.bind_ok h1]
        show k.Of (.ok (mk [], st)) ↔ _
        rw [Ending.ok, hst]
        refine ⟨fun h => Or.inr ⟨h.1, rfl, h.2⟩, fun h => h.elim (fun h => ?_) fun h => ⟨h.1, h.2.2⟩⟩
        have := h2 h.2.1
        rw [hg] at this
        cases this
    | succ n =>
      rw [List.replicate_succ, Rd.bind_def, forEach_ub (entry_bad _ _ _ _ _ hg)]
      refine ⟨fun h => absurd h Ending.not_ub, fun h => h.elim (fun h => h.2.2.elim (fun h => by cases h.1) fun h => ?_) fun h => by cases h.2.1⟩
      have := h.length
      simp at this

/-- The `int` tags and the entries. -/
def DataTagsEnd (cfg : Cfg) (k : Ending) (f : MeshFormat) (N : Prop) (n : Nat) (x : Place) : Prop :=
  ∃ ints y, TakesInts n x ints y ∧ Asserted cfg k y
      (∃ g j n more, ints = g :: j :: n :: more ∧ 0 ≤ n.toInt ∧ n.toInt ≤ cfg.maxCount ∧
        if 0 < f.fileType then
          (k = .stops ∧ cfg.asserts = true ∧ ∃ d, DataFrom y d ∧ (n = 0 ∧ d = [] ∨ LastEntryCut cfg (f.version = b! "2.2") N j n.toInt.toNat d)) ∨
          (k = .sticks ∧ n = 0 ∧ y = .stuck)
        else ∃ z, Many (SkipsEntry cfg N j) n.toInt.toNat y z ∧ Asserted cfg k z (ReadTo k z))

theorem ends_loadData {cfg : Cfg} {f : MeshFormat} (hv : f.version = b! "4.1" ∨ f.version = b! "2.2") {en : Bool} {N : Prop} (hN : N ↔ en = true) (x : Place) :
    EndsAt k (loadData cfg f en) x (CounterRead cfg x fun n x => ∃ y, Many TakesQuoted n x y ∧
      CounterRead cfg y fun n x => ∃ y, Many TakesReal n x y ∧
      CounterRead cfg y fun n x => DataTagsEnd cfg k f N n x) := by
  simp only [loadData, loadDataHeader, Rd.bind_assoc, Rd.pure_bind]
  refine EndsAt.counter fun n x _ => ?_
  simp only [List.take_nil, List.nil_append, List.length_nil, Nat.sub_zero]
  refine (EndsAt.strings (Q := fun v y => ∃ nr ∈ v, nr.toNat ≤ cfg.maxCount ∧ ∃ z, Many TakesReal nr.toNat y z ∧ CounterRead cfg z fun n x => DataTagsEnd cfg k f N n x)
    List.length_replicate extractSize_yields fun strs v y => EndsAt.useVar fun nr _ => EndsAt.resize fun _ => EndsAt.passes
    (forEach_many inDouble_passes real_total (resized_length ..)) fun reals y => EndsAt.counter fun ni x _ => ?_).iff ?_
  · simp only [List.take_nil, List.nil_append, List.length_nil, Nat.sub_zero]
    unfold DataTagsEnd
    refine EndsAt.ints fun ints y => ?_
    by_cases hy : cfg.asserts = true → y.Good
    case neg =>
      obtain ⟨ha, hy⟩ := Classical.not_imp.mp hy
      intro st hs
      have hg : st.good = false := by rw [← Bool.not_eq_true, hs.good]; exact hy
      have : assertGood cfg st = .abort := by simp [assertGood, ha, hg]
      rw [Rd.bind_def, this]
      exact Ending.abort.trans ⟨fun h => Or.inl ⟨h, ha, hy⟩, fun h => h.elim (fun h => h.1) fun h => absurd (h.1 ha) hy⟩
    refine EndsAt.assertGood ?_
    match ints with
    | [] => exact (EndsAt.throw _ y).iff ⟨fun h => h.elim, fun ⟨_, _, _, _, h, _⟩ => by cases h⟩
    | [_] => exact (EndsAt.throw _ y).iff ⟨fun h => h.elim, fun ⟨_, _, _, _, h, _⟩ => by cases h⟩
    | [_, _] => exact (EndsAt.throw _ y).iff ⟨fun h => h.elim, fun ⟨_, _, _, _, h, _⟩ => by cases h⟩
    | g :: j :: n :: more =>
      have hin : ∀ Q : Prop, (sizeOfInt n).toNat ≤ cfg.maxCount ∧ Q ↔ 0 ≤ n.toInt ∧ n.toInt ≤ cfg.maxCount ∧ Q := by
        intro Q; rw [sizeOfInt_fits, and_assoc]
      have en' : (sizeOfInt n).toNat ≤ cfg.maxCount → (sizeOfInt n).toNat = n.toInt.toNat := by
        intro hn
        have h1 := (sizeOfInt_fits n).mp hn
        have := toNat_sizeOfInt n
        split at this <;> omega
      refine EndsAt.iff (Q := 0 ≤ n.toInt ∧ n.toInt ≤ cfg.maxCount ∧
          if 0 < f.fileType then
            (k = .stops ∧ cfg.asserts = true ∧ ∃ d, DataFrom y d ∧ (n = 0 ∧ d = [] ∨ LastEntryCut cfg (f.version = b! "2.2") N j n.toInt.toNat d)) ∨
            (k = .sticks ∧ n = 0 ∧ y = .stuck)
          else ∃ z, Many (SkipsEntry cfg N j) n.toInt.toNat y z ∧ Asserted cfg k z (ReadTo k z)) ?_ ⟨fun h => ⟨g, j, n, more, rfl, h⟩, fun ⟨_, _, _, _, e, h⟩ => by cases e; exact h⟩
      rw [← hin]
      refine EndsAt.resize fun hn => ?_
      have hz : n = 0 ↔ n.toInt.toNat = 0 := by
        refine ⟨fun h => by rw [h]; rfl, fun h => Int32.toInt_inj.mp ?_⟩
        have := ((sizeOfInt_fits n).mp hn).1
        show n.toInt = 0
        omega
      simp only [List.take_nil, List.nil_append, List.length_nil, Nat.sub_zero, en' hn]
      by_cases ht : 0 < f.fileType
      · rw [if_pos ht, if_pos ht]
        refine (EndsAt.eat (Q := fun d => (k = .stops ∧ cfg.asserts = true ∧ (n.toInt.toNat = 0 ∧ d = [] ∨ LastEntryCut cfg (f.version = b! "2.2") N j n.toInt.toNat d)) ∨
            (k = .sticks ∧ n.toInt.toNat = 0 ∧ y = .stuck)) fun d st _ hs hst => ?_).iff ?_
        · rcases hv with hv | hv
          · rw [if_pos hv]
            exact entries_endAt (v22 := false) (by rw [hv]; decide) hN j _ hs hst hy _
          · rw [if_neg (by rw [hv]; decide), if_pos hv]
            exact entries_endAt (v22 := true) (by rw [hv]; decide) hN j _ hs hst hy _
        · rw [hz]
          constructor
          · rintro ⟨d, hd, h | h⟩
            · exact Or.inl ⟨h.1, h.2.1, d, hd, h.2.2⟩
            · exact Or.inr h
          · rintro (⟨h1, h2, d, hd, h⟩ | h)
            · exact ⟨d, hd, Or.inl ⟨h1, h2, h⟩⟩
            · obtain ⟨d, hd⟩ := dataFrom_exists y
              exact ⟨d, hd, Or.inr h⟩
      · rw [if_neg ht, if_neg ht]
        refine EndsAt.replicate (fun K Q x hK => ends_entryText cfg hN j K Q x hK) (fun _ y => EndsAt.assertGood ?_) _ y
        exact EndsAt.pure _ y
  · constructor
    · rintro ⟨y, h, v, z, hz, n, rfl, h'⟩
      exact ⟨y, h, n, z, hz, h'⟩
    · rintro ⟨y, h, n, z, hz, h'⟩
      exact ⟨y, h, _, z, hz, n, rfl, h'⟩

theorem ends_dataIn {cfg : Cfg} {s : MshSpec} (hv : s.meshFormat.version = b! "4.1" ∨ s.meshFormat.version = b! "2.2") {name : Bytes} {en : Bool} (hN : name = b! "$ElementNodeData" ↔ en = true)
    {ds : List Data} (hds : s.dataIn name = ds) (x : Place) : EndsAt k (loadDataSection cfg s.meshFormat en ds) x (DataSectionEnds cfg k s name x) := by
  unfold loadDataSection DataSectionEnds
  rw [hds]
  exact EndsAt.pushBack ((ends_loadData hv hN x).last fun _ _ => ⟨_, rfl⟩)

end MshIO
