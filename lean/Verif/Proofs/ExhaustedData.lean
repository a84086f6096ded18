import Verif.Proofs.Exhausted

/-! # When there is not enough memory for a data section -/

namespace MshIO

variable {α β : Type}

theorem ThrowsAt.intsInto {ex : Exc} {n : Nat} {f : List Int32 → Rd α} {x : Place} {Q : List Int32 → Place → Prop} (h : ∀ l y, ThrowsAt ex (f l) y (Q l y)) :
    ThrowsAt ex (MshIO.forEach inInt (List.replicate n 0) >>= f) x (∃ l y, TakesInts n x l y ∧ Q l y) := by
  intro st hs
  constructor
  · intro hu
    obtain ⟨l, y, hr⟩ := takesInts_total n x
    obtain ⟨st', e, hs'⟩ := forEach_inInt n hr hs
    rw [Rd.bind_ok e] at hu
    exact ⟨l, y, hr, (h l y st' hs').mp hu⟩
  · rintro ⟨l, y, hr, hq⟩
    obtain ⟨st', e, hs'⟩ := forEach_inInt n hr hs
    rw [Rd.bind_ok e]
    exact (h l y st' hs').mpr hq

theorem exhausts_entriesText (cfg : Cfg) {en : Bool} {N : Prop} (hN : N ↔ en = true) (f : Int32) (n : Nat) (x : Place) :
    ThrowsAt .alloc (forEach (loadDataEntryAscii cfg (sizeOfInt f) en) (List.replicate n {})) x (EntriesTextExhaust cfg N f n x) := by
  induction n generalizing x with
  | zero => exact ThrowsAt.never fun _ h => by cases h
  | succ n ih =>
    rw [List.replicate_succ, EntriesTextExhaust]
    cases en with
    | true =>
      have hN' : N := hN.mpr rfl
      simp only [forEach, loadDataEntryAscii, Rd.bind_assoc, if_true, Rd.pure_bind]
      refine (ThrowsAt.passes (inSize_passes _) fun _ y => ThrowsAt.yields (inInt_yields 0) fun npe z _ =>
        ThrowsAt.fits (total := asSize f * asSize npe) (P := EntriesTextExhaust cfg N f n) inDoubleAt_fills rfl (by rw [UInt64.toNat_mul, asSize_eq, asSize_eq])
          (by rw [asSize_eq, asSize_eq, Nat.mul_comm]) fun _ y => (ih y).last fun _ _ h => by cases h).iff ?_
      constructor
      · rintro ⟨y, h1, _, y', ⟨w, h2, rfl⟩, h⟩
        exact ⟨y, h1, Or.inr ⟨hN', w, y', h2, h⟩⟩
      · rintro ⟨y, h1, ⟨h, -⟩ | ⟨-, w, y', h2, h⟩⟩
        · exact absurd hN' h
        · exact ⟨y, h1, _, y', ⟨w, h2, rfl⟩, h⟩
    | false =>
      have hN' : ¬ N := fun h => by cases hN.mp h
      simp only [forEach, loadDataEntryAscii, Rd.bind_assoc, Bool.false_eq_true, if_false, Rd.pure_bind]
      refine (ThrowsAt.passes (inSize_passes _) fun _ y => ThrowsAt.resizes fun _ => ThrowsAt.passes (forEach_many inDouble_passes real_total (resized_length ..))
        fun _ y => (ih y).last fun _ _ h => by cases h).iff ?_
      rw [← asSize_eq]
      constructor
      · rintro ⟨y, h1, h⟩
        exact ⟨y, h1, Or.inl ⟨hN', h⟩⟩
      · rintro ⟨y, h1, ⟨-, h⟩ | ⟨h, -⟩⟩
        · exact ⟨y, h1, h⟩
        · exact absurd h hN'

theorem EntriesExhaust.length {cfg : Cfg} {V N : Prop} {f : Int32} {n : Nat} {d : Bytes} (h : EntriesExhaust cfg V N f n d) : 4 ≤ d.length := by
  cases h with
  | values => simp
  | nodes => simp
  | short => simp
  | next h => exact h.length.1

theorem product_exceeds {cfg : Cfg} (f npe : Int32) : ¬ (sizeOfInt f * sizeOfInt npe).toNat ≤ cfg.maxCount ↔ f.toInt * npe.toInt < 0 ∨ cfg.maxCount < f.toInt * npe.toInt := by
  rw [product_fits]
  omega

theorem exhausts_entries {cfg : Cfg} {en v22 : Bool} {V N : Prop} (hV : V ↔ v22 = true) (hN : N ↔ en = true) (f : Int32) (n : Nat) (d : Bytes) :
    forEach (loadDataEntryBinary v22 cfg (sizeOfInt f) en) (List.replicate n {}) (gs d) = .throw .alloc ↔ EntriesExhaust cfg V N f n d := by
  have bad : ∀ {s : Stream} {l : List DataEntry}, loadDataEntryBinary v22 cfg (sizeOfInt f) en {} s = .ub →
      forEach (loadDataEntryBinary v22 cfg (sizeOfInt f) en) ({} :: l) s ≠ .throw .alloc := by
    intro s l h h'
    rw [forEach_ub h] at h'
    cases h'
  have step : ∀ {s s' : Stream} {e : DataEntry} {l : List DataEntry}, loadDataEntryBinary v22 cfg (sizeOfInt f) en {} s = .ok (e, s') →
      (forEach (loadDataEntryBinary v22 cfg (sizeOfInt f) en) ({} :: l) s = .throw .alloc ↔ forEach (loadDataEntryBinary v22 cfg (sizeOfInt f) en) l s' = .throw .alloc) := by
    intro s s' e l h
    unfold forEach
    rw [Rd.bind_ok h]
    refine (throw_bind fun _ _ h => by cases h).trans ?_
    cases l <;> rfl
  induction n generalizing d with
  | zero => exact ⟨(fun h => by cases h), fun h => by cases h⟩
  | succ n ih =>
    rw [List.replicate_succ]
    by_cases h4 : d.length < 4
    · exact ⟨fun h => absurd h (bad (entry_tag _ _ _ _ _ h4)), fun h => by have := h.length; omega⟩
    by_cases h8 : N ∧ d.length < 8
    · obtain ⟨tag, r, rfl⟩ := encI32_split (d := d) (by omega)
      have hr : r.length < 4 := by have := h8.2; simp at this; omega
      have hen := hN.mp h8.1
      subst hen
      have none : ∀ {d k r'}, encI32 tag ++ r = d → ¬ StartsEntry cfg N f d k r' := fun e h => by subst e; have := h.length.2 h8.1; have := h8.2; omega
      have nodes : ∀ {tag' npe' r'}, encI32 tag ++ r ≠ encI32 tag' ++ (encI32 npe' ++ r') := fun {tag' npe' r'} e => by
        have := congrArg List.length e; simp at this; omega
      cases v22 with
      | true =>
        refine ⟨fun h => absurd h (bad (entry_node_cut22 _ _ _ _ hr)), fun h => ?_⟩
        generalize hd : encI32 tag ++ r = d at h
        cases h with
        | values h => exact absurd h8.1 h
        | nodes => exact absurd hd nodes
        | short h1 => exact absurd (hV.mpr rfl) h1
        | next h => exact absurd h (none hd)
      | false =>
        have hV' : ¬ V := by simpa using hV
        obtain ⟨npe, hnpe⟩ : ∃ npe, encI32 npe = r ++ List.replicate (4 - r.length) 0 := ⟨decodeI32 (r ++ List.replicate (4 - r.length) 0), encI32_decodeI32 (by simp; omega)⟩
        have hE := entry_node_cut41 cfg (sizeOfInt f) tag npe hr hnpe
        by_cases hf : (sizeOfInt f * sizeOfInt npe).toNat ≤ cfg.maxCount
        · obtain ⟨e', he⟩ := values_spent hf (fun data => { tag := sizeOfInt tag, numNodesPerElement := npe, data }) []
          rw [he] at hE
          rw [step hE]
          have hno : ¬ EntriesExhaust cfg V N f (n + 1) (encI32 tag ++ r) := by
            intro h
            generalize hd : encI32 tag ++ r = d at h
            cases h with
            | values h => exact absurd h8.1 h
            | nodes => exact absurd hd nodes
            | @short _ tag' npe' r' _ _ hr' hn' h1 =>
              obtain ⟨-, rfl⟩ := encI32_append_inj hd
              rw [← hnpe] at hn'
              have := congrArg decodeI32 hn'
              rw [decodeI32_encI32, decodeI32_encI32] at this
              subst this
              exact absurd hf ((product_exceeds f npe').mpr h1)
            | next h => exact absurd h (none hd)
          refine ⟨fun h => ?_, fun h => absurd h hno⟩
          cases n with
          | zero => cases h
          | succ n => exact absurd h (bad (entry_bad _ _ _ _ _ rfl))
        · rw [values_throw hf] at hE
          exact ⟨fun _ => .short hV' h8.1 hr hnpe ((product_exceeds f npe).mp hf), fun _ => forEach_throw hE⟩
    have h8' : N → 8 ≤ d.length := fun h => by have : ¬ d.length < 8 := fun h' => h8 ⟨h, h'⟩; omega
    by_cases hs : ∃ j r, StartsEntry cfg N f d j r
    · obtain ⟨j, r, hs⟩ := hs
      obtain ⟨e', he⟩ := hs.read (v22 := v22) hN {}
      rw [step he]
      have inv : EntriesExhaust cfg V N f (n + 1) d → 8 * j ≤ r.length ∧ EntriesExhaust cfg V N f n (r.drop (8 * j)) := by
        intro h
        generalize hm : n + 1 = m at h
        cases h with
        | values h1 h2 =>
          rcases hs with ⟨⟨-, _, e, h⟩ | ⟨h, -⟩, h'⟩
          · omega
          · exact absurd h h1
        | nodes h1 h2 =>
          rcases hs with ⟨⟨h, -⟩ | ⟨-, _, _, e, h⟩, h'⟩
          · exact absurd h1 h
          · obtain ⟨-, e⟩ := encI32_append_inj e
            obtain ⟨rfl, -⟩ := encI32_append_inj e
            omega
        | @short _ tag npe r' _ hn hr => have := h8' hn; simp at this; omega
        | next h1 h2 h3 =>
          obtain ⟨rfl, rfl⟩ := hs.unique h1
          have : n = _ := Nat.succ.inj hm
          subst this
          exact ⟨h2, h3⟩
      by_cases hj : 8 * j ≤ r.length
      · rw [show after (8 * j) r = gs (r.drop (8 * j)) from if_pos hj]
        exact (ih _).trans ⟨fun h => .next hs hj h, fun h => (inv h).2⟩
      · rw [show after (8 * j) r = spent from if_neg hj]
        refine ⟨fun h => ?_, fun h => absurd (inv h).1 hj⟩
        cases n with
        | zero => cases h
        | succ n => exact absurd h (bad (entry_bad _ _ _ _ _ rfl))
    · refine ⟨fun _ => ?_, fun _ => forEach_throw (entry_throws hN (by omega) h8' hs {})⟩
      obtain ⟨tag, r, rfl⟩ := encI32_split (d := d) (by omega)
      by_cases hN' : N
      · obtain ⟨npe, r, rfl⟩ := encI32_split (d := r) (by have := h8' hN'; simp at this; omega)
        refine .nodes hN' ?_
        rw [← product_exceeds, product_fits]
        rintro ⟨h1, h2⟩
        exact hs ⟨(f.toInt * npe.toInt).toNat, r, Or.inr ⟨hN', tag, npe, rfl, by omega⟩, by omega⟩
      · refine .values hN' ?_
        by_cases h : f.toInt < 0 ∨ cfg.maxCount < f.toInt
        · exact h
        · exact absurd ⟨f.toInt.toNat, r, Or.inl ⟨hN', tag, rfl, by omega⟩, by omega⟩ hs

theorem exhausts_entriesAt {cfg : Cfg} {en v22 : Bool} {V N : Prop} (hV : V ↔ v22 = true) (hN : N ↔ en = true) (f : Int32) (n : Nat) {d : Bytes} {st : Stream} (hs : DataAt d st) :
    forEach (loadDataEntryBinary v22 cfg (sizeOfInt f) en) (List.replicate n {}) st = .throw .alloc ↔ EntriesExhaust cfg V N f n d := by
  rcases hs with ⟨-, rfl⟩ | ⟨rfl, hg⟩
  · exact exhausts_entries hV hN f n d
  · refine ⟨fun h => ?_, fun h => by have := h.length; simp at this⟩
    cases n with
    | zero => cases h
    | succ n =>
      rw [List.replicate_succ, forEach_ub (entry_bad _ _ _ _ _ hg)] at h
      cases h

/-- The `int` tags and the entries. -/
def DataTagsExhaust (cfg : Cfg) (f : MeshFormat) (N : Prop) (n : Nat) (x : Place) : Prop :=
  ∃ ints y, TakesInts n x ints y ∧ (cfg.asserts = true → y.Good) ∧
    ∃ g j n more, ints = g :: j :: n :: more ∧ (n.toInt < 0 ∨ cfg.maxCount < n.toInt ∨
      if 0 < f.fileType then ∃ d, DataFrom y d ∧ EntriesExhaust cfg (f.version = b! "2.2") N j n.toInt.toNat d
      else EntriesTextExhaust cfg N j n.toInt.toNat y)

theorem exhausts_loadData {cfg : Cfg} {f : MeshFormat} (hv : f.version = b! "4.1" ∨ f.version = b! "2.2") {en : Bool} {N : Prop} (hN : N ↔ en = true) (x : Place) :
    ThrowsAt .alloc (loadData cfg f en) x (CounterExhausts cfg x fun n x => ∃ y, Many TakesQuoted n x y ∧
      CounterExhausts cfg y fun n x => ∃ y, Many TakesReal n x y ∧
      CounterExhausts cfg y fun n x => DataTagsExhaust cfg f N n x) := by
  simp only [loadData, loadDataHeader, Rd.bind_assoc, Rd.pure_bind]
  refine ThrowsAt.counts fun n x _ => ?_
  simp only [List.take_nil, List.nil_append, List.length_nil, Nat.sub_zero]
  refine (ThrowsAt.strings (Q := fun v y => ∃ nr ∈ v, cfg.maxCount < nr.toNat ∨ ∃ z, Many TakesReal nr.toNat y z ∧ CounterExhausts cfg z fun n x => DataTagsExhaust cfg f N n x)
    List.length_replicate extractSize_yields fun strs v y => ThrowsAt.useVar fun nr _ => ThrowsAt.resizes fun _ => ThrowsAt.passes
    (forEach_many inDouble_passes real_total (resized_length ..)) fun reals y => ThrowsAt.counts fun ni x _ => ?_).iff ?_
  · simp only [List.take_nil, List.nil_append, List.length_nil, Nat.sub_zero]
    unfold DataTagsExhaust
    refine ThrowsAt.intsInto fun ints y => ThrowsAt.assertGood ?_
    match ints with
    | [] => exact (ThrowsAt.never fun _ h => by cases h).iff ⟨fun h => h.elim, fun ⟨_, _, _, _, h, _⟩ => by cases h⟩
    | [_] => exact (ThrowsAt.never fun _ h => by cases h).iff ⟨fun h => h.elim, fun ⟨_, _, _, _, h, _⟩ => by cases h⟩
    | [_, _] => exact (ThrowsAt.never fun _ h => by cases h).iff ⟨fun h => h.elim, fun ⟨_, _, _, _, h, _⟩ => by cases h⟩
    | g :: j :: n :: more =>
      have en' : (sizeOfInt n).toNat ≤ cfg.maxCount → (sizeOfInt n).toNat = n.toInt.toNat := by
        intro hn
        have h1 := (sizeOfInt_fits n).mp hn
        have := toNat_sizeOfInt n
        split at this <;> omega
      refine ThrowsAt.iff (Q := cfg.maxCount < (sizeOfInt n).toNat ∨
        if 0 < f.fileType then ∃ d, DataFrom y d ∧ EntriesExhaust cfg (f.version = b! "2.2") N j n.toInt.toNat d
        else EntriesTextExhaust cfg N j n.toInt.toNat y) ?_ ?_
      · refine ThrowsAt.resizes fun hn => ?_
        simp only [List.take_nil, List.nil_append, List.length_nil, Nat.sub_zero, en' hn]
        have last : ∀ (es : List DataEntry) (k : List DataEntry → Data) s, (assertGood cfg >>= fun _ => (pure (k es) : Rd Data)) s ≠ .throw .alloc := by
          intro es k s h
          rcases assertGood_cases cfg s with ⟨h1, -⟩ | ⟨h1, -⟩
          · rw [Rd.bind_def, h1] at h; cases h
          · rw [Rd.bind_ok h1] at h; cases h
        by_cases ht : 0 < f.fileType
        · rw [if_pos ht, if_pos ht]
          refine ThrowsAt.eat fun d st _ hs => ?_
          rcases hv with hv | hv
          · rw [if_pos hv]
            exact (throw_bind fun _ _ => last _ _ _).trans (exhausts_entriesAt (v22 := false) (by rw [hv]; decide) hN j _ hs)
          · rw [if_neg (by rw [hv]; decide), if_pos hv]
            exact (throw_bind fun _ _ => last _ _ _).trans (exhausts_entriesAt (v22 := true) (by rw [hv]; decide) hN j _ hs)
        · rw [if_neg ht, if_neg ht]
          exact (exhausts_entriesText cfg hN j _ y).last fun _ _ => last _ _ _
      · rw [sizeOfInt_exceeds, or_assoc]
        exact ⟨fun h => ⟨g, j, n, more, rfl, h⟩, fun ⟨_, _, _, _, e, h⟩ => by cases e; exact h⟩
  · constructor
    · rintro ⟨y, h, v, z, hz, n, rfl, h'⟩
      exact ⟨y, h, n, z, hz, h'⟩
    · rintro ⟨y, h, n, z, hz, h'⟩
      exact ⟨y, h, _, z, hz, n, rfl, h'⟩

theorem exhausts_dataIn {cfg : Cfg} {s : MshSpec} (hv : s.meshFormat.version = b! "4.1" ∨ s.meshFormat.version = b! "2.2") {name : Bytes} {en : Bool} (hN : name = b! "$ElementNodeData" ↔ en = true)
    {ds : List Data} (hds : s.dataIn name = ds) (x : Place) : ThrowsAt .alloc (loadDataSection cfg s.meshFormat en ds) x (DataSectionExhausts cfg s name x) := by
  unfold loadDataSection DataSectionExhausts
  rw [hds]
  exact ThrowsAt.pushes fun _ => (exhausts_loadData hv hN x).last fun _ _ h => by cases h

end MshIO
