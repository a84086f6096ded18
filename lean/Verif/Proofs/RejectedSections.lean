import Verif.Proofs.RejectedElements

/-! # Which sections, and which files, are rejected -/

namespace MshIO

/-! ## Format -/

theorem inString_yields (old : Bytes) : Yields (inString old) fun x a y => ∃ w, TakesWord x w y ∧ a = w.getD old where
  sound := by
    rintro x v y st ⟨w, hr, rfl⟩ hc
    cases hr with
    | @word lead c w r' hl hw hr' =>
      refine ⟨payload r', ?_, rfl⟩
      have e : lead ++ (c :: w ++ r') = lead ++ c :: (w ++ r') := rfl
      unfold inString
      rw [sentry_on hc e hl (hw c (by simp))]
      have := takeWhile_word (w := c :: w) (r := r') hw hr'
      show Outcome.ok (List.takeWhile (fun c => !isSpace c) (c :: w ++ r'), (⟨List.dropWhile (fun c => !isSpace c) (c :: w ++ r'),
        (List.dropWhile (fun c => !isSpace c) (c :: w ++ r')).isEmpty, false⟩ : Stream)) = _
      rw [this.1, this.2]
      rfl
    | blank h =>
      obtain ⟨st', e, hs⟩ := sentry_on_blank hc h
      exact ⟨st', by unfold inString; rw [e]; rfl, hs⟩
    | stuck => exact ⟨st, by unfold inString; rw [sentry_stuck hc]; rfl, hc⟩
    | ended => exact ⟨st, by unfold inString; rw [sentry_ended hc]; rfl, hc⟩
  total x := by
    cases x with
    | stuck => exact ⟨_, _, _, .stuck, rfl⟩
    | ended => exact ⟨_, _, _, .ended, rfl⟩
    | on r =>
      rcases blank_or r with h | ⟨lead, c, t, rfl, hl, hc⟩
      · exact ⟨_, _, _, .blank h, rfl⟩
      · have hsplit : t = t.takeWhile (fun c => !isSpace c) ++ t.dropWhile (fun c => !isSpace c) := (List.takeWhile_append_dropWhile).symm
        have : lead ++ c :: t = lead ++ (c :: t.takeWhile (fun c => !isSpace c) ++ t.dropWhile (fun c => !isSpace c)) := by
          rw [List.cons_append, ← hsplit]
        rw [this]
        refine ⟨_, _, _, .word hl ?_ ?_, rfl⟩
        · intro d hd
          rcases List.mem_cons.mp hd with rfl | hd
          · exact hc
          · have := List.mem_takeWhile_imp hd
            simpa using this
        · intro d hd
          have := List.head?_dropWhile_not (fun c => !isSpace c) t
          rw [hd] at this
          simpa using this

theorem eatLoop_past {d : Bytes} (w : Bytes) (n : Nat) (hw : ∀ c ∈ w, Skipped c) (hn : w.length ≤ n) (hd : w.length = n ∨ ∀ c ∈ d.head?, ¬ Skipped c) :
    eatLoop n (w ++ d) = payload d := by
  induction w generalizing n with
  | nil =>
    cases d with
    | nil => cases n <;> rfl
    | cons c d =>
      cases n with
      | zero => rfl
      | succ n =>
        have := not_skipped (hd.resolve_left (by simp) c rfl)
        rw [List.nil_append, payload_ne (by simp)]
        simp [eatLoop, this]
  | cons c w ih =>
    cases n with
    | zero => simp at hn
    | succ n =>
      rw [List.cons_append]
      show (if isEatSpace c = true then eatLoop n (w ++ d) else _) = _
      rw [if_pos (hw c (by simp)).eat]
      refine ih n (fun c h => hw c (by simp [h])) (by simpa using hn) (hd.imp (by simp) id)

theorem dataPast_exists (y : Place) : ∃ d, DataPast y d := by
  cases y with
  | stuck => exact ⟨[], rfl⟩
  | ended => exact ⟨[], rfl⟩
  | on r =>
    have key : ∀ (n : Nat) (r : Bytes), ∃ d w, r = w ++ d ∧ (∀ c ∈ w, Skipped c) ∧ w.length ≤ n ∧ (w.length = n ∨ ∀ c ∈ d.head?, ¬ Skipped c) := by
      intro n r
      induction r generalizing n with
      | nil => exact ⟨[], [], rfl, (fun _ h => by cases h), Nat.zero_le _, Or.inr fun _ h => by cases h⟩
      | cons c r ih =>
        by_cases hc : Skipped c
        · cases n with
          | zero => exact ⟨c :: r, [], rfl, (fun _ h => by cases h), Nat.le_refl _, Or.inl rfl⟩
          | succ n =>
            obtain ⟨d, w, e, h1, h2, h3⟩ := ih n
            refine ⟨d, c :: w, by rw [e]; rfl, ?_, by simpa using h2, h3.imp (by simp) id⟩
            intro x hx
            rcases List.mem_cons.mp hx with rfl | hx
            · exact hc
            · exact h1 x hx
        · exact ⟨c :: r, [], rfl, (fun _ h => by cases h), Nat.zero_le _, Or.inr fun x hx => by cases hx; exact hc⟩
    obtain ⟨d, w, h⟩ := key (2 ^ 64 - 1) r
    exact ⟨d, w, h⟩

theorem readInt_lost {st : Stream} (o : Int32) (h : st.good = false) : ∃ s, readInt o st = .ok (o, s) := by
  unfold readInt
  have : readRaw (encI32 o) st = .ok (encI32 o, { st with fail := true }) := by unfold readRaw; simp [h]
  rw [Rd.bind_ok this, decodeI32_encI32]
  exact ⟨_, rfl⟩

theorem ThrowsAt.one {α : Type} {ex : Exc} {K : Int32 → Rd α} {y : Place} (hK : ∀ one s, K one s = .throw ex ↔ one ≠ 1) :
    ThrowsAt ex (eatWhiteSpace (2 ^ 64 - 1) >>= fun _ => readInt 0 >>= K) y (∃ d, DataPast y d ∧ Over d (encI32 0) ≠ encI32 1) := by
  intro st hs
  have key : ∀ d, DataPast y d → ((eatWhiteSpace (2 ^ 64 - 1) >>= fun _ => readInt 0 >>= K) st = .throw ex ↔ Over d (encI32 0) ≠ encI32 1) := by
    intro d hd
    have hr : ∃ st' v s, eatWhiteSpace (2 ^ 64 - 1) st = .ok ((), st') ∧ readInt 0 st' = .ok (v, s) ∧ encI32 v = Over d (encI32 0) := by
      have lost : ∀ st : Stream, st.good = false → ∃ st' v s, eatWhiteSpace (2 ^ 64 - 1) st = .ok ((), st') ∧ readInt 0 st' = .ok (v, s) ∧ encI32 v = Over [] (encI32 0) := by
        intro st hg
        obtain ⟨s, h⟩ := readInt_lost (st := { st with fail := true }) 0 (by simp [Stream.good])
        exact ⟨_, 0, s, by unfold eatWhiteSpace; rw [hg]; rfl, h, rfl⟩
      cases y with
      | stuck => cases hd; exact lost st (by simp [Stream.good, hs.1])
      | ended => cases hd; exact lost st (by simp [Stream.good, hs.1])
      | on r =>
        cases hs
        obtain ⟨w, rfl, hw, hl, hh⟩ := hd
        by_cases hr : w ++ d = []
        · obtain ⟨rfl, rfl⟩ := List.append_eq_nil_iff.mp hr
          exact lost _ rfl
        have he : eatWhiteSpace (2 ^ 64 - 1) (payload (w ++ d)) = .ok ((), payload d) := by
          rw [payload_ne hr]
          unfold eatWhiteSpace
          rw [if_pos (show (gs (w ++ d)).good = true from rfl)]
          have := eatLoop_past w (2 ^ 64 - 1) hw hl hh
          rw [← this]
        by_cases hd : d = []
        · subst hd
          obtain ⟨s, h⟩ := readInt_lost (st := payload []) 0 rfl
          exact ⟨_, 0, s, he, h, rfl⟩
        · rw [payload_ne hd] at he
          obtain ⟨v, h1, h2⟩ := readInt_any 0 0 d
          rw [after_zero] at h2
          exact ⟨_, v, _, he, h2, h1⟩
    obtain ⟨st', v, s, h1, h2, h3⟩ := hr
    rw [Rd.bind_ok h1, Rd.bind_ok h2, hK, ← h3]
    exact ⟨fun h h' => h (by simpa using congrArg decodeI32 h'), fun h h' => h (by rw [h'])⟩
  constructor
  · intro h
    obtain ⟨d, hd⟩ := dataPast_exists y
    exact ⟨d, hd, (key d hd).mp h⟩
  · rintro ⟨d, hd, h⟩
    exact (key d hd).mpr h

theorem throws_formatSection (f : MeshFormat) (x : Place) : ThrowsAt .unsupportedFeature (loadMeshFormat f) x (FormatRejected f x) := by
  unfold loadMeshFormat
  refine (ThrowsAt.yields (inString_yields f.version) fun v y _ => (?_ : ThrowsAt _ _ y (v ∉ [b! "2.2", b! "4.1"] ∨
    ∃ t y1 z y2, TakesInt y t y1 ∧ TakesInt y1 z y2 ∧ (v = b! "4.1" ∧ z.getD f.dataSize ≠ 8 ∨
        t.getD f.fileType ≠ 0 ∧ ∃ d, DataPast y2 d ∧ Over d (encI32 0) ≠ encI32 1)))).iff ?_
  · by_cases hv : v ≠ b! "2.2" ∧ v ≠ b! "4.1"
    · rw [if_pos hv]
      exact (ThrowsAt.throw y).iff ⟨fun _ => Or.inl (by simpa using hv), fun _ => trivial⟩
    have hv' : ¬ v ∉ [b! "2.2", b! "4.1"] := by simpa using hv
    rw [if_neg hv]
    refine (ThrowsAt.yields (inInt_yields f.fileType) fun t y1 _ => ThrowsAt.yields (inInt_yields f.dataSize) fun z y2 _ => (?_ : ThrowsAt _ _ y2
      (v = b! "4.1" ∧ z ≠ 8 ∨ t ≠ 0 ∧ ∃ d, DataPast y2 d ∧ Over d (encI32 0) ≠ encI32 1))).iff ?_
    · have h8 : sizeOfInt z ≠ 8 ↔ z ≠ 8 := by
        refine not_congr ⟨fun h => ?_, fun h => by rw [h]; rfl⟩
        have h1 := toNat_sizeOfInt z
        have h2 : (sizeOfInt z).toNat = 8 := by rw [h]; rfl
        rw [h2] at h1
        have h3 := z.le_toInt
        apply Int32.toInt_inj.mp
        show z.toInt = 8
        split at h1 <;> omega
      simp only [h8]
      by_cases hz : v = b! "4.1" ∧ z ≠ 8
      · rw [if_pos hz]
        exact (ThrowsAt.throw y2).iff ⟨fun _ => Or.inl hz, fun _ => trivial⟩
      rw [if_neg hz]
      by_cases ht : t ≠ 0
      · rw [if_pos ht]
        refine (ThrowsAt.one fun one s => ?_).iff ⟨fun h => Or.inr ⟨ht, h⟩, fun h => (h.resolve_left hz).2⟩
        by_cases h1 : one ≠ 1
        · rw [if_pos h1]; exact ⟨fun _ => h1, fun _ => rfl⟩
        · rw [if_neg h1]; exact ⟨(fun h => by cases h), fun h => absurd h h1⟩
      · rw [if_neg ht]
        exact fun s _ => ⟨(fun h => by cases h), fun h => absurd (h.resolve_left hz).1 ht⟩
    · constructor
      · rintro ⟨_, y1, ⟨t, h1, rfl⟩, _, y2, ⟨z, h2, rfl⟩, h⟩
        exact Or.inr ⟨t, y1, z, y2, h1, h2, h⟩
      · rintro (h | ⟨t, y1, z, y2, h1, h2, h⟩)
        · exact absurd h hv'
        · exact ⟨_, y1, ⟨t, h1, rfl⟩, _, y2, ⟨z, h2, rfl⟩, h⟩
  · constructor
    · rintro ⟨_, y, ⟨w, h1, rfl⟩, h⟩
      exact ⟨w, y, h1, h⟩
    · rintro ⟨w, y, h1, h⟩
      exact ⟨_, y, ⟨w, h1, rfl⟩, h⟩

/-! ## Sections -/

theorem throws_dataIn {cfg : Cfg} {f : MeshFormat} (hv : f.version = b! "4.1" ∨ f.version = b! "2.2") (en : Bool) (ds : List Data) (x : Place) :
    ThrowsAt .invalidFormat (loadDataSection cfg f en ds) x (ds.length < cfg.maxCount ∧ CounterRead cfg x fun n x => ∃ y, Many TakesQuoted n x y ∧
      CounterRead cfg y fun n x => ∃ y, Many TakesReal n x y ∧
      CounterRead cfg y fun n x => n < 3 ∧ ∃ y, Many SkipsInt n x y ∧ (cfg.asserts = true → y.Good)) := by
  unfold loadDataSection
  exact ThrowsAt.pushBack (by decide) ((throws_loadData hv x).last fun _ _ h => by cases h)

/-- Reading the elements. -/
theorem throws_elementsSection {cfg : Cfg} {ex : Exc} (he : ex = .invalidFormat ∨ ex = .unsupportedFeature) (hc57 : 57 ≤ cfg.maxCount) {s : MshSpec}
    (hv : s.meshFormat.version = b! "4.1" ∨ s.meshFormat.version = b! "2.2") (r : Bytes) :
    loadElements cfg s.meshFormat s.elements s.entities (payload r) = .throw ex ↔ ElementsSectionRejected cfg s (.on r) ex := by
  have ha : ex ≠ .alloc := by rcases he with rfl | rfl <;> decide
  have hw := (throws_elements cfg s.meshFormat hv.symm s.elements s.entities).all (payload r)
  have hinv : ¬ (s.meshFormat.version = b! "2.2" ∧ s.meshFormat.fileType ≠ 0) → ex ≠ .unsupportedFeature → loadElements cfg s.meshFormat s.elements s.entities (payload r) ≠ .throw ex := by
    intro h1 h2 h
    rw [if_neg h1, h] at hw
    have : ex ∈ [Exc.alloc, Exc.unsupportedFeature] := hw
    simp only [List.mem_cons, List.not_mem_nil, or_false] at this
    exact this.elim ha h2
  unfold ElementsSectionRejected
  have hb : ∀ n : Elements, (if n.entityBlocks.length = 0 then { n with minElementTag := sizeMax, maxElementTag := 0 } else n).entityBlocks = n.entityBlocks ∧
      (if n.entityBlocks.length = 0 then { n with minElementTag := sizeMax, maxElementTag := 0 } else n).numEntityBlocks = n.numEntityBlocks ∧
      (if n.entityBlocks.length = 0 then { n with minElementTag := sizeMax, maxElementTag := 0 } else n).numElements = n.numElements := by
    intro n; split <;> exact ⟨rfl, rfl, rfl⟩
  by_cases h41 : s.meshFormat.version = b! "4.1"
  · rw [if_pos h41]
    by_cases hx : ex = .unsupportedFeature
    swap
    · exact ⟨fun h => absurd h (hinv (fun h => absurd (h41.symm.trans h.1) (by decide)) hx), fun h => absurd h.1 hx⟩
    subst hx
    unfold loadElements
    simp only [h41, if_true, true_and]
    by_cases ht : s.meshFormat.fileType = 0
    · simp only [ht, if_true]
      rw [throw_bind (fun _ _ h => by cases h), throws_elements41 cfg _ _ _ (at_payload r)]
      unfold Elements41TextRejected
      simp only [hb]
    · simp only [ht, if_false]
      rw [throw_bind (fun _ _ h => by cases h)]
      have key : ∀ d, DataAfter r d → (loadElementsBinary41 cfg (if s.elements.entityBlocks.length = 0 then { s.elements with minElementTag := sizeMax, maxElementTag := 0 } else s.elements)
          (payload r) = .throw .unsupportedFeature ↔ Elements41Rejected cfg s.elements d) := by
        intro d hd
        rw [elementsBinary41_throw_iff cfg _ hd]
        unfold Elements41Rejected
        simp only [hb]
      constructor
      · intro h
        obtain ⟨d, hd⟩ := dataAfter_exists r
        exact ⟨d, hd, (key d hd).mp h⟩
      · rintro ⟨d, hd, h⟩
        exact (key d hd).mpr h
  · have h22 := hv.resolve_left h41
    rw [if_neg h41]
    by_cases ht : s.meshFormat.fileType = 0
    · rw [if_pos ht]
      by_cases hx : ex = .unsupportedFeature
      swap
      · exact ⟨fun h => absurd h (hinv (fun h => h.2 ht) hx), fun h => absurd h.1 hx⟩
      subst hx
      unfold loadElements
      simp only [h41, h22, ht, if_true, if_false, true_and]
      rw [if_neg (by decide), throws_elementsText22 hc57 _ _ _ _ (at_payload r)]
      unfold Elements22TextRejected
      simp only [hb]
    · rw [if_neg ht]
      unfold loadElements
      simp only [h41, h22, ht, if_true, if_false]
      rw [if_neg (by decide), throws_elementsBinary22 ha hc57 _ _ _ _ (at_payload r)]
      simp only [hb]

theorem section_throw_iff {cfg : Cfg} {ex : Exc} (he : ex = .invalidFormat ∨ ex = .unsupportedFeature) (hc57 : 57 ≤ cfg.maxCount) {s : MshSpec}
    (hv : s.meshFormat.version = b! "4.1" ∨ s.meshFormat.version = b! "2.2") (name r : Bytes) :
    loadSection cfg name s (payload r) = .throw ex ↔ SectionRejected cfg s name r ex := by
  have ha : ex ≠ .alloc := by rcases he with rfl | rfl <;> decide
  have hw := (throws_section cfg name s hv.symm).all (payload r)
  have hne : ex ∉ sectionThrows cfg.nanospline s.meshFormat name → loadSection cfg name s (payload r) ≠ .throw ex := fun h h' => by rw [h'] at hw; exact h hw
  unfold SectionRejected
  by_cases h0 : name = b! "$MeshFormat"
  · subst h0
    have h1 : ∀ P : Prop, ¬ (b! "$MeshFormat" = b! "$Entities" ∧ P) := fun P h => absurd h.1 (by decide)
    have h2 : ∀ P : Prop, ¬ (b! "$MeshFormat" = b! "$Elements" ∧ P) := fun P h => absurd h.1 (by decide)
    have h3 : ∀ P : Prop, ¬ (b! "$MeshFormat" ∈ dataSections ∧ P) := fun P h => absurd h.1 (by decide)
    simp only [h1, h2, h3, or_false, true_and]
    by_cases hx : ex = .unsupportedFeature
    swap
    · refine ⟨fun h => absurd h (hne ?_), fun h => absurd h.1 hx⟩
      unfold sectionThrows
      rw [if_pos rfl]
      simpa using hx
    subst hx
    have : loadSection cfg (b! "$MeshFormat") s = (loadMeshFormat s.meshFormat >>= fun x => (pure { s with meshFormat := x } : Rd MshSpec)) := rfl
    rw [this, throw_bind (fun _ _ h => by cases h), throws_formatSection _ _ _ (at_payload r)]
    exact ⟨fun h => ⟨rfl, h⟩, fun h => h.2⟩
  by_cases h1 : name = b! "$Entities"
  · subst h1
    have h2 : ∀ P : Prop, ¬ (b! "$Entities" = b! "$Elements" ∧ P) := fun P h => absurd h.1 (by decide)
    have h3 : ∀ P : Prop, ¬ (b! "$Entities" ∈ dataSections ∧ P) := fun P h => absurd h.1 (by decide)
    simp only [h0, h2, h3, false_and, or_false, false_or, true_and]
    have hst : sectionThrows cfg.nanospline s.meshFormat (b! "$Entities") = if s.meshFormat.version = b! "2.2" then [.invalidFormat] else [.alloc] := by
      unfold sectionThrows
      rw [if_neg h0, if_pos rfl]
    rw [hst] at hne
    have hr : loadSection cfg (b! "$Entities") s = (loadEntities cfg s.meshFormat s.entities >>= fun x => (pure { s with entities := x } : Rd MshSpec)) := rfl
    by_cases h22 : s.meshFormat.version = b! "2.2"
    · rw [if_pos h22] at hne
      have : loadSection cfg (b! "$Entities") s (payload r) = .throw .invalidFormat := by
        rw [hr]
        unfold loadEntities
        rw [if_neg (show ¬ s.meshFormat.version = b! "4.1" by rw [h22]; decide), if_pos h22]
        rfl
      rw [this]
      exact ⟨fun h => by injection h with h; exact ⟨h.symm, h22⟩, fun h => by rw [h.1]⟩
    · rw [if_neg h22] at hne
      exact ⟨fun h => absurd h (hne (by simpa using ha)), fun h => absurd h.2 h22⟩
  by_cases h2 : name = b! "$Elements"
  · subst h2
    have h3 : ∀ P : Prop, ¬ (b! "$Elements" ∈ dataSections ∧ P) := fun P h => absurd h.1 (by decide)
    simp only [h0, h1, h3, false_and, or_false, false_or, true_and]
    have : loadSection cfg (b! "$Elements") s = (loadElements cfg s.meshFormat s.elements s.entities >>= fun x =>
      (pure { s with elements := x.1, entities := x.2 } : Rd MshSpec)) := rfl
    rw [this, throw_bind (fun _ _ h => by cases h), throws_elementsSection he hc57 hv]
  by_cases h3 : name ∈ dataSections
  · simp only [h0, h1, h2, h3, false_and, false_or, true_and]
    by_cases hx : ex = .invalidFormat
    swap
    · refine ⟨fun h => absurd h (hne ?_), fun h => absurd h.1 hx⟩
      have hu := he.resolve_left hx
      subst hu
      simp only [dataSections, List.mem_cons, List.not_mem_nil, or_false] at h3
      rcases h3 with rfl | rfl | rfl <;> exact (by decide : Exc.unsupportedFeature ∉ [Exc.alloc, Exc.invalidFormat])
    subst hx
    simp only [true_and]
    unfold DataSectionRejected
    simp only [dataSections, List.mem_cons, List.not_mem_nil, or_false] at h3
    rcases h3 with rfl | rfl | rfl
    · show (loadDataSection cfg s.meshFormat false s.nodeData >>= fun x => (pure { s with nodeData := x } : Rd MshSpec)) _ = _ ↔ _
      rw [throw_bind (fun _ _ h => by cases h), throws_dataIn hv _ _ _ _ (at_payload r)]
      rfl
    · show (loadDataSection cfg s.meshFormat false s.elementData >>= fun x => (pure { s with elementData := x } : Rd MshSpec)) _ = _ ↔ _
      rw [throw_bind (fun _ _ h => by cases h), throws_dataIn hv _ _ _ _ (at_payload r)]
      rfl
    · show (loadDataSection cfg s.meshFormat true s.elementNodeData >>= fun x => (pure { s with elementNodeData := x } : Rd MshSpec)) _ = _ ↔ _
      rw [throw_bind (fun _ _ h => by cases h), throws_dataIn hv _ _ _ _ (at_payload r)]
      rfl
  · simp only [h0, h1, h2, h3, false_and, or_false, iff_false]
    refine hne ?_
    have h4 : ¬ (name = b! "$NodeData" ∨ name = b! "$ElementData" ∨ name = b! "$ElementNodeData") := by
      intro h
      apply h3
      rcases h with rfl | rfl | rfl <;> decide
    unfold sectionThrows
    rw [if_neg h0, if_neg h1, if_neg h2, if_neg h4]
    split
    · simpa using ha
    · split
      · simpa using ha
      · simp

/-! ## Whole files -/

theorem rejected_name {cfg : Cfg} {s : MshSpec} {name r : Bytes} {ex : Exc} (h : SectionRejected cfg s name r ex) : ∃ n, name = 36 :: n ∧ ∀ c ∈ n, isSpace c = false := by
  rcases h with ⟨rfl, -⟩ | ⟨rfl, -⟩ | ⟨rfl, -⟩ | ⟨h, -⟩
  · exact ⟨_, rfl, by decide⟩
  · exact ⟨_, rfl, by decide⟩
  · exact ⟨_, rfl, by decide⟩
  · exact data_name h

theorem rejected_iff {cfg : Cfg} {ex : Exc} (he : ex = .invalidFormat ∨ ex = .unsupportedFeature) (hc57 : 57 ≤ cfg.maxCount) (file : Bytes) :
    loadMsh cfg file = .throw ex ↔ ∃ s name r, ArrivesAt cfg file s name r ∧ SectionRejected cfg s name r ex := by
  have ha : ex ≠ .alloc := by rcases he with rfl | rfl <;> decide
  rw [loadMsh_throw_iff]
  constructor
  · rintro (⟨s, name, r, -, har, h⟩ | ⟨s, st, har, -, h⟩)
    · obtain ⟨w, -, hb⟩ := har.2
      exact ⟨s, name, r, har, (section_throw_iff he hc57 (arrives_version hb) name r).mp h⟩
    · have := within_post cfg s (arrives_types cfg har)
      rw [h] at this
      exact absurd (List.mem_singleton.mp this) ha
  · rintro ⟨s, name, r, har, h⟩
    obtain ⟨w, -, hb⟩ := har.2
    exact Or.inl ⟨s, name, r, rejected_name h, har, (section_throw_iff he hc57 (arrives_version hb) name r).mpr h⟩

end MshIO
