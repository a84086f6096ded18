import Verif.Proofs.Mesh41

/-!
# Data sections and extension sections: written and read back
-/

namespace MshIO

theorem wrap32_eq (t : UInt64) : sizeOfInt (intOfSize t) = wrap32 t := by
  apply UInt64.toNat_inj.mp
  have h1 := toNat_sizeOfInt (intOfSize t)
  have h2 : (intOfSize t).toUInt32.toNat = t.toNat % 2 ^ 32 := by
    simp [intOfSize]
  have h3 : (intOfSize t).toInt = ((intOfSize t).toUInt32.toNat : Int).bmod (2 ^ 32) := by
    show (intOfSize t).toBitVec.toInt = _
    rw [BitVec.toInt_eq_toNat_bmod]; rfl
  rw [h2] at h3
  have hlt : t.toNat % 2 ^ 32 < 2 ^ 32 := Nat.mod_lt _ (by decide)
  unfold wrap32
  by_cases h : t.toNat % 2 ^ 32 < 2 ^ 31
  · rw [if_pos h, ofNat_toNat_lt (by omega)]
    have h4 : (intOfSize t).toInt = (t.toNat % 2 ^ 32 : Nat) := by
      rw [h3]; exact Int.bmod_eq_of_le (by omega) (by omega)
    split at h1 <;> omega
  · rw [if_neg h, ofNat_toNat_lt (by omega)]
    have h4 : (intOfSize t).toInt = (t.toNat % 2 ^ 32 : Nat) - 2 ^ 32 := by
      rw [h3, Int.bmod_def]
      split <;> omega
    split at h1 <;> omega

theorem wrap32_small {t : UInt64} (h : t.toNat < 2 ^ 31) : wrap32 t = t := by
  apply UInt64.toNat_inj.mp
  have e : t.toNat % 2 ^ 32 = t.toNat := Nat.mod_eq_of_lt (by omega)
  unfold wrap32
  rw [e, if_pos h, ofNat_toNat_lt (by omega)]

/-! ## The header -/

/-- Tokens of a data header. -/
def headerToks (P : Fmt) (h : DataHeader) : List Bytes :=
  decU64 (sizeU h.stringTags) :: (h.stringTags.map quoteText ++
  (decU64 (sizeU h.realTags) :: (h.realTags.map (fmtDouble P) ++
  (decU64 (sizeU h.intTags) :: h.intTags.map decI32))))

theorem loadDataHeader_reads (cfg : Cfg) {P : Fmt} {rd : Double → Double} (h : DataHeader)
    (hd : ∀ d ∈ h.realTags, DTok P rd d) (hc1 : h.stringTags.length ≤ cfg.maxCount)
    (hc2 : h.realTags.length ≤ cfg.maxCount) (hc3 : h.intTags.length ≤ cfg.maxCount) :
    ReadsT (loadDataHeader cfg {}) (headerToks P h) { h with realTags := h.realTags.map rd } := by
  have hlt := cfg.maxCount_lt
  have l1 : (sizeU h.stringTags).toNat = h.stringTags.length := sizeU_toNat (by omega)
  have l2 : (sizeU h.realTags).toNat = h.realTags.length := sizeU_toNat (by omega)
  have l3 : (sizeU h.intTags).toNat = h.intTags.length := sizeU_toNat (by omega)
  unfold loadDataHeader
  refine ReadsT.cons (extractSize_tok _) (ReadsT.silent (silent_useVar _)
    (ReadsT.silent (silent_resize_nil _ _ _ (by omega)) ?_))
  rw [l1]
  refine ReadsT.bind (readsT_quoted _) (ReadsT.cons (extractSize_tok _) (ReadsT.silent (silent_useVar _)
    (ReadsT.silent (silent_resize_nil _ _ _ (by omega)) ?_)))
  rw [l2]
  refine ReadsT.bind (readsT_doubles _ hd) (ReadsT.cons (extractSize_tok _) (ReadsT.silent (silent_useVar _)
    (ReadsT.silent (silent_resize_nil _ _ _ (by omega)) ?_)))
  rw [l3]
  exact ReadsT.last (readsT_ints _) (ReadsT.silent (silent_assertGood cfg) (ReadsT.pure _))

theorem saveDataHeader_writes (cfg : Cfg) (h : DataHeader) :
    WritesT (saveDataHeader cfg h) (headerToks cfg.fmt h) := by
  unfold saveDataHeader
  refine WritesT.bind (x := [_]) (WritesT.emit [(decU64 (sizeU h.stringTags), [10])] (by simp [one_nl])
    (by simp [flat, endl])) (WritesT.bind ?_ (WritesT.bind (x := [_])
    (WritesT.emit [(decU64 (sizeU h.realTags), [10])] (by simp [one_nl]) (by simp [flat, endl]))
    (WritesT.bind ?_ (WritesT.bind (x := [_]) (WritesT.emit [(decU64 (sizeU h.intTags), [10])]
      (by simp [one_nl]) (by simp [flat, endl])) ?_))))
  · refine WritesT.cast (WritesT.forW _ (toks := fun t => [quoteText t]) fun t _ =>
      WritesT.emit [(quoteText t, [10])] (by simp [one_nl]) (by simp [flat, endl])) ?_
    rw [← List.map_eq_flatMap]
  · refine WritesT.cast (WritesT.forW _ (toks := fun t => [fmtDouble cfg.fmt t]) fun t _ =>
      WritesT.emit [(fmtDouble cfg.fmt t, [10])] (by simp [one_nl]) (by simp [flat, endl])) ?_
    rw [← List.map_eq_flatMap]
  · refine WritesT.cast (WritesT.forW _ (toks := fun t => [decI32 t]) fun t _ =>
      WritesT.emit [(decI32 t, [10])] (by simp [one_nl]) (by simp [flat, endl])) ?_
    rw [← List.map_eq_flatMap]

/-! ## Entries -/

/-- The shape of one entry for a section with `fields` values per row. -/
def DataEntry.Ok (isElementNode : Bool) (fields : Int32) (e : DataEntry) : Prop :=
  if isElementNode then 0 ≤ e.numNodesPerElement.toInt ∧
    (e.data.length : Int) = fields.toInt * e.numNodesPerElement.toInt
  else (e.data.length : Int) = fields.toInt

/-- An entry after conversion. -/
def DataEntry.convert (isElementNode : Bool) (t : UInt64 → UInt64) (g : Double → Double) (e : DataEntry) :
    DataEntry :=
  { tag := t e.tag
    numNodesPerElement := if isElementNode then e.numNodesPerElement else 0
    data := e.data.map g }

/-- Tokens of an entry. -/
def entryToks (P : Fmt) (isElementNode : Bool) (e : DataEntry) : List Bytes :=
  decU64 e.tag :: ((if isElementNode then [decI32 e.numNodesPerElement] else []) ++ e.data.map (fmtDouble P))

theorem fields_mul {fields npe : Int32} {n : Nat} (hf : 0 ≤ fields.toInt) (hn : 0 ≤ npe.toInt)
    (h : (n : Int) = fields.toInt * npe.toInt) (hlt : n < 2 ^ 64) :
    (sizeOfInt fields * sizeOfInt npe).toNat = n ∧ n = (sizeOfInt npe).toNat * (sizeOfInt fields).toNat := by
  have e : n = fields.toInt.toNat * npe.toInt.toNat := by
    have : (n : Int) = ((fields.toInt.toNat * npe.toInt.toNat : Nat) : Int) := by
      rw [h, Int.natCast_mul, Int.toNat_of_nonneg hf, Int.toNat_of_nonneg hn]
    exact_mod_cast this
  rw [mul_toNat (by rw [sizeOfInt_toNat hf, sizeOfInt_toNat hn, ← e]; exact hlt),
    sizeOfInt_toNat hf, sizeOfInt_toNat hn]
  exact ⟨e.symm, by rw [e, Nat.mul_comm]⟩

theorem loadDataEntryAscii_reads (cfg : Cfg) {rd : Double → Double} (fields : Int32) (hf : 0 ≤ fields.toInt)
    (isEN : Bool) (e : DataEntry) (he : e.Ok isEN fields) (hd : ∀ d ∈ e.data, DTok cfg.fmt rd d)
    (hc : e.data.length ≤ cfg.maxCount) :
    ReadsT (loadDataEntryAscii cfg (sizeOfInt fields) isEN {}) (entryToks cfg.fmt isEN e)
      (e.convert isEN id rd) := by
  have hlt := cfg.maxCount_lt
  unfold loadDataEntryAscii
  refine ReadsT.cons (inSize_tok _ _) ?_
  cases isEN with
  | false =>
    have hl : (sizeOfInt fields).toNat = e.data.length := by
      rw [sizeOfInt_toNat hf]
      have : (e.data.length : Int) = fields.toInt := he
      omega
    refine ReadsT.silent (silent_resize_nil _ _ _ (by omega)) ?_
    rw [hl]
    exact ReadsT.map (readsT_doubles _ hd) rfl
  | true =>
    obtain ⟨h1, h2⟩ : 0 ≤ e.numNodesPerElement.toInt ∧
      (e.data.length : Int) = fields.toInt * e.numNodesPerElement.toInt := he
    obtain ⟨hm1, hm2⟩ := fields_mul hf h1 h2 (by omega)
    refine ReadsT.cons (inInt_tok _ _) (ReadsT.silent (silent_resize_nil _ _ _ (by omega)) ?_)
    exact ReadsT.map (readsT_nestedDoubles e.data hd _ _ _ (by simp [hm1]) hm2 (by omega)) rfl

theorem spacedLine_flat (P : Fmt) (v : List Double) : ∃ ps : List (Bytes × Bytes),
    ps.map Prod.fst = v.map (fmtDouble P) ∧ (∀ q ∈ ps, IsTok q.1 ∧ One q.2) ∧ spacedLine P v = flat ps := by
  induction v with
  | nil => exact ⟨[], rfl, by simp, rfl⟩
  | cons a v ih =>
    cases v with
    | nil => exact ⟨[(fmtDouble P a, [10])], rfl, by simp [one_nl], by simp [spacedLine, flat, endl]⟩
    | cons b v =>
      obtain ⟨ps, h1, h2, h3⟩ := ih
      refine ⟨(fmtDouble P a, [32]) :: ps, by simp [h1], ?_, ?_⟩
      · intro q hq
        rcases List.mem_cons.mp hq with h | h
        · rw [h]; exact ⟨by simp, one_sp⟩
        · exact h2 q h
      · show fmtDouble P a ++ [32] ++ spacedLine P (b :: v) = _
        rw [h3]; simp [flat]

theorem saveDataEntryAscii_writes (cfg : Cfg) (isEN : Bool) (e : DataEntry) :
    WritesT (saveDataEntryAscii cfg isEN e) (entryToks cfg.fmt isEN e) := by
  unfold saveDataEntryAscii
  refine WritesT.bind (x := [_]) (WritesT.emit [(decU64 e.tag, [32])] (by simp [one_sp]) (by simp [flat])) ?_
  refine WritesT.bind (WritesT.when (WritesT.emit [(decI32 e.numNodesPerElement, [32])] (by simp [one_sp])
    (by simp [flat]))) ?_
  obtain ⟨ps, h1, h2, h3⟩ := spacedLine_flat cfg.fmt e.data
  exact ⟨ps, h1, h2, by rw [h3]; rfl⟩

/-- Bytes of an entry. -/
def entryEnc (isElementNode : Bool) (e : DataEntry) : Bytes :=
  encI32 (intOfSize e.tag) ++ ((if isElementNode then encI32 e.numNodesPerElement else []) ++
    e.data.flatMap encDouble)

theorem saveDataEntryBinary_writes (isEN : Bool) (e : DataEntry) :
    Writes (saveDataEntryBinary isEN e) (entryEnc isEN e) := by
  unfold saveDataEntryBinary
  exact Writes.bind (Writes.emit _) (Writes.bind (Writes.when (Writes.emit _)) (Writes.emit _))

theorem entry_id (isEN : Bool) (e : DataEntry) (n : Int32) (h : n = if isEN then e.numNodesPerElement else 0) :
    ({ tag := sizeOfInt (intOfSize e.tag), numNodesPerElement := n, data := e.data } : DataEntry) =
      e.convert isEN wrap32 id := by
  subst h
  simp [DataEntry.convert, wrap32_eq]

theorem loadDataEntryBinary41_reads (cfg : Cfg) (fields : Int32) (hf : 0 ≤ fields.toInt) (isEN : Bool)
    (e : DataEntry) (he : e.Ok isEN fields) (hc : e.data.length ≤ cfg.maxCount) :
    ReadsB (loadDataEntryBinary41 cfg (sizeOfInt fields) isEN {}) (entryEnc isEN e)
      (e.convert isEN wrap32 id) := by
  have hlt := cfg.maxCount_lt
  unfold loadDataEntryBinary41
  refine ReadsB.bind (readIntVar_reads _) (ReadsB.silent (silent_useVar _) ?_)
  cases isEN with
  | false =>
    have hl : (sizeOfInt fields).toNat = e.data.length := by
      rw [sizeOfInt_toNat hf]
      have : (e.data.length : Int) = fields.toInt := he
      omega
    refine ReadsB.silent (silent_resize_nil _ _ _ (by omega)) ?_
    exact ReadsB.map (readDoubles_reads _ e.data (by simp [hl])) (entry_id false e 0 rfl)
  | true =>
    obtain ⟨h1, h2⟩ : 0 ≤ e.numNodesPerElement.toInt ∧
      (e.data.length : Int) = fields.toInt * e.numNodesPerElement.toInt := he
    obtain ⟨hm1, hm2⟩ := fields_mul hf h1 h2 (by omega)
    refine ReadsB.bind (readInt_reads _ _) (ReadsB.silent (silent_resize_nil _ _ _ (by omega)) ?_)
    exact ReadsB.map (readDoubles_reads _ e.data (by simp [hm1])) (entry_id true e _ rfl)

theorem loadDataEntryBinary22_reads (cfg : Cfg) (fields : Int32) (hf : 0 ≤ fields.toInt) (isEN : Bool)
    (e : DataEntry) (he : e.Ok isEN fields) (hc : e.data.length ≤ cfg.maxCount) :
    ReadsB (loadDataEntryBinary22 cfg (sizeOfInt fields) isEN {}) (entryEnc isEN e)
      (e.convert isEN wrap32 id) := by
  have hlt := cfg.maxCount_lt
  unfold loadDataEntryBinary22
  refine ReadsB.bind (readIntVar_reads _) (ReadsB.silent (silent_useVar _) ?_)
  cases isEN with
  | false =>
    have hl : (sizeOfInt fields).toNat = e.data.length := by
      rw [sizeOfInt_toNat hf]
      have : (e.data.length : Int) = fields.toInt := he
      omega
    refine ReadsB.silent (silent_resize_nil _ _ _ (by omega)) ?_
    exact ReadsB.map (readDoubles_reads _ e.data (by simp [hl])) (entry_id false e 0 rfl)
  | true =>
    obtain ⟨h1, h2⟩ : 0 ≤ e.numNodesPerElement.toInt ∧
      (e.data.length : Int) = fields.toInt * e.numNodesPerElement.toInt := he
    obtain ⟨hm1, hm2⟩ := fields_mul hf h1 h2 (by omega)
    refine ReadsB.bind (readIntVar_reads _) (ReadsB.silent (silent_useVar _)
      (ReadsB.silent (silent_resize_nil _ _ _ (by omega)) ?_))
    exact ReadsB.map (readDoubles_reads _ e.data (by simp [hm1])) (entry_id true e _ rfl)

/-! ## One section -/

/-- All vectors of a data section can be allocated. -/
def Data.Fits (cfg : Cfg) (d : Data) : Prop := ∀ n ∈ d.sizes, n ≤ cfg.maxCount

theorem Data.Ok.entries {isEN : Bool} {d : Data} (h : d.Ok isEN) :
    ∃ t0 fields num more, d.header.intTags = t0 :: fields :: num :: more ∧
      num.toInt = d.entries.length ∧ 0 ≤ fields.toInt ∧ ∀ e ∈ d.entries, e.Ok isEN fields := h.header

theorem Data.Fits.get {cfg : Cfg} {d : Data} (h : d.Fits cfg) :
    d.header.stringTags.length ≤ cfg.maxCount ∧ d.header.realTags.length ≤ cfg.maxCount ∧
    d.header.intTags.length ≤ cfg.maxCount ∧ d.entries.length ≤ cfg.maxCount ∧
    ∀ e ∈ d.entries, e.data.length ≤ cfg.maxCount := by
  refine ⟨h _ (by simp [Data.sizes]), h _ (by simp [Data.sizes]), h _ (by simp [Data.sizes]),
    h _ (by simp [Data.sizes]), fun e he => h _ ?_⟩
  simp only [Data.sizes, List.mem_cons]
  exact Or.inr (Or.inr (Or.inr (Or.inr (List.mem_map.mpr ⟨e, he, rfl⟩))))

/-- Tokens of a section. -/
def dataToks (P : Fmt) (isEN : Bool) (d : Data) : List Bytes :=
  headerToks P d.header ++ d.entries.flatMap (entryToks P isEN)

theorem loadData_ascii (cfg : Cfg) {rd : Double → Double} (f : MeshFormat) (ht : f.fileType = 0)
    (isEN : Bool) (d : Data) (hok : d.Ok isEN) (hfit : d.Fits cfg)
    (hd1 : ∀ x ∈ d.header.realTags, DTok cfg.fmt rd x)
    (hd2 : ∀ e ∈ d.entries, ∀ x ∈ e.data, DTok cfg.fmt rd x) :
    ReadsT (loadData cfg f isEN) (dataToks cfg.fmt isEN d) (d.convert isEN id rd rd) := by
  obtain ⟨t0, fields, num, more, hi, hnum, hf, he⟩ := hok.entries
  obtain ⟨c1, c2, c3, c4, c5⟩ := hfit.get
  unfold loadData
  refine ReadsT.bind (loadDataHeader_reads cfg d.header hd1 c1 c2 c3) ?_
  simp only [hi]
  have hn : (sizeOfInt num).toNat = d.entries.length := by
    rw [sizeOfInt_toNat (by omega)]; omega
  refine ReadsT.silent (silent_resize_nil _ _ _ (by omega)) ?_
  rw [hn, if_neg (by rw [ht]; decide)]
  refine ReadsT.last (ReadsT.forEach d.entries (g := DataEntry.convert isEN id rd) fun e hm =>
    loadDataEntryAscii_reads cfg fields hf isEN e (he e hm) (hd2 e hm) (c5 e hm))
    (ReadsT.silent (silent_assertGood cfg) (ReadsT.cast (ReadsT.pure _) rfl ?_))
  simp only [Data.convert, hi]
  rfl

theorem loadData_binary (cfg : Cfg) {rd : Double → Double} (f : MeshFormat) (ht : 0 < f.fileType)
    (hv : f.version = b! "4.1" ∨ f.version = b! "2.2") (isEN : Bool) (d : Data) (hok : d.Ok isEN)
    (hfit : d.Fits cfg) (hd1 : ∀ x ∈ d.header.realTags, DTok cfg.fmt rd x)
    {ps : List (Bytes × Bytes)} (hps : ps.map Prod.fst = headerToks cfg.fmt d.header)
    (ho : ∀ q ∈ ps, IsTok q.1 ∧ One q.2) :
    ReadsM (loadData cfg f isEN) (flat ps ++ d.entries.flatMap (entryEnc isEN))
      (d.convert isEN wrap32 rd id) := by
  obtain ⟨t0, fields, num, more, hi, hnum, hf, he⟩ := hok.entries
  obtain ⟨c1, c2, c3, c4, c5⟩ := hfit.get
  have hn : (sizeOfInt num).toNat = d.entries.length := by
    rw [sizeOfInt_toNat (by omega)]; omega
  unfold loadData
  refine ReadsM.tokens (loadDataHeader_reads cfg d.header hd1 c1 c2 c3) hps (fun q hq => (ho q hq).2)
    (by rintro rfl; simp [headerToks] at hps) ?_
  intro w rest hw hr
  simp only [hi]
  rw [Rd.bind_ok (silent_resize_nil cfg (sizeOfInt num) _ (by omega) _), hn, if_pos ht, List.append_assoc,
    Rd.bind_ok (eat_one hw (by simp [hr]))]
  have fin : ∀ p : DataEntry → Rd DataEntry,
      (∀ e ∈ d.entries, ReadsB (p {}) (entryEnc isEN e) (e.convert isEN wrap32 id)) →
      (forEach p (List.replicate d.entries.length {}) >>= fun entries => assertGood cfg >>= fun _ =>
        (pure { header := { d.header with realTags := d.header.realTags.map rd,
                                          intTags := t0 :: fields :: num :: more },
                entries := entries } : Rd Data))
        (gs (d.entries.flatMap (entryEnc isEN) ++ rest)) =
      .ok (d.convert isEN wrap32 rd id, gs rest) := by
    intro p hp
    have e : d.convert isEN wrap32 rd id =
        { header := { d.header with realTags := d.header.realTags.map rd,
                                    intTags := t0 :: fields :: num :: more },
          entries := d.entries.map (DataEntry.convert isEN wrap32 id) } := by
      simp only [Data.convert, hi]
      rfl
    rw [e]
    rw [Rd.bind_ok (ReadsB.forEach d.entries (g := DataEntry.convert isEN wrap32 id) hp rest),
      Rd.bind_ok (silent_assertGood cfg _)]
    rfl
  rcases hv with hv | hv
  · rw [if_pos hv]
    exact fin _ fun e hm => loadDataEntryBinary41_reads cfg fields hf isEN e (he e hm) (c5 e hm)
  · rw [if_neg (by rw [hv]; decide), if_pos hv]
    exact fin _ fun e hm => loadDataEntryBinary22_reads cfg fields hf isEN e (he e hm) (c5 e hm)

/-! ## All sections of one kind -/

/-- One of the three lists of data sections of a spec. -/
structure DataField where
  name : Bytes
  isEN : Bool
  get : MshSpec → List Data
  set : MshSpec → List Data → MshSpec
  get_set : ∀ s ds, get (set s ds) = ds
  set_get : ∀ s, set s (get s) = s
  set_set : ∀ s a b, set (set s a) b = set s b
  format : ∀ s ds, (set s ds).meshFormat = s.meshFormat
  word : ∀ c ∈ name, isSpace c = false
  known : name ∈ knownSections true := by decide
  load : ∀ cfg s, loadSection cfg (36 :: name) s =
    (loadDataSection cfg s.meshFormat isEN (get s) >>= fun ds => pure (set s ds))

def nodeDataField : DataField where
  name := b! "NodeData"
  isEN := false
  get := (·.nodeData)
  set s ds := { s with nodeData := ds }
  get_set _ _ := rfl
  set_get _ := rfl
  set_set _ _ _ := rfl
  format _ _ := rfl
  word := by decide
  load cfg s := by
    unfold loadSection
    rw [if_neg (by decide), if_neg (by decide), if_neg (by decide), if_neg (by decide), if_neg (by decide),
      if_pos rfl]

def elementDataField : DataField where
  name := b! "ElementData"
  isEN := false
  get := (·.elementData)
  set s ds := { s with elementData := ds }
  get_set _ _ := rfl
  set_get _ := rfl
  set_set _ _ _ := rfl
  format _ _ := rfl
  word := by decide
  load cfg s := by
    unfold loadSection
    rw [if_neg (by decide), if_neg (by decide), if_neg (by decide), if_neg (by decide), if_neg (by decide),
      if_neg (by decide), if_pos rfl]

def elementNodeDataField : DataField where
  name := b! "ElementNodeData"
  isEN := true
  get := (·.elementNodeData)
  set s ds := { s with elementNodeData := ds }
  get_set _ _ := rfl
  set_get _ := rfl
  set_set _ _ _ := rfl
  format _ _ := rfl
  word := by decide
  load cfg s := by
    unfold loadSection
    rw [if_neg (by decide), if_neg (by decide), if_neg (by decide), if_neg (by decide), if_neg (by decide),
      if_neg (by decide), if_neg (by decide), if_pos rfl]

/-- Tokens of a data section with its markers. -/
def dataSecToks (P : Fmt) (name : Bytes) (isEN : Bool) (d : Data) : List Bytes :=
  (36 :: name) :: (dataToks P isEN d ++ [endTag name])

theorem slt_dataOne (cfg : Cfg) (F : DataField) {rd : Double → Double} (spec : MshSpec)
    (ht : spec.meshFormat.fileType = 0) (d : Data) (hl : (F.get spec).length < cfg.maxCount)
    (hok : d.Ok F.isEN) (hfit : d.Fits cfg)
    (hd1 : ∀ x ∈ d.header.realTags, DTok cfg.fmt rd x)
    (hd2 : ∀ e ∈ d.entries, ∀ x ∈ e.data, DTok cfg.fmt rd x) :
    SLT cfg (dataSecToks cfg.fmt F.name F.isEN d) (emit (b! "$" ++ F.name ++ endl) >>= fun _ => saveData cfg spec.meshFormat F.isEN d >>= fun _ =>
      emit (b! "$End" ++ F.name ++ endl)) spec
      (F.set spec (F.get spec ++ [d.convert F.isEN id rd rd])) := by
  refine SLT.section (name := F.name) (ts := dataToks cfg.fmt F.isEN d) rfl rfl F.word ?_ ?_ F.known
  · unfold saveData
    rw [if_neg (by rw [ht]; decide)]
    exact WritesT.bind (saveDataHeader_writes cfg _) (WritesT.forW _ fun e _ => saveDataEntryAscii_writes cfg _ e)
  · rw [F.load]
    unfold loadDataSection
    refine ReadsT.map (a := F.get spec ++ [d.convert F.isEN id rd rd]) ?_ rfl
    refine ReadsT.silent (silent_pushBack cfg _ _ hl) ?_
    exact ReadsT.map (loadData_ascii cfg _ ht _ d hok hfit hd1 hd2) (by simp)

theorem sls_dataOne (cfg : Cfg) (F : DataField) {rd : Double → Double} (spec : MshSpec)
    (ht : 0 < spec.meshFormat.fileType)
    (hv : spec.meshFormat.version = b! "4.1" ∨ spec.meshFormat.version = b! "2.2") (d : Data)
    (hl : (F.get spec).length < cfg.maxCount) (hok : d.Ok F.isEN) (hfit : d.Fits cfg)
    (hd1 : ∀ x ∈ d.header.realTags, DTok cfg.fmt rd x) :
    SLS cfg [(F.name, (saveData cfg spec.meshFormat F.isEN d).1)] (emit (b! "$" ++ F.name ++ endl) >>= fun _ => saveData cfg spec.meshFormat F.isEN d >>= fun _ =>
      emit (b! "$End" ++ F.name ++ endl)) spec
      (F.set spec (F.get spec ++ [d.convert F.isEN wrap32 rd id])) := by
  obtain ⟨ps, hps, ho, hw⟩ := saveDataHeader_writes cfg d.header
  have hsd : Writes (saveData cfg spec.meshFormat F.isEN d) (flat ps ++ d.entries.flatMap (entryEnc F.isEN)) := by
    unfold saveData
    refine Writes.bind hw ?_
    rw [if_pos ht]
    have := Writes.forW d.entries fun e _ => saveDataEntryBinary_writes F.isEN e
    rcases hv with hv | hv
    · rw [if_pos hv]; exact this
    · rw [if_neg (by rw [hv]; decide), if_pos hv]; exact this
  rw [show (saveData cfg spec.meshFormat F.isEN d).1 = _ from congrArg Prod.fst hsd]
  refine SLS.section (name := F.name) rfl rfl F.word hsd ?_ F.known
  · rw [F.load]
    unfold loadDataSection
    refine Rds.map (a := F.get spec ++ [d.convert F.isEN wrap32 rd id]) ?_ rfl
    intro rest hr
    refine ⟨[], Ws.nil, ?_⟩
    rw [Rd.bind_ok (silent_pushBack cfg _ _ hl _),
      Rd.bind_ok (loadData_binary cfg _ ht hv _ d hok hfit hd1 hps ho [10] rest one_nl.sep.1 hr)]
    simp [pure, Rd.pure]

theorem slt_dataSections (cfg : Cfg) (F : DataField) {rd : Double → Double} (ds : List Data) :
    ∀ spec : MshSpec, spec.meshFormat.fileType = 0 →
    (F.get spec).length + ds.length ≤ cfg.maxCount → (∀ d ∈ ds, d.Ok F.isEN) → (∀ d ∈ ds, d.Fits cfg) →
    (∀ d ∈ ds, ∀ x ∈ d.header.realTags, DTok cfg.fmt rd x) →
    (∀ d ∈ ds, ∀ e ∈ d.entries, ∀ x ∈ e.data, DTok cfg.fmt rd x) →
    SLT cfg (ds.flatMap (dataSecToks cfg.fmt F.name F.isEN)) (saveDataSections cfg spec.meshFormat F.name F.isEN ds) spec
      (F.set spec (F.get spec ++ ds.map (Data.convert F.isEN id rd rd))) := by
  induction ds with
  | nil => intro spec _ _ _ _ _ _; exact SLT.cast (SLT.pure _ _) (by simp [F.set_get])
  | cons d ds ih =>
    intro spec ht hl hok hfit h1 h2
    simp only [List.length_cons] at hl
    have s1 := slt_dataOne cfg F (rd := rd) spec ht d (by omega) (hok d (by simp)) (hfit d (by simp))
      (h1 d (by simp)) (h2 d (by simp))
    have s2 := ih (F.set spec (F.get spec ++ [d.convert F.isEN id rd rd])) (by rw [F.format]; exact ht)
      (by rw [F.get_set]; simp; omega) (fun d hd => hok d (by simp [hd])) (fun d hd => hfit d (by simp [hd]))
      (fun d hd => h1 d (by simp [hd])) (fun d hd => h2 d (by simp [hd]))
    rw [F.format] at s2
    exact SLT.cast (SLT.bind s1 s2) (by simp [F.get_set, F.set_set])

theorem sls_dataSections (cfg : Cfg) (F : DataField) {rd : Double → Double} (ds : List Data) :
    ∀ spec : MshSpec, 0 < spec.meshFormat.fileType →
    (spec.meshFormat.version = b! "4.1" ∨ spec.meshFormat.version = b! "2.2") →
    (F.get spec).length + ds.length ≤ cfg.maxCount → (∀ d ∈ ds, d.Ok F.isEN) → (∀ d ∈ ds, d.Fits cfg) →
    (∀ d ∈ ds, ∀ x ∈ d.header.realTags, DTok cfg.fmt rd x) →
    SLS cfg (ds.map fun d => (F.name, (saveData cfg spec.meshFormat F.isEN d).1)) (saveDataSections cfg spec.meshFormat F.name F.isEN ds) spec
      (F.set spec (F.get spec ++ ds.map (Data.convert F.isEN wrap32 rd id))) := by
  induction ds with
  | nil => intro spec _ _ _ _ _ _; exact SLS.cast (SLS.pure _ _) (by simp [F.set_get])
  | cons d ds ih =>
    intro spec ht hv hl hok hfit h1
    simp only [List.length_cons] at hl
    have s1 := sls_dataOne cfg F (rd := rd) spec ht hv d (by omega) (hok d (by simp)) (hfit d (by simp))
      (h1 d (by simp))
    have s2 := ih (F.set spec (F.get spec ++ [d.convert F.isEN wrap32 rd id])) (by rw [F.format]; exact ht)
      (by rw [F.format]; exact hv)
      (by rw [F.get_set]; simp; omega) (fun d hd => hok d (by simp [hd])) (fun d hd => hfit d (by simp [hd]))
      (fun d hd => h1 d (by simp [hd]))
    rw [F.format] at s2
    exact SLS.cast (SLS.bind s1 s2) (by simp [F.get_set, F.set_set])

end MshIO
