import Verif.Spec.Spelling
import Verif.Props.Numeral
import Verif.Proofs.File41
import Verif.Proofs.File22
import Verif.Proofs.Skip
import Verif.Proofs.Quoted
import Verif.Proofs.TextRead

/-!
# Reading items in any spelling

`ReadsI p is v`: whichever way the items `is` are spelled and separated, `p` reads them and returns `v`.
-/

namespace MshIO

/-- Exact reading of one item. -/
def ITok {α : Type} (p : Rd α) (i : Item) (v : α) : Prop := ∀ t, i.Spelled t → Tok p t v

/-- Reading a sequence of items. -/
def ReadsI {α : Type} (p : Rd α) (is : List Item) (v : α) : Prop := ∀ ts, List.Forall₂ Item.Spelled is ts → ReadsT p ts v

section comb
variable {α β : Type}

theorem ReadsI.pure (a : α) : ReadsI (Pure.pure a : Rd α) [] a := by
  intro ts h
  cases h
  exact ReadsT.pure a

theorem ReadsI.bind {p : Rd α} {f : α → Rd β} {t1 t2 : List Item} {a : α} {b : β}
    (h1 : ReadsI p t1 a) (h2 : ReadsI (f a) t2 b) : ReadsI (p >>= f) (t1 ++ t2) b := by
  intro ts h
  have h' := h
  rw [← List.take_append_drop t1.length ts] at h'
  have hl : t1.length ≤ ts.length := by have := h.length_eq; simp at this; omega
  have hs := h.length_eq
  rw [← List.take_append_drop t1.length ts]
  have e1 : List.Forall₂ Item.Spelled t1 (ts.take t1.length) := by
    have := List.forall₂_take t1.length h
    simpa using this
  have e2 : List.Forall₂ Item.Spelled t2 (ts.drop t1.length) := by
    have := List.forall₂_drop t1.length h
    simpa using this
  exact ReadsT.bind (h1 _ e1) (h2 _ e2)

theorem ReadsI.silent {p : Rd α} {f : α → Rd β} {ts : List Item} {a : α} {b : β}
    (h1 : Silent p a) (h2 : ReadsI (f a) ts b) : ReadsI (p >>= f) ts b := fun ts h => ReadsT.silent h1 (h2 ts h)

theorem ITok.readsI {p : Rd α} {t : Item} {v : α} (h : ITok p t v) : ReadsI p [t] v := by
  intro ts hs
  cases hs with
  | cons h1 h2 => cases h2; exact (h _ h1).readsT

theorem ReadsI.cons {p : Rd α} {f : α → Rd β} {t : Item} {ts : List Item} {a : α} {b : β}
    (h1 : ITok p t a) (h2 : ReadsI (f a) ts b) : ReadsI (p >>= f) (t :: ts) b :=
  ReadsI.bind (t1 := [t]) h1.readsI h2

theorem ReadsI.map {p : Rd α} {g : α → β} {ts : List Item} {a : α} {b : β}
    (h : ReadsI p ts a) (e : g a = b) : ReadsI (p >>= fun x => Pure.pure (g x)) ts b := fun ts hs => ReadsT.map (h ts hs) e

theorem ReadsI.last {p : Rd α} {f : α → Rd β} {ts : List Item} {a : α} {b : β}
    (h1 : ReadsI p ts a) (h2 : ReadsI (f a) [] b) : ReadsI (p >>= f) ts b := by
  have := ReadsI.bind h1 h2
  rwa [List.append_nil] at this

theorem ReadsI.cast {p : Rd α} {t1 t2 : List Item} {a b : α} (h : ReadsI p t1 a) (ht : t1 = t2)
    (hab : a = b) : ReadsI p t2 b := by subst ht hab; exact h

/-- Filling a vector of `cs.length` default elements. -/
theorem ReadsI.forEach {f : α → Rd α} {toks : α → List Item} {d : α} (cs : List α)
    (h : ∀ c ∈ cs, ReadsI (f d) (toks c) c) :
    ReadsI (MshIO.forEach f (List.replicate cs.length d)) (cs.flatMap toks) cs := by
  induction cs with
  | nil => exact ReadsI.pure _
  | cons c cs ih =>
    simp only [List.flatMap_cons]
    exact ReadsI.bind (h c (by simp)) (ReadsI.map (ih fun x hx => h x (by simp [hx])) rfl)

theorem ReadsI.forEach1 {f : α → Rd α} {tok : α → Item} {d : α} (cs : List α)
    (h : ∀ c ∈ cs, ITok (f d) (tok c) c) :
    ReadsI (MshIO.forEach f (List.replicate cs.length d)) (cs.map tok) cs := by
  have := ReadsI.forEach (f := f) (toks := fun c => [tok c]) (d := d) cs fun c hc => (h c hc).readsI
  rwa [← List.map_eq_flatMap] at this

end comb

/-! ## Single items -/

theorem wsHead_blank {rest : Bytes} (h : WsHead rest) : ∀ c ∈ rest.head?, isSpace c = true := by
  obtain ⟨c, r, rfl, hc⟩ := h
  intro d hd; cases hd; exact hc

theorem extract_of_in {α : Type} {x : Rd (Option α)} {s s' : Stream} {o v : α}
    (h : (x >>= fun y => (Pure.pure (y.getD o) : Rd α)) s = .ok (v, s')) : ∃ y, x s = .ok (y, s') ∧ y.getD o = v := by
  rw [Rd.bind_def] at h
  cases e : x s with
  | ok q =>
    rw [e] at h
    obtain ⟨y, s2⟩ := q
    have h : Outcome.ok (y.getD o, s2) = .ok (v, s') := h
    injection h with h
    injection h with h1 h2
    exact ⟨y, by rw [h2], h1⟩
  | _ => rw [e] at h; cases h

theorem startsInt_whole {s : Option Bool} {ds : List (Fin 10)} (hd : ds ≠ []) {w rest : Bytes} (hw : Ws w) (hr : WsHead rest) :
    StartsInt (w ++ (signText s ++ digitsText ds) ++ rest) s ds rest := by
  refine ⟨w, by simp, hw, ?_, fun _ h => absurd h hd⟩
  obtain ⟨c, r, rfl, hc⟩ := hr
  intro d hd; cases hd; exact isDigit_of_isSpace hc

theorem payload_wsHead {rest : Bytes} (hr : WsHead rest) : payload rest = gs rest := by
  obtain ⟨c, r, rfl, hc⟩ := hr; rfl

theorem extractSize_item (x : UInt64) : ITok extractSize (.size x) (some x) := by
  intro t ht w rest hw hr
  cases ht with
  | @whole z s ds hd hv =>
    have h64 := x.toNat_lt
    have hlt : digitsValue ds < 2 ^ 64 := by
      unfold signValue at hv
      split at hv <;> omega
    obtain ⟨st', h1, h2⟩ := extractSize_yields.sound (.number (startsInt_whole hd hw hr) hd hlt)
      (show Cur (.on _) (gs _) from ⟨rfl, rfl, by simp⟩)
    have h2 : st' = gs rest := h2.trans (payload_wsHead hr)
    rw [h1, h2]
    congr 3
    rw [hv]
    apply UInt64.toNat_inj.mp
    unfold UInt64.ofInt
    rw [UInt64.toNat_ofNat']
    omega
  
theorem extractInt_item (x : Int32) : ITok extractInt (.int x) (some x) := by
  intro t ht w rest hw hr
  cases ht with
  | @whole z s ds hd hv =>
    obtain ⟨st', h1, h2⟩ := extractInt_yields.sound (.number (v := x) (startsInt_whole hd hw hr) hd hv.symm)
      (show Cur (.on _) (gs _) from ⟨rfl, rfl, by simp⟩)
    have h2 : st' = gs rest := h2.trans (payload_wsHead hr)
    rw [h1, h2]

theorem extractSize_count {α : Type} (v : List α) (h : v.length < 2 ^ 64) : ITok extractSize (.count v) (some (sizeU v)) := by
  have := extractSize_item (sizeU v)
  unfold Item.size at this
  rwa [sizeU_toNat h] at this

theorem extractInt_count {α : Type} (v : List α) (h : v.length < 2 ^ 31) : ITok extractInt (.count v) (some (Int32.ofNat v.length)) := by
  have := extractInt_item (Int32.ofNat v.length)
  unfold Item.int at this
  rwa [Int32.toInt_ofNat_of_lt h] at this

theorem inSize_item (old x : UInt64) : ITok (inSize old) (.size x) x := by
  intro t ht w rest hw hr
  unfold inSize
  rw [Rd.bind_ok (extractSize_item x t ht w rest hw hr)]
  rfl

theorem inInt_item (old x : Int32) : ITok (inInt old) (.int x) x := by
  intro t ht w rest hw hr
  unfold inInt
  rw [Rd.bind_ok (extractInt_item x t ht w rest hw hr)]
  rfl

theorem inDouble_item (old d : Double) : ITok (inDouble old) (.real d) d := by
  intro t ht w rest hw hr
  cases ht with
  | @real d n hn hq hd hs =>
    obtain ⟨e, h1, h2, h3⟩ := C48_number_read n hn hq old w rest hw (wsHead_blank hr)
    rw [h1, C48_nearest_unique n.value hq e d h2 hd (by rw [h3, hs]), hr.ne_nil]

theorem inQuoted_item (old n : Bytes) : ITok (inQuoted old) (.name n) n := by
  intro t ht
  cases ht with
  | name h => exact inQuoted_nameText old h

theorem inString_item (old : Bytes) {n : Bytes} (hn : Word n) : ITok (inString old) (.word n) n := by
  intro t ht
  cases ht with
  | word => exact inString_tok old _ hn

/-! ## Loops -/

/-- Filling a vector by index, one item per element. -/
theorem readsI_fill {α : Type} {at' : UInt64 → List α → Rd (List α)} {txt : α → Item} 
    (cs : List α) (old : List α)
    (hat : ∀ (i : UInt64) v c, i.toNat < v.length → c ∈ cs → ReadsI (at' i v) [txt c] (v.set i.toNat c))
    (h : old.length = cs.length) (hlt : cs.length < 2 ^ 64) :
    ReadsI (loopN (fun i v => at' (UInt64.ofNat i) v) cs.length 0 old) (cs.map txt) cs := by
  have key : ∀ (cs' : List α) (pre old : List α), (∀ c ∈ cs', c ∈ cs) → old.length = cs'.length →
      pre.length + cs'.length < 2 ^ 64 →
      ReadsI (loopN (fun i v => at' (UInt64.ofNat i) v) cs'.length pre.length (pre ++ old))
        (cs'.map txt) (pre ++ cs') := by
    intro cs'
    induction cs' with
    | nil =>
      intro pre old _ h _
      have : old = [] := List.length_eq_zero_iff.mp h
      subst this
      rw [List.append_nil]
      have h3 := ReadsI.pure pre
      exact ReadsI.cast (p := loopN (fun i v => at' (UInt64.ofNat i) v) 0 pre.length pre) h3 rfl rfl
    | cons c cs' ih =>
      intro pre old hmem h hl
      cases old with
      | nil => simp at h
      | cons o old =>
        simp only [List.length_cons] at h hl
        have hn : (UInt64.ofNat pre.length).toNat = pre.length := ofNat_toNat_lt (by omega)
        have h1 := hat (UInt64.ofNat pre.length) (pre ++ o :: old) c (by rw [hn]; simp) (hmem c (by simp))
        rw [hn] at h1
        have e1 : (pre ++ o :: old).set pre.length c = (pre ++ [c]) ++ old := by simp
        rw [e1] at h1
        have h2 := ih (pre ++ [c]) old (fun x hx => hmem x (by simp [hx])) (by omega)
          (by simp; omega)
        rw [List.length_append, List.length_singleton] at h2
        have h3 := ReadsI.bind h1 h2
        refine ReadsI.cast (p := loopN (fun i v => at' (UInt64.ofNat i) v) (cs'.length + 1) pre.length (pre ++ o :: old)) h3 (by simp) (by simp)
  simpa using key cs [] old (fun _ h => h) h (by simpa using hlt)

theorem readsI_nestedDoubles (cs : List Double) (old : List Double) (num : Nat) (e : UInt64)
    (h : old.length = cs.length) (hn : cs.length = num * e.toNat) (hlt : cs.length < 2 ^ 64) :
    ReadsI (loopN (fun j data => loopN (fun k data =>
        inDoubleAt (UInt64.ofNat j * e + UInt64.ofNat k) data) e.toNat 0 data) num 0 old)
      (cs.map .real) cs := by
  rw [loopN_flat, ← hn]
  refine readsI_fill cs old (fun i v c hi _ => ?_) h hlt
  unfold inDoubleAt
  rw [List.getElem?_eq_getElem hi]
  exact ReadsI.map (inDouble_item _ c).readsI rfl

theorem readsI_nestedSizes (cs : List UInt64) (old : List UInt64) (num : Nat) (e : UInt64)
    (h : old.length = cs.length) (hn : cs.length = num * e.toNat) (hlt : cs.length < 2 ^ 64) :
    ReadsI (loopN (fun j data => loopN (fun k data =>
        inSizeAt (UInt64.ofNat j * e + UInt64.ofNat k) data) e.toNat 0 data) num 0 old)
      (cs.map .size) cs := by
  rw [loopN_flat, ← hn]
  refine readsI_fill cs old (fun i v c hi _ => ?_) h hlt
  unfold inSizeAt
  rw [List.getElem?_eq_getElem hi]
  exact ReadsI.map (inSize_item _ c).readsI rfl

theorem readsI_doubles (cs : List Double) :
    ReadsI (forEach inDouble (List.replicate cs.length Double.zero)) (cs.map .real) cs :=
  ReadsI.forEach1 cs fun c _ => inDouble_item _ c

theorem readsI_ints (cs : List Int32) : ReadsI (forEach inInt (List.replicate cs.length 0)) (cs.map .int) cs :=
  ReadsI.forEach1 cs fun c _ => inInt_item _ c

theorem readsI_sizes (cs : List UInt64) : ReadsI (forEach inSize (List.replicate cs.length 0)) (cs.map .size) cs :=
  ReadsI.forEach1 cs fun c _ => inSize_item _ c

theorem readsI_quoted (cs : List Bytes) : ReadsI (forEach inQuoted (List.replicate cs.length [])) (cs.map .name) cs :=
  ReadsI.forEach1 cs fun c _ => inQuoted_item _ c

/-! ## Sections -/

theorem loadMeshFormat_items (old : MeshFormat) :
    ReadsI (loadMeshFormat old) [.word (b! "4.1"), .whole 0, .whole 8] ⟨b! "4.1", 0, 8⟩ := by
  unfold loadMeshFormat
  refine ReadsI.cons (inString_item _ word_41) ?_
  rw [if_neg (by decide)]
  refine ReadsI.cons (inInt_item _ 0) (ReadsI.cons (inInt_item _ 8) ?_)
  rw [if_neg (by decide), if_neg (by decide)]
  exact ReadsI.pure _

theorem loadPhysicalGroups_items (cfg : Cfg) (v : List PhysicalGroup) (h : v.length < 2 ^ 31)
    (hc : v.length ≤ cfg.maxCount) :
    ReadsI (loadPhysicalGroups cfg []) (.count v :: v.flatMap PhysicalGroup.items) v := by
  unfold loadPhysicalGroups
  refine ReadsI.cons (extractInt_count v h) (ReadsI.silent (silent_useVar _)
    (ReadsI.silent (silent_resize_nil _ _ _ (by rw [sizeOfInt_ofNat h]; exact hc)) ?_))
  rw [sizeOfInt_ofNat h]
  refine ReadsI.last (ReadsI.forEach v fun g _ => ?_) (ReadsI.silent (silent_assertGood cfg) (ReadsI.pure v))
  unfold loadPhysicalGroup
  exact ReadsI.cons (inInt_item _ _) (ReadsI.cons (inInt_item _ _) (ReadsI.map (inQuoted_item _ _).readsI rfl))

theorem loadIntListAscii_items (cfg : Cfg) (v : List Int32) (hc : v.length ≤ cfg.maxCount) :
    ReadsI (loadIntListAscii cfg []) (countedItems v) v := by
  have hlt := cfg.maxCount_lt
  have hl : (sizeU v).toNat = v.length := sizeU_toNat (by omega)
  unfold loadIntListAscii
  refine ReadsI.cons (extractSize_count v (by omega)) (ReadsI.silent (silent_useVar _)
    (ReadsI.silent (silent_resize_nil _ _ _ (by rw [hl]; exact hc)) ?_))
  rw [hl]
  exact readsI_ints v

theorem loadPointAscii_items (cfg : Cfg) (p : PointEntity) (hc : p.physicalGroupTags.length ≤ cfg.maxCount) :
    ReadsI (loadPointAscii cfg {}) p.items p := by
  unfold loadPointAscii
  refine ReadsI.cons (inInt_item _ _) (ReadsI.cons (inDouble_item _ _) (ReadsI.cons (inDouble_item _ _)
    (ReadsI.cons (inDouble_item _ _) ?_)))
  exact ReadsI.map (loadIntListAscii_items cfg p.physicalGroupTags hc) rfl

theorem loadBoxAscii_items (cfg : Cfg) (p : BoxEntity) 
    (hc : p.physicalGroupTags.length ≤ cfg.maxCount) (hc2 : p.boundaryTags.length ≤ cfg.maxCount) :
    ReadsI (loadBoxAscii cfg {}) p.items p := by
  unfold loadBoxAscii
  refine ReadsI.cons (inInt_item _ _) (ReadsI.cons (inDouble_item _ _) (ReadsI.cons (inDouble_item _ _)
    (ReadsI.cons (inDouble_item _ _) (ReadsI.cons (inDouble_item _ _)
    (ReadsI.cons (inDouble_item _ _) (ReadsI.cons (inDouble_item _ _) ?_))))))
  exact ReadsI.bind (loadIntListAscii_items cfg p.physicalGroupTags hc)
    (ReadsI.map (loadIntListAscii_items cfg p.boundaryTags hc2) rfl)

theorem loadEntitiesAscii41_items (cfg : Cfg) (e : Entities) (hc : ∀ n ∈ e.sizes, n ≤ cfg.maxCount) :
    ReadsI (loadEntitiesAscii41 cfg {}) e.items e := by
  have hp : ∀ p ∈ e.points, ReadsI (loadPointAscii cfg {}) p.items p := by
    intro p hp
    refine loadPointAscii_items cfg p (hc _ ?_)
    refine List.mem_append_left _ (List.mem_append_right _ (List.mem_map.mpr ⟨p, hp, rfl⟩))
  have hb : ∀ p ∈ e.curves ++ e.surfaces ++ e.volumes, ReadsI (loadBoxAscii cfg {}) p.items p := by
    intro p hp
    refine loadBoxAscii_items cfg p (hc _ ?_) (hc _ ?_)
    · exact List.mem_append_right _ (List.mem_flatMap.mpr ⟨p, hp, by simp⟩)
    · exact List.mem_append_right _ (List.mem_flatMap.mpr ⟨p, hp, by simp⟩)
  have hlt := cfg.maxCount_lt
  have c1 := hc e.points.length (by simp [Entities.sizes])
  have c2 := hc e.curves.length (by simp [Entities.sizes])
  have c3 := hc e.surfaces.length (by simp [Entities.sizes])
  have c4 := hc e.volumes.length (by simp [Entities.sizes])
  have l1 : (sizeU e.points).toNat = e.points.length := sizeU_toNat (by omega)
  have l2 : (sizeU e.curves).toNat = e.curves.length := sizeU_toNat (by omega)
  have l3 : (sizeU e.surfaces).toNat = e.surfaces.length := sizeU_toNat (by omega)
  have l4 : (sizeU e.volumes).toNat = e.volumes.length := sizeU_toNat (by omega)
  unfold loadEntitiesAscii41
  refine ReadsI.cons (extractSize_count _ (by omega)) (ReadsI.cons (extractSize_count _ (by omega)) (ReadsI.cons (extractSize_count _ (by omega))
    (ReadsI.cons (extractSize_count _ (by omega)) (ReadsI.silent (silent_assertGood cfg) ?_))))
  refine ReadsI.silent (silent_useVar _) (ReadsI.silent (silent_resize_nil _ _ _ (by omega)) ?_)
  refine ReadsI.silent (silent_useVar _) (ReadsI.silent (silent_resize_nil _ _ _ (by omega)) ?_)
  refine ReadsI.silent (silent_useVar _) (ReadsI.silent (silent_resize_nil _ _ _ (by omega)) ?_)
  refine ReadsI.silent (silent_useVar _) (ReadsI.silent (silent_resize_nil _ _ _ (by omega)) ?_)
  rw [l1, l2, l3, l4]
  refine ReadsI.bind (ReadsI.forEach e.points hp) ?_
  refine ReadsI.bind (ReadsI.forEach e.curves fun p hp => hb p (by simp [hp])) ?_
  refine ReadsI.bind (ReadsI.forEach e.surfaces fun p hp => hb p (by simp [hp])) ?_
  exact ReadsI.last (ReadsI.forEach e.volumes fun p hp => hb p (by simp [hp]))
    (ReadsI.silent (silent_assertGood cfg) (ReadsI.pure e))

theorem loadNodeBlockAscii41_items (cfg : Cfg) (b : NodeBlock) (hb : b.Ok) (hc1 : b.tags.length ≤ cfg.maxCount)
    (hc2 : b.data.length ≤ cfg.maxCount)
    (hpar : cfg.asserts = true → 0 ≤ b.parametric.toInt ∧ b.parametric.toInt ≤ 3) :
    ReadsI (loadNodeBlockAscii41 cfg {}) b.items b := by
  have hlt := cfg.maxCount_lt
  obtain ⟨e, he, he2, he3⟩ := entriesPerNode_ok hb.dim
  have hmul : (b.numNodesInBlock * e).toNat = b.data.length := by
    rw [mul_toNat (by rw [he2, ← hb.data]; omega), he2, hb.data]
  unfold loadNodeBlockAscii41
  refine ReadsI.cons (inInt_item _ _) (ReadsI.cons (inInt_item _ _) (ReadsI.cons (inInt_item _ _)
    (ReadsI.cons (inSize_item _ _) (ReadsI.silent (silent_assertGood cfg) ?_))))
  refine ReadsI.silent (silent_resize_nil _ _ _ (by rw [← hb.tags]; exact hc1)) ?_
  rw [← hb.tags]
  refine ReadsI.bind (readsI_sizes b.tags) (ReadsI.silent (silent_assertGood cfg)
    (ReadsI.silent (p := assertC cfg _) (a := ()) ?_ ?_))
  · intro bs
    unfold assertC
    cases ha : cfg.asserts with
    | false => simp
    | true =>
      obtain ⟨h1, h2⟩ := hpar ha
      have e1 : (0 : Int32) ≤ b.parametric := by rw [Int32.le_iff_toInt_le]; exact h1
      have e2 : b.parametric ≤ 3 := by rw [Int32.le_iff_toInt_le]; exact h2
      simp [e1, e2]
  refine ReadsI.silent (silent_lift he) (ReadsI.silent (silent_resize_nil _ _ _ (by omega)) ?_)
  refine ReadsI.last (readsI_nestedDoubles b.data _ _ e (by simp [hmul]) (by rw [he2, hb.data, hb.tags])
    (by omega)) (ReadsI.silent (silent_assertGood cfg) ?_)
  exact ReadsI.pure _

theorem loadNodesAscii41_items (cfg : Cfg) (n old : Nodes) (h : n.Good cfg) (h0 : old.entityBlocks = [])
    (hpar : cfg.asserts = true → ∀ b ∈ n.entityBlocks, 0 ≤ b.parametric.toInt ∧ b.parametric.toInt ≤ 3) :
    ReadsI (loadNodesAscii41 cfg old) n.items n := by
  unfold loadNodesAscii41
  refine ReadsI.cons (inSize_item _ _) (ReadsI.cons (inSize_item _ _) (ReadsI.cons (inSize_item _ _)
    (ReadsI.cons (inSize_item _ _) (ReadsI.silent (silent_assertGood cfg) ?_))))
  rw [h0]
  refine ReadsI.silent (silent_resize_nil _ _ _ (by rw [← h.blocks]; exact h.fits)) ?_
  rw [← h.blocks]
  exact ReadsI.map (ReadsI.forEach n.entityBlocks fun b hb =>
    loadNodeBlockAscii41_items cfg b (h.ok b hb) (h.fitsB b hb).1 (h.fitsB b hb).2 (fun ha => hpar ha b hb)) rfl

theorem loadElementBlockAscii41_items (cfg : Cfg) (b : ElementBlock) (hb : b.Ok)
    (hc : b.data.length ≤ cfg.maxCount) : ReadsI (loadElementBlockAscii41 cfg {}) b.items b := by
  have hlt := cfg.maxCount_lt
  obtain ⟨n, hn, hl⟩ := hb.data
  obtain ⟨hn1, hn2, _⟩ := nodesPerElement_of_mshNodes hn
  obtain ⟨e1, e2⟩ := nodes_succ hn2
  have hmul : (b.numElementsInBlock * (UInt64.ofNat n + 1)).toNat = b.data.length := by
    rw [mul_toNat (by rw [e1, ← hl]; omega), e1, hl]
  unfold loadElementBlockAscii41
  refine ReadsI.cons (inInt_item _ _) (ReadsI.cons (inInt_item _ _) (ReadsI.cons (inInt_item _ _)
    (ReadsI.cons (inSize_item _ _) (ReadsI.silent (silent_lift hn1) ?_))))
  refine ReadsI.silent (silent_resize_nil _ _ _ (by omega)) ?_
  have := readsI_nestedSizes b.data (List.replicate (b.numElementsInBlock * (UInt64.ofNat n + 1)).toNat 0)
    b.numElementsInBlock.toNat (UInt64.ofNat n + 1) (by simp [hmul]) (by rw [e1, hl]) (by omega)
  have e3 : (UInt64.ofNat n + 1).toNat = (UInt64.ofNat n).toNat + 1 := by rw [e1, e2]
  simp only [e3] at this
  exact ReadsI.last this (ReadsI.silent (silent_assertGood cfg) (ReadsI.pure _))

theorem loadElementsAscii41_items (cfg : Cfg) (n old : Elements) (h : n.Good cfg)
    (h0 : old.entityBlocks = []) : ReadsI (loadElementsAscii41 cfg old) n.items n := by
  unfold loadElementsAscii41
  refine ReadsI.cons (inSize_item _ _) (ReadsI.cons (inSize_item _ _) (ReadsI.cons (inSize_item _ _)
    (ReadsI.cons (inSize_item _ _) (ReadsI.silent (silent_assertGood cfg) ?_))))
  rw [h0]
  refine ReadsI.silent (silent_resize_nil _ _ _ (by rw [← h.blocks]; exact h.fits)) ?_
  rw [← h.blocks]
  exact ReadsI.map (ReadsI.forEach n.entityBlocks fun b hb =>
    loadElementBlockAscii41_items cfg b (h.ok b hb) (h.fitsB b hb)) rfl

theorem loadDataEntryAscii_items (cfg : Cfg) (fields : Int32) (hf : 0 ≤ fields.toInt)
    (isEN : Bool) (e : DataEntry) (he : e.Ok isEN fields) (hz : isEN = false → e.numNodesPerElement = 0)
    (hc : e.data.length ≤ cfg.maxCount) :
    ReadsI (loadDataEntryAscii cfg (sizeOfInt fields) isEN {}) (e.items isEN) e := by
  have hlt := cfg.maxCount_lt
  unfold loadDataEntryAscii
  refine ReadsI.cons (inSize_item _ _) ?_
  cases isEN with
  | false =>
    have hl : (sizeOfInt fields).toNat = e.data.length := by
      rw [sizeOfInt_toNat hf]
      have : (e.data.length : Int) = fields.toInt := he
      omega
    refine ReadsI.silent (silent_resize_nil _ _ _ (by omega)) ?_
    rw [hl]
    obtain ⟨t, m, d⟩ := e
    have hz : m = 0 := hz rfl
    subst hz
    exact ReadsI.map (readsI_doubles _) rfl
  | true =>
    obtain ⟨h1, h2⟩ : 0 ≤ e.numNodesPerElement.toInt ∧
      (e.data.length : Int) = fields.toInt * e.numNodesPerElement.toInt := he
    obtain ⟨hm1, hm2⟩ := fields_mul hf h1 h2 (by omega)
    refine ReadsI.cons (inInt_item _ _) (ReadsI.silent (silent_resize_nil _ _ _ (by omega)) ?_)
    exact ReadsI.map (readsI_nestedDoubles e.data _ _ _ (by simp [hm1]) hm2 (by omega)) rfl

/-- The items of a data header. -/
def headerItems (h : DataHeader) : List Item :=
  .count h.stringTags :: (h.stringTags.map .name ++
    (.count h.realTags :: (h.realTags.map .real ++ (.count h.intTags :: h.intTags.map .int))))

theorem loadDataHeader_items (cfg : Cfg) (h : DataHeader) (hc1 : h.stringTags.length ≤ cfg.maxCount)
    (hc2 : h.realTags.length ≤ cfg.maxCount) (hc3 : h.intTags.length ≤ cfg.maxCount) :
    ReadsI (loadDataHeader cfg {}) (headerItems h) h := by
  have hlt := cfg.maxCount_lt
  have l1 : (sizeU h.stringTags).toNat = h.stringTags.length := sizeU_toNat (by omega)
  have l2 : (sizeU h.realTags).toNat = h.realTags.length := sizeU_toNat (by omega)
  have l3 : (sizeU h.intTags).toNat = h.intTags.length := sizeU_toNat (by omega)
  unfold loadDataHeader
  refine ReadsI.cons (extractSize_count _ (by omega)) (ReadsI.silent (silent_useVar _)
    (ReadsI.silent (silent_resize_nil _ _ _ (by omega)) ?_))
  rw [l1]
  refine ReadsI.bind (readsI_quoted _) (ReadsI.cons (extractSize_count _ (by omega)) (ReadsI.silent (silent_useVar _)
    (ReadsI.silent (silent_resize_nil _ _ _ (by omega)) ?_)))
  rw [l2]
  refine ReadsI.bind (readsI_doubles _) (ReadsI.cons (extractSize_count _ (by omega)) (ReadsI.silent (silent_useVar _)
    (ReadsI.silent (silent_resize_nil _ _ _ (by omega)) ?_)))
  rw [l3]
  exact ReadsI.last (readsI_ints _) (ReadsI.silent (silent_assertGood cfg) (ReadsI.pure _))

theorem loadData_items (cfg : Cfg) (f : MeshFormat) (ht : f.fileType = 0)
    (isEN : Bool) (d : Data) (hok : d.Ok isEN) (hz : isEN = false → ∀ e ∈ d.entries, e.numNodesPerElement = 0) (hfit : d.Fits cfg) :
    ReadsI (loadData cfg f isEN) (d.items isEN) d := by
  obtain ⟨t0, fields, num, more, hi, hnum, hf, he⟩ := hok.entries
  obtain ⟨c1, c2, c3, c4, c5⟩ := hfit.get
  have e : d.items isEN = headerItems d.header ++ d.entries.flatMap (DataEntry.items isEN) := by
    simp [Data.items, headerItems]
  rw [e]
  unfold loadData
  refine ReadsI.bind (loadDataHeader_items cfg d.header c1 c2 c3) ?_
  simp only [hi]
  have hn : (sizeOfInt num).toNat = d.entries.length := by
    rw [sizeOfInt_toNat (by omega)]; omega
  refine ReadsI.silent (silent_resize_nil _ _ _ (by omega)) ?_
  rw [hn, if_neg (by rw [ht]; decide)]
  refine ReadsI.last (ReadsI.forEach d.entries fun e hm =>
    loadDataEntryAscii_items cfg fields hf isEN e (he e hm) (fun h => hz h e hm) (c5 e hm))
    (ReadsI.silent (silent_assertGood cfg) (ReadsI.pure _))

theorem loadCurveHeader_items (c c0 : Curve) : ReadsI (loadCurveHeader c0) (c.items.take 6) { c with data := c0.data } := by
  unfold loadCurveHeader
  exact (ReadsI.cons (inSize_item _ _) (ReadsI.cons (inSize_item _ _) (ReadsI.cons (inSize_item _ _) (ReadsI.cons (inSize_item _ _) (ReadsI.cons (inSize_item _ _) (ReadsI.cons (inSize_item _ _) (ReadsI.pure _)))))))

theorem loadCurveAscii_items (cfg : Cfg) (c : Curve) (h : c.Ok) (hc : c.data.length ≤ cfg.maxCount) :
    ReadsI (loadCurveAscii cfg {}) c.items c := by
  have hlt := cfg.maxCount_lt
  have hl := h.entries (by omega)
  unfold loadCurveAscii
  refine ReadsI.bind (t1 := c.items.take 6) (loadCurveHeader_items c _) (ReadsI.silent (silent_resize_nil _ _ _ ?_) ?_)
  · show c.numEntries.toNat ≤ _
    omega
  · show ReadsI (forEach inDouble (List.replicate c.numEntries.toNat _) >>= _) _ _
    rw [hl]
    exact ReadsI.map (readsI_doubles _) rfl

theorem loadPatchHeader_items (c c0 : Patch) : ReadsI (loadPatchHeader c0) (c.items.take 8) { c with data := c0.data } := by
  unfold loadPatchHeader
  exact (ReadsI.cons (inSize_item _ _) (ReadsI.cons (inSize_item _ _) (ReadsI.cons (inSize_item _ _) (ReadsI.cons (inSize_item _ _) (ReadsI.cons (inSize_item _ _) (ReadsI.cons (inSize_item _ _) (ReadsI.cons (inSize_item _ _) (ReadsI.cons (inSize_item _ _) (ReadsI.pure _)))))))))

theorem loadPatchAscii_items (cfg : Cfg) (c : Patch) (h : c.Ok) (hc : c.data.length ≤ cfg.maxCount) :
    ReadsI (loadPatchAscii cfg {}) c.items c := by
  have hlt := cfg.maxCount_lt
  have hl := h.entries (by omega)
  unfold loadPatchAscii
  refine ReadsI.bind (t1 := c.items.take 8) (loadPatchHeader_items c _) (ReadsI.silent (silent_resize_nil _ _ _ ?_) ?_)
  · show c.numEntries.toNat ≤ _
    omega
  · show ReadsI (forEach inDouble (List.replicate c.numEntries.toNat _) >>= _) _ _
    rw [hl]
    exact ReadsI.map (readsI_doubles _) rfl

end MshIO
