import Verif.Proofs.File22
import Verif.Proofs.Mesh41
import Verif.Proofs.Outcome

/-!
# Readers that throw after a readable prefix
-/

namespace MshIO

/-- The reader throws once it has seen these words, whatever follows. -/
def FailsT {α : Type} (p : Rd α) (ts : List Bytes) (e : Exc) : Prop :=
  ∀ ps : List (Bytes × Bytes), ps.map Prod.fst = ts → (∀ q ∈ ps, Sep q.2) →
    ∀ w rest, Ws w → p (gs (w ++ flat ps ++ rest)) = .throw e

/-- The reader throws once it has seen these bytes, whatever follows. -/
def FailsB {α : Type} (p : Rd α) (bs : Bytes) (e : Exc) : Prop := ∀ rest, p (gs (bs ++ rest)) = .throw e

section
variable {α β : Type} {e : Exc}

theorem Rd.bind_throws {p : Rd α} {f : α → Rd β} {s : Stream} (h : p s = .throw e) : (p >>= f) s = .throw e := by
  rw [Rd.bind_def, h]

theorem FailsT.first {p : Rd α} {f : α → Rd β} {ts : List Bytes} (h : FailsT p ts e) : FailsT (p >>= f) ts e :=
  fun ps h1 h2 w rest hw => Rd.bind_throws (h ps h1 h2 w rest hw)

theorem FailsB.first {p : Rd α} {f : α → Rd β} {bs : Bytes} (h : FailsB p bs e) : FailsB (p >>= f) bs e :=
  fun rest => Rd.bind_throws (h rest)

theorem FailsT.bind {p : Rd α} {f : α → Rd β} {t1 t2 : List Bytes} {a : α}
    (h1 : ReadsT p t1 a) (h2 : FailsT (f a) t2 e) : FailsT (p >>= f) (t1 ++ t2) e := by
  intro ps hps hK w rest hw
  obtain ⟨p1, p2, rfl, e1, e2⟩ := List.map_eq_append_iff.mp hps
  have k1 : ∀ q ∈ p1, Sep q.2 := fun q hq => hK q (List.mem_append_left _ hq)
  have r1 := h1 p1 e1 k1 w (flat p2 ++ rest) hw
  have r2 := h2 p2 e2 (fun q hq => hK q (List.mem_append_right _ hq)) (lastSep w p1) rest
    (lastSep_of hw fun q hq => (k1 q hq).1)
  have e : w ++ flat (p1 ++ p2) ++ rest = w ++ flat p1 ++ (flat p2 ++ rest) := by
    simp [flat_append]
  rw [e, Rd.bind_ok r1, ← r2]
  simp

theorem FailsB.bind {p : Rd α} {f : α → Rd β} {b1 b2 : Bytes} {a : α}
    (h1 : ReadsB p b1 a) (h2 : FailsB (f a) b2 e) : FailsB (p >>= f) (b1 ++ b2) e := by
  intro rest
  rw [List.append_assoc, Rd.bind_ok (h1 _), h2]

theorem FailsT.cons {p : Rd α} {f : α → Rd β} {t : Bytes} {ts : List Bytes} {a : α}
    (h1 : Tok p t a) (h2 : FailsT (f a) ts e) : FailsT (p >>= f) (t :: ts) e :=
  FailsT.bind (t1 := [t]) h1.readsT h2

theorem FailsT.silent {p : Rd α} {f : α → Rd β} {ts : List Bytes} {a : α}
    (h1 : Silent p a) (h2 : FailsT (f a) ts e) : FailsT (p >>= f) ts e := by
  intro ps hps hK w rest hw
  rw [Rd.bind_ok (h1 _), h2 ps hps hK w rest hw]

theorem FailsB.silent {p : Rd α} {f : α → Rd β} {bs : Bytes} {a : α}
    (h1 : Silent p a) (h2 : FailsB (f a) bs e) : FailsB (p >>= f) bs e := by
  intro rest
  rw [Rd.bind_ok (h1 _), h2]

theorem FailsT.lift {o : Outcome α} {f : α → Rd β} {ts : List Bytes} (h : o = .throw e) :
    FailsT (Rd.lift o >>= f) ts e := by
  intro ps _ _ w rest _
  refine Rd.bind_throws ?_
  subst h; rfl

theorem FailsB.lift {o : Outcome α} {f : α → Rd β} {bs : Bytes} (h : o = .throw e) :
    FailsB (Rd.lift o >>= f) bs e := by
  intro rest
  refine Rd.bind_throws ?_
  subst h; rfl

theorem FailsT.cast {p : Rd α} {t1 t2 : List Bytes} (h : FailsT p t1 e) (ht : t1 = t2) : FailsT p t2 e := by
  subst ht; exact h

theorem FailsB.cast {p : Rd α} {t1 t2 : Bytes} (h : FailsB p t1 e) (ht : t1 = t2) : FailsB p t2 e := by
  subst ht; exact h

theorem FailsT.forEach {γ : Type} {f : α → Rd α} {toks : γ → List Bytes} {g : γ → α} {d : α} {ts : List Bytes} (cs : List γ) (k : Nat)
    (h : ∀ c ∈ cs, ReadsT (f d) (toks c) (g c)) (hf : FailsT (f d) ts e) :
    FailsT (MshIO.forEach f (List.replicate (cs.length + 1 + k) d)) (cs.flatMap toks ++ ts) e := by
  induction cs with
  | nil =>
    rw [List.length_nil, show 0 + 1 + k = k + 1 by omega, List.replicate_succ]
    exact FailsT.first hf
  | cons c cs ih =>
    rw [List.length_cons, show cs.length + 1 + 1 + k = (cs.length + 1 + k) + 1 by omega, List.replicate_succ,
      List.flatMap_cons, List.append_assoc]
    exact FailsT.bind (h c (by simp)) (FailsT.first (ih fun x hx => h x (by simp [hx])))

theorem FailsB.forEach {γ : Type} {f : α → Rd α} {enc : γ → Bytes} {g : γ → α} {d : α} {bs : Bytes} (cs : List γ) (k : Nat)
    (h : ∀ c ∈ cs, ReadsB (f d) (enc c) (g c)) (hf : FailsB (f d) bs e) :
    FailsB (MshIO.forEach f (List.replicate (cs.length + 1 + k) d)) (cs.flatMap enc ++ bs) e := by
  induction cs with
  | nil =>
    rw [List.length_nil, show 0 + 1 + k = k + 1 by omega, List.replicate_succ]
    exact FailsB.first hf
  | cons c cs ih =>
    rw [List.length_cons, show cs.length + 1 + 1 + k = (cs.length + 1 + k) + 1 by omega, List.replicate_succ,
      List.flatMap_cons, List.append_assoc]
    exact FailsB.bind (h c (by simp)) (FailsB.first (ih fun x hx => h x (by simp [hx])))

theorem loopN_split {σ : Type} (f : Nat → σ → Rd σ) (n m i : Nat) (st : σ) :
    loopN f (n + m) i st = (loopN f n i st >>= fun st => loopN f m (i + n) st) := by
  induction n generalizing i st with
  | zero => rw [Nat.zero_add]; rfl
  | succ n ih =>
    rw [show n + 1 + m = (n + m) + 1 by omega]
    funext s
    show (f i st >>= fun st => loopN f (n + m) (i + 1) st) s =
      ((f i st >>= fun st => loopN f n (i + 1) st) >>= fun st => loopN f m (i + (n + 1)) st) s
    rw [Rd.bind_assoc]
    refine congrFun (congrArg (fun g => f i st >>= g) ?_) s
    funext st1
    rw [ih, show i + 1 + n = i + (n + 1) by omega]

end

/-! ## Unsupported element types -/

theorem loadElementBlockAscii41_fails (cfg : Cfg) (b : ElementBlock) (h : mshNodes b.elementType = none) :
    FailsT (loadElementBlockAscii41 cfg {}) [decI32 b.entityDim, decI32 b.entityTag, decI32 b.elementType, decU64 b.numElementsInBlock]
      .unsupportedFeature := by
  unfold loadElementBlockAscii41
  exact FailsT.cons (inInt_tok _ _) (FailsT.cons (inInt_tok _ _) (FailsT.cons (inInt_tok _ _)
    (FailsT.cons (inSize_tok _ _) (FailsT.lift (mshNodes_none h)))))

theorem loadElementBlockBinary41_fails (cfg : Cfg) (b : ElementBlock) (h : mshNodes b.elementType = none) :
    FailsB (loadElementBlockBinary41 cfg {}) (encI32 b.entityDim ++ (encI32 b.entityTag ++ (encI32 b.elementType ++ (encU64 b.numElementsInBlock ++ []))))
      .unsupportedFeature := by
  unfold loadElementBlockBinary41
  exact FailsB.bind (readInt_reads _ _) (FailsB.bind (readInt_reads _ _) (FailsB.bind (readInt_reads _ _)
    (FailsB.bind (readSize_reads _ _) (FailsB.lift (mshNodes_none h)))))

theorem loadElementsAscii41_fails (cfg : Cfg) (n : Elements) (bs : List ElementBlock) (b : ElementBlock) (old : Elements)
    (h0 : old.entityBlocks = []) (hb : ∀ b ∈ bs, b.Ok ∧ b.data.length ≤ cfg.maxCount) (h : mshNodes b.elementType = none)
    (hN : bs.length < n.numEntityBlocks.toNat) (hf : n.numEntityBlocks.toNat ≤ cfg.maxCount) :
    FailsT (loadElementsAscii41 cfg old) (decU64 n.numEntityBlocks :: decU64 n.numElements :: decU64 n.minElementTag :: decU64 n.maxElementTag ::
      (bs.flatMap elementBlockToks ++
        [decI32 b.entityDim, decI32 b.entityTag, decI32 b.elementType, decU64 b.numElementsInBlock])) .unsupportedFeature := by
  unfold loadElementsAscii41
  refine FailsT.cons (inSize_tok _ _) (FailsT.cons (inSize_tok _ _) (FailsT.cons (inSize_tok _ _)
    (FailsT.cons (inSize_tok _ _) (FailsT.silent (silent_assertGood cfg) ?_))))
  rw [h0]
  refine FailsT.silent (silent_resize_nil _ _ _ hf) (FailsT.first ?_)
  rw [show n.numEntityBlocks.toNat = bs.length + 1 + (n.numEntityBlocks.toNat - bs.length - 1) by omega]
  exact FailsT.forEach bs (g := id) _ (fun b hb' => loadElementBlockAscii41_reads cfg b (hb b hb').1 (hb b hb').2)
    (loadElementBlockAscii41_fails cfg b h)

theorem loadElementsBinary41_fails (cfg : Cfg) (n : Elements) (bs : List ElementBlock) (b : ElementBlock) (old : Elements)
    (h0 : old.entityBlocks = []) (hb : ∀ b ∈ bs, b.Ok ∧ b.data.length ≤ cfg.maxCount) (h : mshNodes b.elementType = none)
    (hN : bs.length < n.numEntityBlocks.toNat) (hf : n.numEntityBlocks.toNat ≤ cfg.maxCount) {w : Bytes} (hw : One w) :
    FailsB (loadElementsBinary41 cfg old) (w ++ (encU64 n.numEntityBlocks ++ (encU64 n.numElements ++ (encU64 n.minElementTag ++ (encU64 n.maxElementTag ++
      (bs.flatMap elementBlockEnc ++ (encI32 b.entityDim ++ (encI32 b.entityTag ++ (encI32 b.elementType ++ (encU64 b.numElementsInBlock ++ []))))))))))
      .unsupportedFeature := by
  unfold loadElementsBinary41
  have key : ∀ bs', bs' ≠ [] → ∀ p : Rd Elements, FailsB p bs' .unsupportedFeature →
      FailsB (eatWhiteSpace 1 >>= fun _ => p) (w ++ bs') .unsupportedFeature := by
    intro bs' hne p hp rest
    rw [List.append_assoc, Rd.bind_ok (eat_one hw (by simp [hne])), hp]
  refine key _ ?_ _ ?_
  · intro h
    have := congrArg List.length h
    simp at this
  refine FailsB.bind (readSize_reads _ _) (FailsB.bind (readSize_reads _ _) (FailsB.bind (readSize_reads _ _)
    (FailsB.bind (readSize_reads _ _) (FailsB.silent (silent_assertGood cfg) ?_))))
  rw [h0]
  refine FailsB.silent (silent_resize_nil _ _ _ hf) (FailsB.first ?_)
  rw [show n.numEntityBlocks.toNat = bs.length + 1 + (n.numEntityBlocks.toNat - bs.length - 1) by omega]
  exact FailsB.forEach bs (g := id) _ (fun b hb' => loadElementBlockBinary41_reads cfg b (hb b hb').1 (hb b hb').2)
    (loadElementBlockBinary41_fails cfg b h)

theorem loadElementAscii22_fails (cfg : Cfg) (e : FileElem) (st : Ascii22) (h : mshNodes e.type = none) (hs : e.Small cfg) :
    FailsT (loadElementAscii22 cfg st) (decI32 e.num :: decI32 e.type :: decI32 (Int32.ofNat e.tags.length) :: (e.tags.map decI32 ++ []))
      .unsupportedFeature := by
  have hnt := sizeOfInt_ofNat hs.2
  obtain ⟨v1, r1, l1⟩ := silent_resize cfg st.tags (sizeOfInt (Int32.ofNat e.tags.length)) 0 (by rw [hnt]; exact hs.1)
  rw [hnt] at l1
  unfold loadElementAscii22
  exact FailsT.cons (inIntVar_tok _ _) (FailsT.cons (inIntVar_tok _ _) (FailsT.cons (inIntVar_tok _ _)
      (FailsT.silent (silent_useVar _) (FailsT.silent r1 (FailsT.bind (readsT_ints' e.tags v1 l1)
      (FailsT.silent (silent_useVar _) (FailsT.lift (mshNodes_none h))))))))

theorem loadElementsAscii22_fails (cfg : Cfg) (N : UInt64) (fs : List FileElem) (e : FileElem) (ho : ∀ f ∈ fs, f.Ok) (hs : ∀ f ∈ fs, f.Small cfg)
    (hlen : fs.length ≤ cfg.maxCount) (hfit : ∀ f ∈ fs, f.nodes.length + 1 ≤ cfg.maxCount) (h : mshNodes e.type = none) (hes : e.Small cfg) (hN : fs.length < N.toNat)
    (e0 : Elements) (ents : Entities) (h1 : e0.entityBlocks = []) (h2 : e0.minElementTag = sizeMax) (h3 : e0.maxElementTag = 0) :
    FailsT (loadElementsAscii22 cfg e0 ents) (decU64 N :: (fs.flatMap elemWords ++
      (decI32 e.num :: decI32 e.type :: decI32 (Int32.ofNat e.tags.length) :: (e.tags.map decI32 ++ [])))) .unsupportedFeature := by
  unfold loadElementsAscii22
  refine FailsT.cons (extractSize_tok _) (FailsT.silent (silent_useVar _) (FailsT.first ?_))
  rw [show N.toNat = fs.length + ((N.toNat - fs.length - 1) + 1) by omega, loopN_split]
  obtain ⟨st', r, _⟩ := readsT_loopN (f := fun _ st => loadElementAscii22 cfg st) (toks := elemWords) AsciiInv fs []
    { lo := e0.minElementTag, hi := e0.maxElementTag, blocks := e0.entityBlocks } (by
      intro pre c post st e hi
      have hl : fs.length = pre.length + (post.length + 1) := by
        have := congrArg List.length e
        simpa using this
      have hc : c ∈ fs := by
        have e' : fs = pre ++ c :: post := e
        rw [e']; simp
      exact loadElementAscii22_reads cfg pre c st (ho c hc) (hs c hc) (by omega) (hfit c hc) hi)
    ⟨by rw [h1]; rfl, rfl, by rw [h2]; rfl, by rw [h3]; rfl⟩
  exact FailsT.bind r (FailsT.first (loadElementAscii22_fails cfg e st' h hes))

theorem loadElementGroupBinary22_fails (cfg : Cfg) (N : UInt64) (t c : Int32) (ntags : Nat) (h : mshNodes t = none)
    (ht : ntags ≤ cfg.maxCount ∧ ntags < 2 ^ 31) (st : Binary22) :
    FailsB (loadElementGroupBinary22 cfg N st) (encI32 t ++ (encI32 c ++ (encI32 (Int32.ofNat ntags) ++ []))) .unsupportedFeature := by
  have hnt := sizeOfInt_ofNat ht.2
  obtain ⟨v1, r1, l1⟩ := silent_resize cfg st.tags (sizeOfInt (Int32.ofNat ntags)) 0 (by rw [hnt]; exact ht.1)
  unfold loadElementGroupBinary22
  exact FailsB.bind (readIntVar_reads _) (FailsB.bind (readIntVar_reads _) (FailsB.bind (readIntVar_reads _)
    (FailsB.silent (silent_useVar _) (FailsB.silent r1 (FailsB.silent (silent_useVar _) (FailsB.lift (mshNodes_none h)))))))

theorem loadElementGroups22_fails (cfg : Cfg) (N : Nat) (hN : N ≤ cfg.maxCount) (t c : Int32) (ntags : Nat) (h : mshNodes t = none)
    (ht : ntags ≤ cfg.maxCount ∧ ntags < 2 ^ 31) (gs' : List FileGroup) (hg : ∀ g ∈ gs', g.Ok cfg)
    (hn : ∀ g ∈ gs', ∀ e ∈ g.elems, e.nodes.length + 1 ≤ cfg.maxCount) :
    ∀ (fuel : Nat) (pre : List FileElem) (st : Binary22), gs'.length < fuel →
      pre.length + (gs'.flatMap FileGroup.elems).length < N → BinaryInv pre st →
      FailsB (loadElementGroups22 cfg (UInt64.ofNat N) fuel st)
        (gs'.flatMap FileGroup.bytes ++ (encI32 t ++ (encI32 c ++ (encI32 (Int32.ofNat ntags) ++ [])))) .unsupportedFeature := by
  have hlt := cfg.maxCount_lt
  have hne : ∀ (pre : List FileElem) (st : Binary22), BinaryInv pre st → pre.length < N → ¬ st.processed = UInt64.ofNat N := by
    intro pre st hi hp h
    rw [hi.processed] at h
    have h := congrArg UInt64.toNat h
    rw [ofNat_toNat_lt (by omega), ofNat_toNat_lt (by omega)] at h
    omega
  induction gs' with
  | nil =>
    intro fuel pre st hf hpN hi
    obtain ⟨fuel, rfl⟩ : ∃ k, fuel = k + 1 := ⟨fuel - 1, by simp at hf; omega⟩
    unfold loadElementGroups22
    simp only [List.flatMap_nil, List.length_nil, Nat.add_zero] at hpN
    rw [if_neg (hne pre st hi hpN)]
    exact FailsB.first (loadElementGroupBinary22_fails cfg _ t c ntags h ht st)
  | cons g gs' ih =>
    intro fuel pre st hf hpN hi
    obtain ⟨fuel, rfl⟩ : ∃ k, fuel = k + 1 := ⟨fuel - 1, by simp at hf; omega⟩
    have hgo := hg g (by simp)
    have hpos := List.length_pos_iff.mpr hgo.ne
    simp only [List.flatMap_cons, List.length_append, List.length_cons] at hpN hf
    obtain ⟨st1, h1, i1⟩ := loadElementGroupBinary22_reads cfg N hN pre g hgo (by omega) (hn g (by simp)) st hi
    have h2 := ih (fun g h => hg g (by simp [h])) (fun g h => hn g (by simp [h])) fuel (pre ++ g.elems) st1
      (by omega) (by rw [List.length_append]; omega) i1
    unfold loadElementGroups22
    rw [if_neg (hne pre st hi (by omega)), List.flatMap_cons, List.append_assoc]
    exact FailsB.bind h1 h2

end MshIO
