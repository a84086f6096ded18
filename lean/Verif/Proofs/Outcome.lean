import Verif.Proofs.File41
import Verif.Proofs.Write22
import Verif.Spec.Shaped

/-!
# How the writers end

`Goes w`: the writer succeeds.  `OkIff e w P`: it succeeds when `P`, and throws `e` otherwise.
-/

namespace MshIO

/-- The writer succeeds. -/
def Goes (w : Wr Unit) : Prop := w.2 = .ok ()

/-- The writer succeeds when `P` holds, and throws `e` when it does not. -/
def OkIff (e : Exc) (w : Wr Unit) (P : Prop) : Prop := (P → Goes w) ∧ (¬ P → w.2 = .throw e)

theorem Writes.goes {w : Wr Unit} {b : Bytes} (h : Writes w b) : Goes w := by rw [Goes, h]
theorem WritesT.goes {w : Wr Unit} {b : List Bytes} (h : WritesT w b) : Goes w := by
  obtain ⟨_, _, _, h⟩ := h; exact h.goes

theorem Goes.emit (b : Bytes) : Goes (emit b) := rfl
theorem Goes.pure : Goes (pure ()) := rfl

theorem Goes.writes {w : Wr Unit} (h : Goes w) : Writes w w.1 := by
  unfold Goes at h; unfold Writes; rw [← h]; rfl

theorem Goes.bind_snd {a : Wr Unit} (f : Unit → Wr Unit) (ha : Goes a) : (a >>= f).2 = (f ()).2 := by
  rcases a with ⟨x, o⟩
  unfold Goes at ha
  simp only at ha
  subst ha
  rfl

theorem Wr.throw_bind {α β : Type} {a : Wr α} (f : α → Wr β) {e : Exc} (ha : a.2 = .throw e) : (a >>= f).2 = .throw e := by
  rcases a with ⟨x, o⟩
  simp only at ha
  subst ha
  rfl

theorem Goes.bind {a : Wr Unit} {f : Unit → Wr Unit} (ha : Goes a) (hb : Goes (f ())) : Goes (a >>= f) := by
  unfold Goes; rw [ha.bind_snd]; exact hb

theorem Goes.lift {α : Type} {x : Outcome α} {a : α} {f : α → Wr Unit} (hx : x = .ok a)
    (h : Goes (f a)) : Goes (Wr.lift x >>= f) := by
  subst hx; rw [Wr.lift_ok_bind]; exact h

theorem Goes.when {c : Bool} {w : Wr Unit} (h : c = true → Goes w) : Goes (whenW c w) := by
  cases c with
  | true => exact h rfl
  | false => exact Goes.pure

theorem Goes.forW {α : Type} {f : α → Wr Unit} (v : List α) (h : ∀ a ∈ v, Goes (f a)) : Goes (forW f v) := by
  induction v with
  | nil => rfl
  | cons a v ih => exact Goes.bind (h a List.mem_cons_self) (ih fun b hb => h b (List.mem_cons_of_mem _ hb))

theorem Goes.loopW {f : Nat → Wr Unit} (n : Nat) : ∀ i, (∀ j, i ≤ j → j < i + n → Goes (f j)) → Goes (loopW f n i) := by
  induction n with
  | zero => intro i _; rfl
  | succ n ih =>
    intro i h
    exact Goes.bind (h i le_rfl (by omega)) (ih (i + 1) fun j h1 h2 => h j (by omega) (by omega))

theorem OkIff.of_goes {e : Exc} {w : Wr Unit} {P : Prop} (h : Goes w) (hP : P) : OkIff e w P :=
  ⟨fun _ => h, fun hn => (hn hP).elim⟩

theorem OkIff.of_throw {e : Exc} {w : Wr Unit} {P : Prop} (h : w.2 = .throw e) (hP : ¬ P) : OkIff e w P :=
  ⟨fun p => (hP p).elim, fun _ => h⟩

theorem OkIff.congr {e : Exc} {w : Wr Unit} {P Q : Prop} (h : OkIff e w P) (hq : P ↔ Q) : OkIff e w Q :=
  ⟨fun q => h.1 (hq.mpr q), fun q => h.2 fun p => q (hq.mp p)⟩

theorem OkIff.bind {e : Exc} {a : Wr Unit} {f : Unit → Wr Unit} {P Q : Prop} (ha : OkIff e a P)
    (hb : OkIff e (f ()) Q) : OkIff e (a >>= f) (P ∧ Q) := by
  classical
  by_cases hp : P
  · refine ⟨fun h => Goes.bind (ha.1 hp) (hb.1 h.2), fun h => ?_⟩
    rw [(ha.1 hp).bind_snd]
    exact hb.2 fun q => h ⟨hp, q⟩
  · exact ⟨fun h => (hp h.1).elim, fun _ => Wr.throw_bind f (ha.2 hp)⟩

theorem OkIff.goes_bind {e : Exc} {a : Wr Unit} {f : Unit → Wr Unit} {Q : Prop} (ha : Goes a)
    (hb : OkIff e (f ()) Q) : OkIff e (a >>= f) Q :=
  ((OkIff.of_goes ha trivial).bind hb).congr ⟨fun h => h.2, fun h => ⟨trivial, h⟩⟩

theorem OkIff.bind_goes {e : Exc} {a : Wr Unit} {f : Unit → Wr Unit} {Q : Prop} (ha : OkIff e a Q)
    (hb : Goes (f ())) : OkIff e (a >>= f) Q :=
  (ha.bind (OkIff.of_goes hb trivial)).congr ⟨fun h => h.1, fun h => ⟨h, trivial⟩⟩

theorem OkIff.when {e : Exc} {c : Bool} {w : Wr Unit} {P : Prop} (h : c = true → OkIff e w P) :
    OkIff e (whenW c w) (c = true → P) := by
  cases c with
  | true => exact (h rfl).congr ⟨fun p _ => p, fun p => p rfl⟩
  | false => exact OkIff.of_goes Goes.pure (fun h => by cases h)

theorem OkIff.forW {α : Type} {e : Exc} {f : α → Wr Unit} {P : α → Prop} (v : List α)
    (h : ∀ a ∈ v, OkIff e (f a) (P a)) : OkIff e (forW f v) (∀ a ∈ v, P a) := by
  induction v with
  | nil => exact OkIff.of_goes Goes.pure (by simp)
  | cons a v ih =>
    refine ((h a List.mem_cons_self).bind (f := fun _ => MshIO.forW f v)
      (ih fun b hb => h b (List.mem_cons_of_mem _ hb))).congr ?_
    simp

theorem OkIff.exact {e : Exc} {w : Wr Unit} {P : Prop} [Decidable P] (h : OkIff e w P) :
    w.2 = if P then .ok () else .throw e := by
  split
  · exact h.1 (by assumption)
  · exact h.2 (by assumption)

/-! ## Element types -/

theorem assertElementIsSupported_none {t : Int32} (h : mshNodes t = none) :
    assertElementIsSupported t = .throw .unsupportedFeature := by
  by_cases h1 : 1 ≤ t.toInt ∧ t.toInt ≤ 31
  · obtain ⟨n, d, hn, _⟩ := mshNodes_of_range h1.1 h1.2
    rw [h] at hn
    cases hn
  · unfold assertElementIsSupported
    rw [if_pos]
    have e0 : (0 : Int32).toInt = 0 := by decide
    have e32 : (32 : Int32).toInt = 32 := by decide
    simp only [Bool.or_eq_true, decide_eq_true_eq, Int32.le_iff_toInt_le, e0, e32]
    omega

theorem mshNodes_none {t : Int32} (h : mshNodes t = none) : nodesPerElement t = .throw .unsupportedFeature := by
  unfold nodesPerElement
  rw [assertElementIsSupported_none h]
  rfl

/-! ## Sections -/

theorem ElementBlock.Shaped.ok {b : ElementBlock} (h : b.Shaped) {n : Nat} (hn : mshNodes b.elementType = some n) : b.Ok :=
  ⟨n, hn, h n hn⟩

theorem OkIff.block {b : ElementBlock} {w : Wr Unit} (hn : mshNodes b.elementType = none → w.2 = .throw .unsupportedFeature)
    (h : ∀ n, mshNodes b.elementType = some n → Goes w) : OkIff .unsupportedFeature w ((mshNodes b.elementType).isSome = true) := by
  cases he : mshNodes b.elementType with
  | none => exact OkIff.of_throw (hn he) (by simp)
  | some n => exact OkIff.of_goes (h n he) rfl

theorem lift_throw_bind {α β : Type} {e : Exc} {x : Outcome α} (h : x = .throw e) (f : α → Wr β) : (Wr.lift x >>= f).2 = .throw e :=
  Wr.throw_bind f (by subst h; rfl)

theorem elementAscii41_okIff (cfg : Cfg) (b : ElementBlock) (h : b.Shaped) (hc : b.data.length ≤ cfg.maxCount) :
    OkIff .unsupportedFeature (saveElementBlockAscii41 b) ((mshNodes b.elementType).isSome = true) := by
  refine OkIff.block (fun hn => ?_) (fun n hn => (saveElementBlockAscii41_writes cfg b (h.ok hn) hc).goes)
  unfold saveElementBlockAscii41
  rw [(Goes.emit _).bind_snd]
  exact lift_throw_bind (mshNodes_none hn) _

theorem idx_element {j m n k len : Nat} {e : UInt64} (hj : j < m) (hk : k < n) (he : e.toNat = n) (hl : len = m * (n + 1))
    (hlen : len < 2 ^ 60) (hn : n ≤ 56) :
    (UInt64.ofNat j * (e + 1)).toNat = j * (n + 1) ∧ j * (n + 1) < len ∧
    (UInt64.ofNat j * (e + 1) + UInt64.ofNat k + 1).toNat = j * (n + 1) + k + 1 ∧ j * (n + 1) + k + 1 < len := by
  have h1 : (e + 1).toNat = n + 1 := by
    rw [UInt64.toNat_add, he]; simp; omega
  have h2 : j * (n + 1) + (n + 1) ≤ len := by
    rw [hl]
    calc j * (n + 1) + (n + 1) = (j + 1) * (n + 1) := by rw [Nat.add_mul, Nat.one_mul]
      _ ≤ m * (n + 1) := Nat.mul_le_mul_right _ hj
  have h3 := idx_toNat (j := j) (k := 0) (e := e + 1) (by rw [h1]; omega)
  have h4 := idx_toNat (j := j) (k := k) (e := e + 1) (by rw [h1]; omega)
  rw [h1] at h3 h4
  refine ⟨by simpa using h3, by omega, ?_, by omega⟩
  rw [UInt64.toNat_add, h4]
  simp; omega

theorem elementAscii22_okIff (b : ElementBlock) (h : b.Shaped) (hc : b.data.length < 2 ^ 60) :
    OkIff .unsupportedFeature (saveElementBlockAscii22 b) ((mshNodes b.elementType).isSome = true) := by
  refine OkIff.block (fun hn => ?_) (fun n hn => ?_)
  · exact lift_throw_bind (mshNodes_none hn) _
  · obtain ⟨hn1, hn2, hn3⟩ := nodesPerElement_of_mshNodes hn
    have he : (UInt64.ofNat n).toNat = n := ofNat_toNat_lt (by omega)
    refine Goes.lift hn1 (Goes.loopW _ _ fun j _ hj => ?_)
    rw [Nat.zero_add] at hj
    obtain ⟨a1, a2, _, _⟩ := idx_element (k := 0) hj hn3 he (h n hn) hc hn2
    refine Goes.lift (vecGet_ok a1 a2) (Goes.bind (Goes.emit _) (Goes.loopW _ _ fun k _ hk => ?_))
    rw [Nat.zero_add, he] at hk
    obtain ⟨_, _, a3, a4⟩ := idx_element hj hk he (h n hn) hc hn2
    exact Goes.lift (vecGet_ok a3 a4) (Goes.bind (Goes.emit _) (Goes.emit _))

theorem elementBinary22_okIff (b : ElementBlock) (h : b.Shaped) (hc : b.data.length < 2 ^ 60) :
    OkIff .unsupportedFeature (saveElementBlockBinary22 b) ((mshNodes b.elementType).isSome = true) := by
  refine OkIff.block (fun hn => ?_) (fun n hn => ?_)
  · unfold saveElementBlockBinary22
    rw [(Goes.emit _).bind_snd]
    exact lift_throw_bind (mshNodes_none hn) _
  · obtain ⟨hn1, hn2, hn3⟩ := nodesPerElement_of_mshNodes hn
    have he : (UInt64.ofNat n).toNat = n := ofNat_toNat_lt (by omega)
    refine Goes.bind (Goes.emit _) (Goes.lift hn1 (Goes.loopW _ _ fun j _ hj => ?_))
    rw [Nat.zero_add] at hj
    obtain ⟨a1, a2, _, _⟩ := idx_element (k := 0) hj hn3 he (h n hn) hc hn2
    refine Goes.lift (vecGet_ok a1 a2) (Goes.bind (Goes.emit _) (Goes.loopW _ _ fun k _ hk => ?_))
    rw [Nat.zero_add, he] at hk
    obtain ⟨_, _, a3, a4⟩ := idx_element hj hk he (h n hn) hc hn2
    exact Goes.lift (vecGet_ok a3 a4) (Goes.emit _)

theorem pure_goes : Goes (pure () : Wr Unit) := rfl

/-- `save_entities`. -/
theorem saveEntities_okIff (cfg : Cfg) (f : MeshFormat) (e : Entities) :
    OkIff .unsupportedFeature (saveEntities cfg f e) (f.version = b! "4.1" ∨ f.version = b! "2.2") := by
  unfold saveEntities
  split
  · exact OkIff.of_goes Goes.pure (Or.inr (by assumption))
  · refine OkIff.goes_bind (Goes.emit _) ?_
    dsimp only
    split
    · refine OkIff.of_goes ?_ (Or.inl (by assumption))
      split
      · exact Goes.bind (saveEntitiesAscii41_writes cfg e).goes (Goes.emit _)
      · exact Goes.bind (saveEntitiesBinary41_writes e).goes (Goes.emit _)
    · exact OkIff.of_throw rfl (by tauto)

/-- `save_nodes`. -/
theorem saveNodes_okIff (cfg : Cfg) (f : MeshFormat) (n : Nodes) (h : n.Good cfg) :
    OkIff .unsupportedFeature (saveNodes cfg f n) (f.version = b! "4.1" ∨ f.version = b! "2.2") := by
  unfold saveNodes
  refine OkIff.goes_bind (Goes.emit _) ?_
  dsimp only
  split
  · refine OkIff.of_goes ?_ (Or.inl (by assumption))
    split
    · exact Goes.bind (saveNodesAscii41_writes cfg n h).goes (Goes.emit _)
    · exact Goes.bind (saveNodesBinary41_writes cfg n h).goes (Goes.emit _)
  · split
    · refine OkIff.of_goes ?_ (Or.inr (by assumption))
      split
      · unfold saveNodesAscii22
        rw [loopBlocks_eq _ _ _ h.blocks.symm]
        exact Goes.bind (Goes.bind (Goes.emit _) (Goes.forW _ fun b hb => (saveNodeBlockAscii22_writes cfg b (h.ok b hb) (h.fitsB b hb).2).goes)) (Goes.emit _)
      · unfold saveNodesBinary22
        rw [loopBlocks_eq _ _ _ h.blocks.symm]
        exact Goes.bind (Goes.bind (Goes.emit _) (Goes.forW _ fun b hb => (saveNodeBlockBinary22_writes cfg b (h.ok b hb) (h.fitsB b hb).2).goes)) (Goes.emit _)
    · exact OkIff.of_throw rfl (by tauto)

/-- `save_elements`. -/
theorem saveElements_okIff (cfg : Cfg) (f : MeshFormat) (n : Elements) (hbl : n.entityBlocks.length = n.numEntityBlocks.toNat)
    (h : ∀ b ∈ n.entityBlocks, b.Shaped) (hc : ∀ b ∈ n.entityBlocks, b.data.length ≤ cfg.maxCount) :
    OkIff .unsupportedFeature (saveElements f n) ((f.version = b! "4.1" ∨ f.version = b! "2.2") ∧
      (¬ (f.version = b! "4.1" ∧ f.fileType ≠ 0) → ∀ b ∈ n.entityBlocks, (mshNodes b.elementType).isSome = true)) := by
  have hlt := cfg.maxCount_lt
  unfold saveElements
  refine OkIff.goes_bind (Goes.emit _) ?_
  dsimp only
  split
  · rename_i hv
    split
    · rename_i ht
      unfold saveElementsAscii41
      rw [loopBlocks_eq _ _ _ hbl.symm]
      refine (OkIff.bind_goes (OkIff.goes_bind (Goes.emit _)
        (OkIff.forW _ fun b hb => elementAscii41_okIff cfg b (h b hb) (hc b hb))) (Goes.emit _)).congr ?_
      simp [hv, ht]
    · rename_i ht
      exact OkIff.of_goes (Goes.bind (saveElementsBinary41_writes n hbl).goes (Goes.emit _)) (by simp [hv, ht])
  · rename_i hv
    split
    · rename_i hv2
      split
      · unfold saveElementsAscii22
        rw [loopBlocks_eq _ _ _ hbl.symm]
        refine (OkIff.bind_goes (OkIff.goes_bind (Goes.emit _)
          (OkIff.forW _ fun b hb => elementAscii22_okIff b (h b hb) (lt_of_le_of_lt (hc b hb) hlt))) (Goes.emit _)).congr ?_
        simp [hv2]
      · unfold saveElementsBinary22
        rw [loopBlocks_eq _ _ _ hbl.symm]
        refine (OkIff.bind_goes (OkIff.goes_bind (Goes.emit _)
          (OkIff.forW _ fun b hb => elementBinary22_okIff b (h b hb) (lt_of_le_of_lt (hc b hb) hlt))) (Goes.emit _)).congr ?_
        simp [hv2]
    · exact OkIff.of_throw rfl (by tauto)

theorem saveDataHeader_goes (cfg : Cfg) (h : DataHeader) : Goes (saveDataHeader cfg h) := by
  unfold saveDataHeader
  exact Goes.bind (Goes.emit _) (Goes.bind (Goes.forW _ fun _ _ => Goes.emit _) (Goes.bind (Goes.emit _)
    (Goes.bind (Goes.forW _ fun _ _ => Goes.emit _) (Goes.bind (Goes.emit _) (Goes.forW _ fun _ _ => Goes.emit _)))))

/-- `save_data`. -/
theorem saveData_okIff (cfg : Cfg) (f : MeshFormat) (i : Bool) (d : Data) :
    OkIff .invalidFormat (saveData cfg f i d) (¬ (0 < f.fileType) ∨ f.version = b! "4.1" ∨ f.version = b! "2.2") := by
  have hb : ∀ e, Goes (saveDataEntryBinary i e) := fun e =>
    Goes.bind (Goes.emit _) (Goes.bind (Goes.when fun _ => Goes.emit _) (Goes.emit _))
  have ha : ∀ e, Goes (saveDataEntryAscii cfg i e) := fun e =>
    Goes.bind (Goes.emit _) (Goes.bind (Goes.when fun _ => Goes.emit _) (Goes.emit _))
  unfold saveData
  refine OkIff.goes_bind (saveDataHeader_goes cfg _) ?_
  split
  · rename_i ht
    split
    · exact OkIff.of_goes (Goes.forW _ fun e _ => hb e) (by tauto)
    · split
      · exact OkIff.of_goes (Goes.forW _ fun e _ => hb e) (by tauto)
      · exact OkIff.of_throw rfl (by tauto)
  · exact OkIff.of_goes (Goes.forW _ fun e _ => ha e) (by tauto)

theorem saveDataSections_okIff (cfg : Cfg) (f : MeshFormat) (name : Bytes) (i : Bool) (ds : List Data) :
    OkIff .invalidFormat (saveDataSections cfg f name i ds)
      (∀ d ∈ ds, ¬ (0 < f.fileType) ∨ f.version = b! "4.1" ∨ f.version = b! "2.2") :=
  OkIff.forW _ fun d _ => OkIff.goes_bind (Goes.emit _) (OkIff.bind_goes (saveData_okIff cfg f i d) (Goes.emit _))

theorem saveCurves_goes (cfg : Cfg) (f : MeshFormat) (cs : List Curve) (h : ∀ c ∈ cs, c.Ok) (hl : ∀ c ∈ cs, c.data.length < 2 ^ 60) :
    Goes (saveCurves cfg f cs) := by
  unfold saveCurves
  refine Goes.bind (Goes.emit _) (Goes.bind (Goes.emit _) ?_)
  dsimp only
  split
  · exact Goes.bind (Goes.forW _ fun c hc => (saveCurveAscii_writes cfg c (h c hc) (lt_trans (hl c hc) (by norm_num))).goes) (Goes.emit _)
  · exact Goes.bind (Goes.forW _ fun c hc => (saveCurveBinary_writes cfg c (h c hc) (lt_trans (hl c hc) (by norm_num))).goes) (Goes.emit _)

theorem savePatches_goes (cfg : Cfg) (f : MeshFormat) (cs : List Patch) (h : ∀ c ∈ cs, c.Ok) (hl : ∀ c ∈ cs, c.data.length < 2 ^ 60) :
    Goes (savePatches cfg f cs) := by
  unfold savePatches
  refine Goes.bind (Goes.emit _) (Goes.bind (Goes.emit _) ?_)
  dsimp only
  split
  · exact Goes.bind (Goes.forW _ fun c hc => (savePatchAscii_writes cfg c (h c hc) (lt_trans (hl c hc) (by norm_num))).goes) (Goes.emit _)
  · exact Goes.bind (Goes.forW _ fun c hc => (savePatchBinary_writes cfg c (h c hc) (lt_trans (hl c hc) (by norm_num))).goes) (Goes.emit _)

/-- The same settings with as much memory as the platform allows. -/
def Cfg.roomy (cfg : Cfg) : Cfg := { cfg with maxCount := 2 ^ 60 - 1, maxCount_lt := by norm_num }

theorem saveMsh_roomy (cfg : Cfg) (s : MshSpec) : saveMsh cfg.roomy s = saveMsh cfg s := rfl

theorem Entities.empty_iff (e : Entities) :
    e.empty = true ↔ e.points = [] ∧ e.curves = [] ∧ e.surfaces = [] ∧ e.volumes = [] := by
  simp [Entities.empty, and_assoc]

theorem pos_iff {x : UInt64} : (decide (x > 0)) = true ↔ x ≠ 0 := by
  simp [UInt64.pos_iff_ne_zero]

theorem OkIff.seq3 {e : Exc} {a b c r : Wr Unit} {P Q R : Prop} (ha : OkIff e a P) (hb : OkIff e b Q) (hc : OkIff e c R) :
    (P ∧ Q ∧ R → (a >>= fun _ => b >>= fun _ => c >>= fun _ => r).2 = r.2) ∧
    (¬ (P ∧ Q ∧ R) → (a >>= fun _ => b >>= fun _ => c >>= fun _ => r).2 = .throw e) := by
  classical
  refine ⟨fun h => ?_, fun h => ?_⟩
  · rw [(ha.1 h.1).bind_snd, (hb.1 h.2.1).bind_snd, (hc.1 h.2.2).bind_snd]
  · by_cases hp : P
    · rw [(ha.1 hp).bind_snd]
      by_cases hq : Q
      · rw [(hb.1 hq).bind_snd]
        exact Wr.throw_bind _ (hc.2 fun hr => h ⟨hp, hq, hr⟩)
      · exact Wr.throw_bind _ (hb.2 hq)
    · exact Wr.throw_bind _ (ha.2 hp)

theorem unsupported_logic {K E1 E2 E3 E4 N M B X : Prop} :
    (¬ K ∧ (E1 ∨ E2 ∨ E3 ∨ E4 ∨ N ∨ M) ∨ K ∧ (M ∧ B ∧ ¬ X)) ↔
    ¬ (((E1 ∨ E2 ∨ E3 ∨ E4) → K) ∧ (N → K) ∧ (M → K ∧ (B → X))) := by
  by_cases K <;> by_cases M <;> simp_all <;> tauto

theorem MshSpec.unsupported_iff (s : MshSpec) : s.Unsupported ↔
    ¬ (((!s.entities.empty) = true → s.meshFormat.version = b! "4.1" ∨ s.meshFormat.version = b! "2.2") ∧
      (decide (s.nodes.numNodes > 0) = true → s.meshFormat.version = b! "4.1" ∨ s.meshFormat.version = b! "2.2") ∧
      (decide (s.elements.numElements > 0) = true → (s.meshFormat.version = b! "4.1" ∨ s.meshFormat.version = b! "2.2") ∧
      (¬ (s.meshFormat.version = b! "4.1" ∧ s.meshFormat.fileType ≠ 0) →
        ∀ b ∈ s.elements.entityBlocks, (mshNodes b.elementType).isSome = true))) := by
  have a1 : (!s.entities.empty) = true ↔ (s.entities.points ≠ [] ∨ s.entities.curves ≠ [] ∨ s.entities.surfaces ≠ [] ∨ s.entities.volumes ≠ []) := by
    rw [Bool.not_eq_true', ← Bool.not_eq_true, Entities.empty_iff]
    simp only [ne_eq]
    generalize (s.entities.points = []) = A
    generalize (s.entities.curves = []) = B
    generalize (s.entities.surfaces = []) = C
    generalize (s.entities.volumes = []) = D
    tauto
  have a2 : (∃ b ∈ s.elements.entityBlocks, mshNodes b.elementType = none) ↔
      ¬ ∀ b ∈ s.elements.entityBlocks, (mshNodes b.elementType).isSome = true := by
    simp
  rw [a1, pos_iff, pos_iff]
  unfold MshSpec.Unsupported MshSpec.HasMesh MshSpec.UnknownElement MshSpec.KnownVersion
  rw [a2]
  exact unsupported_logic

theorem Int32.pos_toInt {t : Int32} : 0 < t ↔ 0 < t.toInt := Int32.lt_iff_toInt_lt

theorem MshSpec.invalidData_iff (s : MshSpec) : s.InvalidData ↔
    ¬ ((decide (s.nodeData.length > 0) = true → ∀ d ∈ s.nodeData, ¬ (0 < s.meshFormat.fileType) ∨ s.meshFormat.version = b! "4.1" ∨ s.meshFormat.version = b! "2.2") ∧
      (decide (s.elementData.length > 0) = true → ∀ d ∈ s.elementData, ¬ (0 < s.meshFormat.fileType) ∨ s.meshFormat.version = b! "4.1" ∨ s.meshFormat.version = b! "2.2") ∧
      (decide (s.elementNodeData.length > 0) = true → ∀ d ∈ s.elementNodeData, ¬ (0 < s.meshFormat.fileType) ∨ s.meshFormat.version = b! "4.1" ∨ s.meshFormat.version = b! "2.2")) := by
  have key : ∀ (v : List Data) (P : Prop), (decide (v.length > 0) = true → ∀ d ∈ v, P) ↔ (v = [] ∨ P) := by
    intro v P
    cases v with
    | nil => simp
    | cons a v => simp; exact fun h _ _ => h
  rw [key, key, key, Int32.pos_toInt]
  unfold MshSpec.InvalidData MshSpec.KnownVersion
  simp only [ne_eq]
  generalize (s.meshFormat.version = b! "4.1" ∨ s.meshFormat.version = b! "2.2") = K
  generalize (0 < s.meshFormat.fileType.toInt) = T
  generalize (s.nodeData = []) = A
  generalize (s.elementData = []) = B
  generalize (s.elementNodeData = []) = C
  by_cases K <;> by_cases T <;> simp_all <;> tauto

theorem saveMsh_outcome (cfg : Cfg) (s : MshSpec) (h : s.Shaped cfg.nanospline) (hm : s.InMemory) :
    (s.Unsupported → (saveMsh cfg s).2 = .throw .unsupportedFeature) ∧
    (¬ s.Unsupported → s.InvalidData → (saveMsh cfg s).2 = .throw .invalidFormat) ∧
    (¬ s.Unsupported → ¬ s.InvalidData → (saveMsh cfg s).2 = .ok ()) := by
  have hsz : ∀ n ∈ s.sizes, n ≤ cfg.roomy.maxCount := fun n hn => by have := hm n hn; show n ≤ 2 ^ 60 - 1; omega
  have hg : s.nodes.Good cfg.roomy := by
    refine ⟨h.nodeBlocks, h.node, hsz _ (mem_sizes.mpr (Or.inl (by simp))), fun b hb => ?_⟩
    have : ∀ n ∈ [b.tags.length, b.data.length], n ≤ cfg.roomy.maxCount := fun n hn =>
      hsz n (mem_sizes.mpr (Or.inr (Or.inr (Or.inr (Or.inl (List.mem_flatMap.mpr ⟨b, hb, hn⟩))))))
    exact ⟨this _ (by simp), this _ (by simp)⟩
  have hel : ∀ b ∈ s.elements.entityBlocks, b.data.length ≤ cfg.roomy.maxCount := fun b hb =>
    hsz _ (mem_sizes.mpr (Or.inr (Or.inr (Or.inr (Or.inr (Or.inl (List.mem_map.mpr ⟨b, hb, rfl⟩)))))))
  have hcs : ∀ c ∈ s.curves, c.data.length < 2 ^ 60 := fun c hc => hm _ (mem_sizes.mpr (Or.inr (Or.inr (Or.inr (Or.inr (Or.inr (Or.inr
    (Or.inl (List.mem_map.mpr ⟨c, hc, rfl⟩)))))))))
  have hps : ∀ c ∈ s.patches, c.data.length < 2 ^ 60 := fun c hc => hm _ (mem_sizes.mpr (Or.inr (Or.inr (Or.inr (Or.inr (Or.inr (Or.inr
    (Or.inr (List.mem_map.mpr ⟨c, hc, rfl⟩)))))))))
  rw [← saveMsh_roomy cfg]
  have h1 : Goes (saveMeshFormat s.meshFormat) := Goes.bind (Goes.emit _) (Goes.bind (Goes.emit _)
    (Goes.bind (Goes.when fun _ => Goes.emit _) (Goes.emit _)))
  have h2 : Goes (savePhysicalGroups s.physicalGroups) := Goes.bind (Goes.emit _) (Goes.bind (Goes.emit _)
    (Goes.bind (Goes.forW _ fun _ _ => Goes.emit _) (Goes.emit _)))
  have h3 := OkIff.when (c := !s.entities.empty) fun _ => saveEntities_okIff cfg.roomy s.meshFormat s.entities
  have h4 := OkIff.when (c := decide (s.nodes.numNodes > 0)) fun _ => saveNodes_okIff cfg.roomy s.meshFormat s.nodes hg
  have h5 := OkIff.when (c := decide (s.elements.numElements > 0)) fun _ =>
    saveElements_okIff cfg.roomy s.meshFormat s.elements h.elementBlocks h.element hel
  have h6 := OkIff.when (c := decide (s.nodeData.length > 0)) fun _ =>
    saveDataSections_okIff cfg.roomy s.meshFormat (b! "NodeData") false s.nodeData
  have h7 := OkIff.when (c := decide (s.elementData.length > 0)) fun _ =>
    saveDataSections_okIff cfg.roomy s.meshFormat (b! "ElementData") false s.elementData
  have h8 := OkIff.when (c := decide (s.elementNodeData.length > 0)) fun _ =>
    saveDataSections_okIff cfg.roomy s.meshFormat (b! "ElementNodeData") true s.elementNodeData
  have h9 : Goes (whenW cfg.roomy.nanospline (saveNanosplineFormat s.nanosplineVersion >>= fun _ =>
      whenW (decide (s.curves.length > 0)) (saveCurves cfg.roomy s.meshFormat s.curves) >>= fun _ =>
      whenW (decide (s.patches.length > 0)) (savePatches cfg.roomy s.meshFormat s.patches))) :=
    Goes.when fun he => Goes.bind (Goes.bind (Goes.emit _) (Goes.bind (Goes.emit _) (Goes.emit _)))
      (Goes.bind (Goes.when fun _ => saveCurves_goes _ _ _ (h.curve he) hcs) (Goes.when fun _ => savePatches_goes _ _ _ (h.patch he) hps))
  have e1 : (saveMsh cfg.roomy s).2 = (whenW (!s.entities.empty) (saveEntities cfg.roomy s.meshFormat s.entities) >>= fun _ =>
      whenW (decide (s.nodes.numNodes > 0)) (saveNodes cfg.roomy s.meshFormat s.nodes) >>= fun _ =>
      whenW (decide (s.elements.numElements > 0)) (saveElements s.meshFormat s.elements) >>= fun _ =>
      whenW (decide (s.nodeData.length > 0)) (saveDataSections cfg.roomy s.meshFormat (b! "NodeData") false s.nodeData) >>= fun _ =>
      whenW (decide (s.elementData.length > 0)) (saveDataSections cfg.roomy s.meshFormat (b! "ElementData") false s.elementData) >>= fun _ =>
      whenW (decide (s.elementNodeData.length > 0)) (saveDataSections cfg.roomy s.meshFormat (b! "ElementNodeData") true s.elementNodeData) >>= fun _ =>
      whenW cfg.roomy.nanospline (saveNanosplineFormat s.nanosplineVersion >>= fun _ =>
      whenW (decide (s.curves.length > 0)) (saveCurves cfg.roomy s.meshFormat s.curves) >>= fun _ =>
      whenW (decide (s.patches.length > 0)) (savePatches cfg.roomy s.meshFormat s.patches))).2 := by
    unfold saveMsh
    rw [h1.bind_snd, (Goes.when fun _ => h2).bind_snd]
  rw [e1]
  have A := OkIff.seq3 h3 h4 h5 (r := whenW (decide (s.nodeData.length > 0)) (saveDataSections cfg.roomy s.meshFormat (b! "NodeData") false s.nodeData) >>= fun _ =>
      whenW (decide (s.elementData.length > 0)) (saveDataSections cfg.roomy s.meshFormat (b! "ElementData") false s.elementData) >>= fun _ =>
      whenW (decide (s.elementNodeData.length > 0)) (saveDataSections cfg.roomy s.meshFormat (b! "ElementNodeData") true s.elementNodeData) >>= fun _ =>
      whenW cfg.roomy.nanospline (saveNanosplineFormat s.nanosplineVersion >>= fun _ =>
      whenW (decide (s.curves.length > 0)) (saveCurves cfg.roomy s.meshFormat s.curves) >>= fun _ =>
      whenW (decide (s.patches.length > 0)) (savePatches cfg.roomy s.meshFormat s.patches)))
  have B := OkIff.seq3 h6 h7 h8 (r := whenW cfg.roomy.nanospline (saveNanosplineFormat s.nanosplineVersion >>= fun _ =>
      whenW (decide (s.curves.length > 0)) (saveCurves cfg.roomy s.meshFormat s.curves) >>= fun _ =>
      whenW (decide (s.patches.length > 0)) (savePatches cfg.roomy s.meshFormat s.patches)))
  rw [s.unsupported_iff, s.invalidData_iff]
  refine ⟨fun hu => A.2 hu, fun hu hi => ?_, fun hu hi => ?_⟩
  · rw [A.1 (not_not.mp hu)]
    exact B.2 hi
  · rw [A.1 (not_not.mp hu), B.1 (not_not.mp hi)]
    exact h9

end MshIO
