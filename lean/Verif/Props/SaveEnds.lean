import Verif.Proofs.SaveEnds
import Verif.Props.Save
import Verif.Props.Extension

/-!
# Properties: how `save_msh` ends on any spec

C59.
-/

namespace MshIO

/-- **C59** How `save_msh` ends, for every spec: the first step of `saveEnds` (Spec/SaveEnds) that does not succeed decides. -/
theorem C59_save_ends (cfg : Cfg) (s : MshSpec) (hm : s.InMemory) : (saveMsh cfg s).2 = saveEnds cfg s := saveMsh_ends cfg s hm

theorem inOrder_iff (l : List (Outcome Unit)) : inOrder l = .ok () ↔ ∀ o ∈ l, o = .ok () := by
  induction l with
  | nil => simp [inOrder]
  | cons a l ih =>
    cases a with
    | ok u => rw [show (Outcome.ok u :: l) = .ok () :: l from rfl, inOrder_ok, ih]; simp
    | _ => simp [inOrder]

theorem inOrder_mem {P : Outcome Unit → Prop} (h0 : P (.ok ())) : ∀ (l : List (Outcome Unit)), (∀ o ∈ l, P o) → P (inOrder l)
  | [], _ => h0
  | .ok _ :: l, h => inOrder_mem h0 l fun o ho => h o (List.mem_cons_of_mem _ ho)
  | .throw e :: l, h => h _ List.mem_cons_self
  | .abort :: l, h => h _ List.mem_cons_self
  | .ub :: l, h => h _ List.mem_cons_self
  | .hang :: l, h => h _ List.mem_cons_self

theorem blocksEnd_iff {α : Type} (ends : α → Outcome Unit) (v : List α) (n : Nat) :
    blocksEnd ends v n = .ok () ↔ n ≤ v.length ∧ ∀ b ∈ v.take n, ends b = .ok () := by
  unfold blocksEnd
  rw [inOrder_iff]
  have hw : within v.length n = .ok () ↔ n ≤ v.length := by
    unfold within; split <;> simp_all
  constructor
  · exact fun h => ⟨hw.mp (h _ (by simp)), fun b hb => h _ (List.mem_append_left _ (List.mem_map_of_mem hb))⟩
  · rintro ⟨h1, h2⟩ o ho
    rcases List.mem_append.mp ho with ho | ho
    · obtain ⟨b, hb, rfl⟩ := List.mem_map.mp ho
      exact h2 b hb
    · rw [List.mem_singleton.mp ho]; exact hw.mpr h1

/-- **C59** Nothing else can happen: `save_msh` throws nothing but `UnsupportedFeature` and `InvalidFormat`, never loops for ever, and is stopped by an assertion only in debug builds with the extension. -/
theorem C59_outcomes (cfg : Cfg) (s : MshSpec) (hm : s.InMemory) :
    (saveMsh cfg s).2 = .ok () ∨ (saveMsh cfg s).2 = .throw .unsupportedFeature ∨ (saveMsh cfg s).2 = .throw .invalidFormat ∨
      (saveMsh cfg s).2 = .abort ∧ cfg.asserts = true ∧ cfg.nanospline = true ∨ (saveMsh cfg s).2 = .ub := by
  rw [C59_save_ends cfg s hm]
  let P (o : Outcome Unit) := o = .ok () ∨ o = .throw .unsupportedFeature ∨ o = .throw .invalidFormat ∨ o = .abort ∧ cfg.asserts = true ∧ cfg.nanospline = true ∨ o = .ub
  have p0 : P (.ok ()) := Or.inl rfl
  have pw : ∀ a b, P (within a b) := fun a b => by
    unfold within
    split
    · exact p0
    · exact Or.inr (Or.inr (Or.inr (Or.inr rfl)))
  have pv : P (versionEnds s.meshFormat) := by
    unfold versionEnds
    split
    · exact p0
    · exact Or.inr (Or.inl rfl)
  have pd : ∀ ds, P (dataEnds s.meshFormat ds) := fun ds => by
    unfold dataEnds
    split
    · exact Or.inr (Or.inr (Or.inl rfl))
    · exact p0
  have pb : ∀ {α : Type} (ends : α → Outcome Unit) (v : List α) (n : Nat), (∀ b, P (ends b)) → P (blocksEnd ends v n) := fun ends v n h =>
    inOrder_mem p0 _ fun o ho => by
      rcases List.mem_append.mp ho with ho | ho
      · obtain ⟨b, -, rfl⟩ := List.mem_map.mp ho
        exact h b
      · rw [List.mem_singleton.mp ho]; exact pw _ _
  have p2 : ∀ {a b : Outcome Unit}, P a → P b → P (inOrder [a, b]) := fun ha hb => inOrder_mem p0 _ (by simpa using ⟨ha, hb⟩)
  have pn : ∀ b, P (NodeBlock.ends s.meshFormat b) := fun b => by
    unfold NodeBlock.ends
    simp only
    split
    · exact Or.inr (Or.inr (Or.inr (Or.inr rfl)))
    · split
      · refine p2 (pw _ _) ?_
        split
        · exact p0
        · exact pw _ _
      · split
        · exact p2 (pw _ _) (pw _ _)
        · exact p2 (pw _ _) (pw _ _)
  have pe : ∀ b, P (ElementBlock.ends s.meshFormat b) := fun b => by
    unfold ElementBlock.ends
    split
    · exact p0
    · split
      · exact Or.inr (Or.inl rfl)
      · exact pw _ _
  have pc : cfg.nanospline = true → ∀ len points weights knots, P (controlEnds cfg.asserts s.meshFormat len points weights knots) := fun hn len points weights knots => by
    unfold controlEnds
    simp only
    generalize points * (if weights = true then 4 else 3) + knots = t
    split
    · rename_i h
      exact Or.inr (Or.inr (Or.inr (Or.inl ⟨rfl, h.1, hn⟩)))
    · exact pw _ _
  show P (saveEnds cfg s)
  unfold saveEnds
  refine inOrder_mem p0 _ fun o ho => ?_
  rcases List.mem_append.mp ho with ho | ho
  · simp only [List.mem_cons, List.not_mem_nil, or_false] at ho
    rcases ho with rfl | rfl | rfl | rfl | rfl | rfl
    · split
      · exact p0
      · exact pv
    · split
      · exact p0
      · exact p2 pv (pb _ _ _ pn)
    · split
      · exact p0
      · exact p2 pv (pb _ _ _ pe)
    · exact pd _
    · exact pd _
    · exact pd _
  · split at ho
    · rename_i hn
      rcases List.mem_append.mp ho with ho | ho
      · obtain ⟨c, -, rfl⟩ := List.mem_map.mp ho
        exact pc hn _ _ _ _
      · obtain ⟨c, -, rfl⟩ := List.mem_map.mp ho
        exact pc hn _ _ _ _
    · exact absurd ho List.not_mem_nil

/-- **C59** A text file of version 4.1 is saved without undefined behaviour and without an exception, exactly if no counter is larger than what it counts, and element types are known (builds without the extension). -/
theorem C59_text41 (cfg : Cfg) (s : MshSpec) (hm : s.InMemory) (hx : cfg.nanospline = false) (hv : s.meshFormat.version = b! "4.1") (ht : s.meshFormat.fileType = 0) :
    (saveMsh cfg s).2 = .ok () ↔
      (s.nodes.numNodes ≠ 0 → s.nodes.numEntityBlocks.toNat ≤ s.nodes.entityBlocks.length ∧
        ∀ b ∈ s.nodes.entityBlocks.take s.nodes.numEntityBlocks.toNat, ∃ w, b.rowLength = some w ∧
          b.numNodesInBlock.toNat ≤ b.tags.length ∧ b.numNodesInBlock.toNat * w ≤ b.data.length) ∧
      (s.elements.numElements ≠ 0 → s.elements.numEntityBlocks.toNat ≤ s.elements.entityBlocks.length ∧
        ∀ b ∈ s.elements.entityBlocks.take s.elements.numEntityBlocks.toNat, ∃ k, mshNodes b.elementType = some k ∧ b.numElementsInBlock.toNat * (k + 1) ≤ b.data.length) := by
  have hw : ∀ a b, within a b = .ok () ↔ b ≤ a := fun a b => by unfold within; split <;> simp_all
  have h22 : s.meshFormat.version ≠ b! "2.2" := by rw [hv]; decide
  have hd : ∀ ds, dataEnds s.meshFormat ds = .ok () := fun ds => by
    unfold dataEnds; rw [if_neg (fun h => h.2.2 (Or.inl hv))]
  have hn : ∀ b, NodeBlock.ends s.meshFormat b = .ok () ↔ ∃ w, b.rowLength = some w ∧ b.numNodesInBlock.toNat ≤ b.tags.length ∧ b.numNodesInBlock.toNat * w ≤ b.data.length := by
    intro b
    unfold NodeBlock.ends
    cases b.rowLength with
    | none => simp
    | some w =>
      simp only [if_neg h22, if_pos ht]
      rw [inOrder_iff]
      simp [hw]
  have he : ∀ b, ElementBlock.ends s.meshFormat b = .ok () ↔ ∃ k, mshNodes b.elementType = some k ∧ b.numElementsInBlock.toNat * (k + 1) ≤ b.data.length := by
    intro b
    unfold ElementBlock.ends
    rw [if_neg (fun h => h.2 ht)]
    cases mshNodes b.elementType with
    | none => simp
    | some k => simp [hw]
  rw [C59_save_ends cfg s hm]
  unfold saveEnds
  rw [inOrder_iff, hx, versionEnds_known (Or.inl hv)]
  simp only [hd, inOrder_ok, inOrder_single, ite_self, Bool.false_eq_true, if_false, List.append_nil, List.mem_cons, List.not_mem_nil, or_false, forall_eq_or_imp, forall_eq, true_and, and_true]
  refine and_congr ?_ ?_
  · by_cases h0 : s.nodes.numNodes = 0
    · simp [h0]
    · rw [if_neg h0, blocksEnd_iff]
      simp only [hn]
      exact ⟨fun h _ => h, fun h => h h0⟩
  · by_cases h0 : s.elements.numElements = 0
    · simp [h0]
    · rw [if_neg h0, blocksEnd_iff]
      simp only [he]
      exact ⟨fun h _ => h, fun h => h h0⟩

/-- **C59** What remains after `validate_spec` has accepted a spec: the entries of the element blocks (builds without the extension, known versions, parametric or not, dimensions 0 to 3). -/
theorem C59_validated (cfg : Cfg) (s : MshSpec) (hm : s.InMemory) (hx : cfg.nanospline = false) (hv : validateSpec s = .ok ())
    (hk : s.meshFormat.version = b! "4.1" ∨ s.meshFormat.version = b! "2.2")
    (hp : ∀ b ∈ s.nodes.entityBlocks, (b.parametric = 0 ∨ b.parametric = 1) ∧ 0 ≤ b.entityDim.toInt ∧ b.entityDim.toInt ≤ 3) :
    (saveMsh cfg s).2 = if s.elements.numElements = 0 then .ok () else inOrder (s.elements.entityBlocks.map (ElementBlock.ends s.meshFormat)) := by
  obtain ⟨⟨h1, h2, _, _⟩, hn, _⟩ := (C34_accepts_iff s hm.real).mp hv
  have hw : ∀ {a b}, b ≤ a → within a b = .ok () := within_le
  have hd : ∀ ds, dataEnds s.meshFormat ds = .ok () := fun ds => by
    unfold dataEnds; rw [if_neg (fun h => h.2.2 hk)]
  have hN : blocksEnd (NodeBlock.ends s.meshFormat) s.nodes.entityBlocks s.nodes.numEntityBlocks.toNat = .ok () := by
    rw [blocksEnd_iff]
    refine ⟨by omega, fun b hb => ?_⟩
    replace hb := List.mem_of_mem_take hb
    have hv := hn b hb
    obtain ⟨hp1, hp2, hp3⟩ := hp b hb
    have hl : ∀ n ∈ [b.tags.length, b.data.length], n < 2 ^ 60 := fun n hn =>
      hm n (mem_sizes.mpr (Or.inr (Or.inr (Or.inr (Or.inl (List.mem_flatMap.mpr ⟨b, hb, hn⟩))))))
    have hl1 := hl b.tags.length (by simp)
    have hl2 := hl b.data.length (by simp)
    have hr : ∃ w, b.rowLength = some w ∧ b.wanted = (w : Int) ∧ 3 ≤ w ∧ w ≤ 6 := by
      unfold NodeBlock.rowLength NodeBlock.wanted
      rcases hp1 with e | e <;> rw [e]
      · exact ⟨3, if_neg (by decide), rfl, by omega, by omega⟩
      · refine ⟨(3 + b.entityDim.toInt).toNat, ?_, ?_, by omega, by omega⟩
        · rw [if_pos rfl, if_neg (by omega), Int.emod_eq_of_lt (by omega) (by omega)]
        · rw [if_pos (by decide)]; omega
    obtain ⟨w, hr, hwn, h3, h6⟩ := hr
    have ht : b.tags.length = b.numNodesInBlock.toNat := hv.1.1
    have hmul : b.numNodesInBlock.toNat * w ≤ 2 ^ 60 * 6 := Nat.mul_le_mul (by omega) h6
    have hdat := C34_node_data _ _ b hp2 (by omega) (by rw [hwn]; exact_mod_cast (by omega : b.numNodesInBlock.toNat * w < 2 ^ 64)) hv
    rw [hwn] at hdat
    have hdat : b.data.length = b.numNodesInBlock.toNat * w := by exact_mod_cast hdat
    unfold NodeBlock.ends
    rw [hr]
    simp only
    rw [hw (by omega : b.numNodesInBlock.toNat ≤ b.tags.length), hw (by omega : b.numNodesInBlock.toNat % 2 ^ 61 ≤ b.tags.length), hw hdat.ge,
      hw (by rw [hdat]; exact Nat.mod_le _ _ : b.numNodesInBlock.toNat * w % 2 ^ 61 ≤ b.data.length)]
    have h22 : (if b.numNodesInBlock.toNat = 0 then Outcome.ok () else within b.data.length ((b.numNodesInBlock.toNat - 1) * w + 3)) = .ok () := by
      split
      · rfl
      · rename_i h0
        refine hw ?_
        have : b.numNodesInBlock.toNat * w = (b.numNodesInBlock.toNat - 1) * w + w := by rw [← Nat.succ_mul]; congr 1; omega
        omega
    rw [h22]
    simp [inOrder]
  have hE : blocksEnd (ElementBlock.ends s.meshFormat) s.elements.entityBlocks s.elements.numEntityBlocks.toNat = inOrder (s.elements.entityBlocks.map (ElementBlock.ends s.meshFormat)) := by
    unfold blocksEnd
    rw [h2, List.take_length, hw le_rfl, inOrder_append, inOrder_single]
    cases inOrder (s.elements.entityBlocks.map (ElementBlock.ends s.meshFormat)) <;> rfl
  rw [C59_save_ends cfg s hm]
  unfold saveEnds
  simp only [hx, versionEnds_known hk, hN, hE, hd, inOrder_ok, inOrder_single, ite_self, Bool.false_eq_true, if_false, List.append_nil]
  generalize (if s.elements.numElements = 0 then Outcome.ok () else inOrder (s.elements.entityBlocks.map (ElementBlock.ends s.meshFormat))) = o
  cases o <;> rfl

/-! ## Cases -/

/-- Fewer blocks counted than there are: the others are left out.  More: undefined behaviour. -/
def miscounted (t : Int32) (n : UInt64) : MshSpec := { oneTriangle (b! "4.1") t with nodes := { (oneTriangle (b! "4.1") t).nodes with numEntityBlocks := n } }

example : saveEnds demoCfg (miscounted 0 0) = .ok () := by decide +kernel
example : saveEnds demoCfg (miscounted 0 1) = .ok () := by decide +kernel
example : saveEnds demoCfg (miscounted 0 2) = .ub := by decide +kernel
example : (miscounted 0 2).InMemory := by
  show ∀ n ∈ (miscounted 0 2).sizes, n < 2 ^ 60
  decide
example : saveEnds demoCfg mistyped = .ub := by decide +kernel
/-- The mistyped elements are saved as they are in binary files of version 4.1. -/
example : saveEnds demoCfg { mistyped with meshFormat := ⟨b! "4.1", 1, 8⟩ } = .ok () := by decide +kernel
example : saveEnds demoCfg { mistyped with meshFormat := ⟨b! "4.1", 0, 8⟩ } = .ub := by decide +kernel
/-- An unknown version is noticed before the blocks are looked at. -/
example : saveEnds demoCfg { mistyped with meshFormat := ⟨b! "3.0", 0, 8⟩ } = .throw .unsupportedFeature := by decide +kernel
example : saveEnds demoCfg { meshFormat := ⟨b! "3.0", 1, 8⟩, nodeData := [{}] } = .throw .invalidFormat := by decide +kernel
/-- A curve with too few numbers. -/
def shortCurve (t : Int32) : MshSpec := { meshFormat := ⟨b! "4.1", t, 8⟩, curves := [{ numControlPoints := 2, numKnots := 2, data := List.replicate 7 Double.zero }] }
example : saveEnds demoExt (shortCurve 0) = .abort := by decide +kernel
example : saveEnds { demoExt with asserts := false } (shortCurve 0) = .ub := by decide +kernel
example : saveEnds demoCfg (shortCurve 0) = .ok () := by decide +kernel

end MshIO
