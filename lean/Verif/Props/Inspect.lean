import Verif.Props.Numeral
import Verif.Props.Robust
import Verif.Props.Shape
import Verif.Proofs.Inspect

/-!
# The example program `msh_inspect` (C52, C53)
-/

namespace MshIO

/-! ## C52 -/

/-- **C52** Integers of at most six digits are printed as such although they are printed as doubles. -/
theorem C52_small_int (t : Int32) (ht : t.toInt.natAbs < 10 ^ 6) (d : Double) (hv : d.val = t.toInt) (hs : d.neg = decide (t.toInt < 0))
    (w : Bytes) (hw : PrintsGeneral 6 d w) : w = intText t.toInt := by
  refine C49_general_unique 6 d _ _ hw ?_
  obtain ⟨l, h1, h2, h3⟩ := decNat_tidy t.toInt.natAbs
  rw [← natText_eq] at h1
  have hsize : (⟨printedSign d, l, none, none⟩ : Numeral).size = (t.toInt.natAbs : ℚ) := by
    unfold Numeral.size Numeral.power Numeral.fracDigits
    simp [h2]
    rfl
  refine ⟨⟨printedSign d, l, none, none⟩, ?_, rfl, ⟨?_, h3, by simp, by simp⟩, fun h0 => ?_, fun h0 => ?_⟩
  · unfold intText printedSign
    rw [hs, h1]
    by_cases c : t.toInt < 0 <;> simp [c, Numeral.text, signText]
  · unfold printedSign; split <;> simp
  · rw [hv] at h0
    have : t.toInt = 0 := by exact_mod_cast h0
    rw [hsize, this]
    simp
  · have hne : t.toInt ≠ 0 := fun h => h0 (by rw [hv, h]; rfl)
    have habs : |d.val| = (t.toInt.natAbs : ℚ) := by
      rw [hv, ← Int.cast_abs, Int.abs_eq_natAbs, Int.cast_natCast]
    set N := t.toInt.natAbs with hN
    have hN0 : N ≠ 0 := by omega
    set X := Nat.log 10 N with hX
    have hX5 : X < 6 := Nat.log_lt_of_lt_pow hN0 ht
    have e1 : 10 ^ X ≤ N := Nat.pow_log_le_self 10 hN0
    have e2 : N < 10 ^ (X + 1) := Nat.lt_pow_succ_log_self (by norm_num) N
    have hp : 10 ^ (5 - X) * 10 ^ X = 10 ^ 5 := by rw [← pow_add]; congr 1; omega
    have hp' : 10 ^ (5 - X) * 10 ^ (X + 1) = 10 ^ 6 := by rw [← pow_add]; congr 1; omega
    have hval : ((N * 10 ^ (5 - X) : ℕ) : ℚ) * 10 ^ ((X : ℤ) - 5) = N := by
      rw [Nat.cast_mul, Nat.cast_pow, Nat.cast_ofNat, mul_assoc, ← zpow_natCast, ← zpow_add₀ (by norm_num)]
      rw [show ((5 - X : ℕ) : ℤ) + ((X : ℤ) - 5) = 0 by omega, zpow_zero, mul_one]
    have h6 : max 6 1 = 6 := rfl
    refine ⟨N * 10 ^ (5 - X), X, ?_, ?_, ?_⟩
    · rw [habs, h6]
      show NearestDecimal 6 _ _ ((X : ℤ) - 5)
      refine ⟨?_, ?_, fun D' x' _ => ?_, fun D' x' _ _ hne' he => ?_⟩
      · show 10 ^ 5 ≤ _
        calc 10 ^ 5 = 10 ^ X * 10 ^ (5 - X) := by rw [Nat.mul_comm, hp]
          _ ≤ _ := Nat.mul_le_mul_right _ e1
      · calc N * 10 ^ (5 - X) < 10 ^ (X + 1) * 10 ^ (5 - X) := Nat.mul_lt_mul_of_pos_right e2 (by positivity)
          _ = 10 ^ 6 := by rw [Nat.mul_comm, hp']
      · rw [hval, sub_self, abs_zero]
        exact abs_nonneg _
      · rw [hval, sub_self, abs_zero, abs_eq_zero, sub_eq_zero] at he
        exact absurd (by rw [he, hval]) hne'
    · rw [hsize, h6]
      exact hval.symm
    · rw [h6]
      simp only [true_iff]
      omega

/-- **C52** What the program prints about integer tags: the double equal to the tag, with six digits. -/
theorem C52_int_tags (t : Int32) : ∃ d : Double, d.val = t.toInt ∧ d.neg = decide (t.toInt < 0) ∧
    PrintsGeneral 6 d (coutDouble (doubleOfInt t)) := by
  obtain ⟨h1, h2, h3⟩ := doubleOfInt_spec t
  exact ⟨_, h2, h3, C49_general_printed 6 _ h1⟩

theorem inspectMain_ok {cfg : Cfg} {bytes : Bytes} {s : MshSpec} (h : loadMsh cfg bytes = .ok s) (hw : s.NoWrap)
    {name : Bytes} {file : Bytes → Option Bytes} (hf : file name = some bytes) {out : Bytes} (hr : Writes (inspectReport s) out) (canOpen : Bool) :
    inspectMain cfg [name] file canOpen =
      ⟨out, if canOpen then some (saveMsh { cfg with fmt := .general 6 } s).1 else none, if canOpen then .ok 0 else .throw .runtimeError⟩ := by
  have hs := C18_saves cfg { cfg with fmt := .general 6 } bytes s h hw
  unfold inspectMain
  simp only
  rw [hf]
  show (match loadMsh cfg bytes with | .ok s => _ | .throw e => _ | .abort => _ | .ub => _ | .hang => _) = _
  rw [h]
  simp only
  rw [hr]
  simp only
  cases canOpen with
  | false => rfl
  | true =>
    show Process.mk _ _ ((saveMsh { cfg with fmt := .general 6 } s).2.bind _) = _
    rw [hs]
    rfl

/-- **C52** `msh_inspect` prints the loaded mesh: every entity, physical group, node with all its coordinates, element with
its nodes, and the node and element data, in this order and in full; doubles with six digits.  Then it saves the mesh,
and succeeds.  The mesh may have parametric nodes on curves only (see C53). -/
theorem C52_inspect (cfg : Cfg) (bytes : Bytes) (s : MshSpec) (h : loadMsh cfg bytes = .ok s) (hw : s.NoWrap)
    (hp : ∀ b ∈ s.nodes.entityBlocks, b.parametric = 0 ∨ (b.parametric = 1 ∧ b.entityDim = 1))
    (name : Bytes) (file : Bytes → Option Bytes) (hf : file name = some bytes) :
    ∃ I : Int32 → Bytes, (∀ t, ∃ d : Double, d.val = t.toInt ∧ d.neg = decide (t.toInt < 0) ∧ PrintsGeneral 6 d (I t)) ∧
      (∀ t, t.toInt.natAbs < 10 ^ 6 → I t = intText t.toInt) ∧
      inspectMain cfg [name] file true =
        ⟨linesText (reportLines (.general 6) I NodeBlock.coords s), some (saveMsh { cfg with fmt := .general 6 } s).1, .ok 0⟩ := by
  refine ⟨fun t => coutDouble (doubleOfInt t), C52_int_tags, fun t ht => ?_, ?_⟩
  · obtain ⟨d, h1, h2, h3⟩ := C52_int_tags t
    exact C52_small_int t ht d h1 h2 _ h3
  · have hpr : ∀ b ∈ s.nodes.entityBlocks, b.Printed ∧ shownColumns b = b.coords := by
      intro b hb
      unfold NodeBlock.Printed shownColumns NodeBlock.coords
      rcases hp b hb with h | ⟨h, h'⟩
      · rw [h]; exact ⟨Or.inr ⟨by decide, by decide, fun h => by cases h⟩, rfl⟩
      · rw [h, h']; exact ⟨Or.inr ⟨by decide, by decide, fun _ => by decide⟩, rfl⟩
    have hr := (inspectReport_iff cfg (C17_shape cfg bytes s h) (C17_fits cfg bytes s h) hw).1 fun b hb => (hpr b hb).1
    have e : ∀ I, reportLines (.general 6) I shownColumns s = reportLines (.general 6) I NodeBlock.coords s := by
      intro I
      unfold reportLines nodesReport
      rw [flatMap_congr' fun b hb => by rw [(hpr b hb).2]]
    rw [e] at hr
    exact inspectMain_ok h hw hf hr true

/-- **C52** If `tmp.msh` cannot be opened, everything is printed all the same, and the program ends with the exception. -/
theorem C52_unwritable (cfg : Cfg) (bytes : Bytes) (s : MshSpec) (h : loadMsh cfg bytes = .ok s) (hw : s.NoWrap)
    (hp : ∀ b ∈ s.nodes.entityBlocks, b.Printed) (name : Bytes) (file : Bytes → Option Bytes) (hf : file name = some bytes) :
    (inspectMain cfg [name] file false).stdout = (inspectMain cfg [name] file true).stdout ∧
    (inspectMain cfg [name] file false).tmp = none ∧ (inspectMain cfg [name] file false).exit = .throw .runtimeError := by
  have hr := (inspectReport_iff cfg (C17_shape cfg bytes s h) (C17_fits cfg bytes s h) hw).1 hp
  rw [inspectMain_ok h hw hf hr true, inspectMain_ok h hw hf hr false]
  exact ⟨rfl, rfl, rfl⟩

/-- **C52** Without exactly one argument the program prints nothing on standard output, writes no file, and returns 1. -/
theorem C52_usage (cfg : Cfg) (args : List Bytes) (h : args.length ≠ 1) (file : Bytes → Option Bytes) (canOpen : Bool) :
    inspectMain cfg args file canOpen = ⟨[], none, .ok 1⟩ := by
  match args, h with
  | [], _ => rfl
  | _ :: _ :: _, _ => rfl
  | [_], h => exact absurd rfl h

/-- **C52** A file that cannot be opened, or cannot be loaded, ends the program as it ends `load_msh`; nothing is printed and
nothing is saved. -/
theorem C52_not_loaded (cfg : Cfg) (name : Bytes) (file : Bytes → Option Bytes) (canOpen : Bool)
    (h : ∀ bytes s, file name = some bytes → loadMsh cfg bytes ≠ .ok s) :
    (inspectMain cfg [name] file canOpen).stdout = [] ∧ (inspectMain cfg [name] file canOpen).tmp = none ∧
    (inspectMain cfg [name] file canOpen).exit =
      match file name with
      | none => .throw .runtimeError
      | some bytes => (loadMsh cfg bytes).bind fun _ => .ok 0 := by
  unfold inspectMain
  cases hf : file name with
  | none => simp only [loadFile, hf, and_self]
  | some bytes =>
    cases hl : loadMsh cfg bytes with
    | ok s => exact absurd hl (h bytes s hf)
    | _ => simp only [loadFile, hf, hl, Outcome.bind, and_self]

/-! ## C53 -/

/-- **C53** The columns printed of a node are `3 + parametric` consecutive numbers of its block, whatever the dimension of its
entity: if the columns exist, this is the output, and the program succeeds. -/
theorem C53_columns (cfg : Cfg) (bytes : Bytes) (s : MshSpec) (h : loadMsh cfg bytes = .ok s) (hw : s.NoWrap)
    (hp : ∀ b ∈ s.nodes.entityBlocks, b.Printed) (name : Bytes) (file : Bytes → Option Bytes) (hf : file name = some bytes) :
    ∃ I : Int32 → Bytes, (∀ t, ∃ d : Double, d.val = t.toInt ∧ d.neg = decide (t.toInt < 0) ∧ PrintsGeneral 6 d (I t)) ∧
      (inspectMain cfg [name] file true).stdout = linesText (reportLines (.general 6) I shownColumns s) ∧
      (inspectMain cfg [name] file true).exit = .ok 0 := by
  have hr := (inspectReport_iff cfg (C17_shape cfg bytes s h) (C17_fits cfg bytes s h) hw).1 hp
  refine ⟨fun t => coutDouble (doubleOfInt t), C52_int_tags, ?_⟩
  rw [inspectMain_ok h hw hf hr true]
  exact ⟨rfl, rfl⟩

/-- **C53** Otherwise, and only then, the program reads past the end of a vector: its behaviour is undefined exactly if some
block with nodes has a `parametric` other than `-3`, …, `1`, or has parametric nodes on a point (or on an entity of negative
dimension). -/
theorem C53_undefined (cfg : Cfg) (bytes : Bytes) (s : MshSpec) (h : loadMsh cfg bytes = .ok s) (hw : s.NoWrap)
    (name : Bytes) (file : Bytes → Option Bytes) (hf : file name = some bytes) :
    (inspectMain cfg [name] file true).exit = .ub ↔
      ∃ b ∈ s.nodes.entityBlocks, b.tags ≠ [] ∧
        (b.parametric.toInt < -3 ∨ 1 < b.parametric.toInt ∨ (b.parametric = 1 ∧ b.entityDim.toInt ≤ 0)) := by
  have hiff : (∃ b ∈ s.nodes.entityBlocks, b.tags ≠ [] ∧
        (b.parametric.toInt < -3 ∨ 1 < b.parametric.toInt ∨ (b.parametric = 1 ∧ b.entityDim.toInt ≤ 0))) ↔
      ¬ ∀ b ∈ s.nodes.entityBlocks, b.Printed := by
    push Not
    refine exists_congr fun b => and_congr_right fun _ => ?_
    unfold NodeBlock.Printed
    constructor
    · rintro ⟨h1, h2⟩ (h3 | ⟨h3, h4, h5⟩)
      · exact h1 h3
      · rcases h2 with h2 | h2 | ⟨h2, h6⟩
        · omega
        · omega
        · have := h5 h2; omega
    · intro hn
      refine ⟨fun h1 => hn (Or.inl h1), ?_⟩
      by_contra hc
      push Not at hc
      exact hn (Or.inr ⟨hc.1, hc.2.1, fun hb => by have := hc.2.2 hb; omega⟩)
  rw [hiff]
  have key := inspectReport_iff cfg (C17_shape cfg bytes s h) (C17_fits cfg bytes s h) hw
  by_cases hp : ∀ b ∈ s.nodes.entityBlocks, b.Printed
  · rw [inspectMain_ok h hw hf (key.1 hp) true]
    refine ⟨fun h => ?_, fun h => absurd hp h⟩
    simp at h
  · have hu := key.2 hp
    refine ⟨fun _ => hp, fun _ => ?_⟩
    unfold inspectMain
    simp only [loadFile, hf, h]
    rcases hr : inspectReport s with ⟨out, o⟩
    rw [hr] at hu
    simp only at hu
    subst hu
    rfl

/-! ## Examples -/

/-- A file name. -/
def nameA : Bytes := b! "a.msh"

/-- A directory with one file. -/
def dirOf (bytes : Bytes) : Bytes → Option Bytes := fun n => if n = nameA then some bytes else none

/-- A mesh with a plain node, a node on a curve with its parameter, an element, and data whose third integer tag is `1`. -/
def inspectFile : Bytes := hdr41 ++ b! "$PhysicalNames\n1\n1 7 \"a \\\"b\\\"\"\n$EndPhysicalNames\n$Entities\n0 1 0 0\n3 0 0 0 1 1 1 1 7 0\n$EndEntities\n$Nodes\n2 2 1 2\n0 1 0 1\n1\n0.5 0 0\n1 3 1 1\n2\n1 0 0 0.25\n$EndNodes\n$Elements\n1 1 5 5\n1 3 1 1\n5 1 2\n$EndElements\n$NodeData\n1\n\"t\"\n1\n0.5\n3\n0\n1\n1\n2 -2.5\n$EndNodeData\n"

/-- What the program prints about it. -/
theorem C52_example : (inspectMain demoCfg [nameA] (dirOf inspectFile) true).stdout = b! "sizeof(int): 4\nsizeof(size_t) 8\nsizeof(double) 8\nNum point entities: 0\nNum curve entities: 1\n  entity tag: 3\n  bounding box min: 0 0 0\n  bounding box max: 1 1 1\n  Num physical groups: 1\n    7 \n  Num boundary points: 0\nNum surface entities: 0\nNum volume entities: 0\nNum physical groups: 1\n  group dim: 1\n  group tag: 7\n  group name: \"a \\\"b\\\"\"\nNum nodes: 2\nNum node blocks: 2\nmin node tag: 1\nmax node tag: 2\n  entity dim: 0\n  entity tag: 1\n  parametric: 0\n  num nodes in block: 1\n    1: 0.5 0 0 \n  entity dim: 1\n  entity tag: 3\n  parametric: 1\n  num nodes in block: 1\n    2: 1 0 0 0.25 \nNum elements: 1\nNum element blocks: 1\nmin element tag: 5\nmax element tag: 5\n  entity dim: 1\n  entity tag: 3\n  entity type: 1\n  num elements in block: 1\n    5: 1 2 \nNode data: \nNum string tags: 1\n\"t\" \nNum real tags: 1\n0.5 \nNum int tags: 3\n0 1 1 \n  2: -2.5 \n" := by
  decide +kernel

/-- The nodes and elements it loads to. -/
theorem inspectFile_loads : ∃ s, loadMsh demoCfg inspectFile = .ok s ∧ s.curves = [] ∧ s.patches = [] ∧
    s.nodes.entityBlocks = [⟨0, 1, 0, 1, [1], [⟨0x3fe0000000000000⟩, ⟨0⟩, ⟨0⟩]⟩,
      ⟨1, 3, 1, 1, [2], [⟨0x3ff0000000000000⟩, ⟨0⟩, ⟨0⟩, ⟨0x3fd0000000000000⟩]⟩] ∧
    s.elements.entityBlocks = [⟨1, 3, 1, 1, [5, 1, 2]⟩] := by
  have h : ((loadMsh demoCfg inspectFile).bind fun s => .ok (s.curves, s.patches, s.nodes.entityBlocks, s.elements.entityBlocks)) = .ok ([], [],
      [⟨0, 1, 0, 1, [1], [⟨0x3fe0000000000000⟩, ⟨0⟩, ⟨0⟩]⟩, ⟨1, 3, 1, 1, [2], [⟨0x3ff0000000000000⟩, ⟨0⟩, ⟨0⟩, ⟨0x3fd0000000000000⟩]⟩],
      [⟨1, 3, 1, 1, [5, 1, 2]⟩]) := by decide +kernel
  cases hl : loadMsh demoCfg inspectFile with
  | ok s =>
    rw [hl] at h
    simp only [Outcome.bind, Outcome.ok.injEq, Prod.mk.injEq] at h
    exact ⟨s, rfl, h⟩
  | _ => rw [hl] at h; simp [Outcome.bind] at h

/-- The file meets the conditions of `C52_inspect`. -/
example : ∃ s, loadMsh demoCfg inspectFile = .ok s ∧ s.NoWrap ∧
    ∀ b ∈ s.nodes.entityBlocks, b.parametric = 0 ∨ (b.parametric = 1 ∧ b.entityDim = 1) := by
  obtain ⟨s, h, h1, h2, h3, h4⟩ := inspectFile_loads
  refine ⟨s, h, ⟨?_, ?_, by simp [h1], by simp [h2]⟩, by rw [h3]; decide⟩
  · rw [h3]; decide
  · rw [h4]
    intro b hb n hn
    rw [List.mem_singleton] at hb
    subst hb
    have : n = 2 := (Option.some.inj hn).symm
    subst this
    decide

/-- Two nodes on a surface, with their two parameters. -/
def surfaceFile : Bytes := hdr41 ++ b! "$Nodes\n1 2 1 2\n2 1 1 2\n1\n2\n10 11 12 0.13 0.14\n20 21 22 0.23 0.24\n$EndNodes\n"

/-- **C53** They are printed wrongly: of the first node the last parameter is missing, the second one starts with it. -/
theorem C53_misaligned : (inspectMain demoCfg [nameA] (dirOf surfaceFile) true).stdout = b! "sizeof(int): 4\nsizeof(size_t) 8\nsizeof(double) 8\nNum point entities: 0\nNum curve entities: 0\nNum surface entities: 0\nNum volume entities: 0\nNum physical groups: 0\nNum nodes: 2\nNum node blocks: 1\nmin node tag: 1\nmax node tag: 2\n  entity dim: 2\n  entity tag: 1\n  parametric: 1\n  num nodes in block: 2\n    1: 10 11 12 0.13 \n    2: 0.14 20 21 22 \nNum elements: 0\nNum element blocks: 0\nmin element tag: 0\nmax element tag: 0\n" := by
  decide +kernel

/-- A parametric node on a point. -/
def pointFile : Bytes := hdr41 ++ b! "$Nodes\n1 1 1 1\n0 1 1 1\n1\n10 11 12\n$EndNodes\n"

/-- What it loads to. -/
def pointSpec : MshSpec where
  nodes := ⟨1, 1, 1, 1, [⟨0, 1, 1, 1, [1], [⟨0x4024000000000000⟩, ⟨0x4026000000000000⟩, ⟨0x4028000000000000⟩]⟩]⟩

/-- **C53** A file that loads and saves, but makes the program read past the end of a vector. -/
theorem C53_point : loadMsh demoCfg pointFile = .ok pointSpec ∧ pointSpec.NoWrap ∧
    (saveMsh demoCfg pointSpec).2 = .ok () ∧ (inspectMain demoCfg [nameA] (dirOf pointFile) true).exit = .ub := by
  have hw : pointSpec.NoWrap :=
    ⟨by decide, fun b hb => by simp [pointSpec] at hb, fun c hc => by simp [pointSpec] at hc, fun c hc => by simp [pointSpec] at hc⟩
  have hl : loadMsh demoCfg pointFile = .ok pointSpec := by decide +kernel
  refine ⟨hl, hw, C18_saves _ _ _ _ hl hw, (C53_undefined demoCfg pointFile pointSpec hl hw nameA _ (by simp [dirOf])).mpr ?_⟩
  exact ⟨_, List.mem_singleton_self _, by decide, Or.inr (Or.inr (by decide))⟩

/-- An integer tag with seven digits. -/
def largeTagFile : Bytes := hdr41 ++ b! "$NodeData\n0\n0\n3\n1234567\n1\n0\n$EndNodeData\n"

/-- **C53** It is printed with six digits only. -/
theorem C53_large_tag : (inspectMain demoCfg [nameA] (dirOf largeTagFile) true).stdout = b! "sizeof(int): 4\nsizeof(size_t) 8\nsizeof(double) 8\nNum point entities: 0\nNum curve entities: 0\nNum surface entities: 0\nNum volume entities: 0\nNum physical groups: 0\nNum nodes: 0\nNum node blocks: 0\nmin node tag: 0\nmax node tag: 0\nNum elements: 0\nNum element blocks: 0\nmin element tag: 0\nmax element tag: 0\nNode data: \nNum string tags: 0\n\nNum real tags: 0\n\nNum int tags: 3\n1.23457e+06 1 0 \n" := by
  decide +kernel

end MshIO
