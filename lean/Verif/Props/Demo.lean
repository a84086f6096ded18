import Verif.Props.Doubles
import Verif.Props.RoundTrip41

/-!
# Concrete specs meeting the hypotheses of the round-trip theorems

`demoSpec` has a physical group with an awkward name, entities, parametric and plain nodes, an
element, and two kinds of data; `demoNano` adds a curve and a patch.
-/

namespace MshIO

/-- 1.0 -/
def dOne : Double := ⟨0x3FF0000000000000⟩
/-- 0.1 -/
def dTenth : Double := ⟨0x3FB999999999999A⟩
/-- π, not a short decimal -/
def dPi : Double := ⟨0x400921FB54442D18⟩
/-- a NaN -/
def dNaN : Double := ⟨0x7FF8000000000001⟩

/-- A spec with some of everything; `x` is used as one of the coordinates. -/
def demoSpec (fmt : MeshFormat) (x : Double) : MshSpec where
  meshFormat := fmt
  physicalGroups := [⟨2, 7, b! "upper \"wing\"\n"⟩]
  entities :=
    { points := [⟨1, dOne, dTenth, dOne, [3]⟩]
      surfaces := [⟨1, dOne, dOne, dOne, dTenth, dTenth, dTenth, [7], [-1, 2]⟩] }
  nodes := ⟨2, 3, 1, 3, [⟨2, 1, 1, 1, [1], [dOne, dTenth, x, dOne, dOne]⟩,
    ⟨2, 1, 0, 2, [2, 3], [dOne, dOne, dOne, dTenth, dOne, dTenth]⟩]⟩
  elements := ⟨1, 1, 9, 9, [⟨2, 1, 2, 1, [9, 1, 2, 3]⟩]⟩
  nodeData := [⟨⟨[b! "temp"], [dTenth], [0, 1, 2]⟩, [⟨1, 0, [dOne]⟩, ⟨2, 0, [x]⟩]⟩]
  elementNodeData := [⟨⟨[b! "a b"], [], [0, 1, 1]⟩, [⟨9, 3, [dOne, dTenth, dOne]⟩]⟩]

/-- The same with a curve and a patch. -/
def demoNano (fmt : MeshFormat) (x : Double) : MshSpec :=
  { demoSpec fmt x with
    nanosplineVersion := b! "1.0"
    curves := [⟨1, 1, 1, 1, 2, 0, [x, dOne, dOne, dTenth, dOne]⟩]
    patches := [⟨1, 1, 1, 1, 1, 1, 0, 1, [dOne, dOne, dOne, dTenth, dOne]⟩] }

theorem demoSpec_ok (fmt : MeshFormat) (x : Double) : (demoSpec fmt x).Ok where
  nodeBlocks := rfl
  node := by
    intro b hb
    simp only [demoSpec, List.mem_cons, List.not_mem_nil, or_false] at hb
    rcases hb with rfl | rfl
    · exact ⟨fun _ => (by decide : 0 ≤ (2 : Int32).toInt ∧ (2 : Int32).toInt < 2 ^ 31 - 3), rfl, rfl⟩
    · exact ⟨by decide, rfl, rfl⟩
  elementBlocks := rfl
  element := by
    intro b hb
    simp only [demoSpec, List.mem_cons, List.not_mem_nil, or_false] at hb
    subst hb
    exact ⟨3, rfl, rfl⟩
  nodeData := by
    intro d hd
    simp only [demoSpec, List.mem_cons, List.not_mem_nil, or_false] at hd
    subst hd
    exact ⟨0, 1, 2, [], rfl, (by decide : (2 : Int32).toInt = (2 : ℕ)), by decide, by
      intro e he
      simp only [List.mem_cons, List.not_mem_nil, or_false] at he
      rcases he with rfl | rfl <;> exact (by decide : (1 : Int) = Int32.toInt 1)⟩
  elementData := by simp [demoSpec]
  elementNodeData := by
    intro d hd
    simp only [demoSpec, List.mem_cons, List.not_mem_nil, or_false] at hd
    subst hd
    exact ⟨0, 1, 1, [], rfl, by decide, by decide, by
      intro e he
      simp only [List.mem_cons, List.not_mem_nil, or_false] at he
      subst he
      exact ⟨by decide, by decide⟩⟩
  curve := by simp [demoSpec]
  patch := by simp [demoSpec]

theorem demoNano_ok (fmt : MeshFormat) (x : Double) : (demoNano fmt x).Ok :=
  let h := demoSpec_ok fmt x
  ⟨h.1, h.2, h.3, h.4, h.5, h.6, h.7, by simp [demoNano, Curve.Ok], by simp [demoNano, Patch.Ok]⟩

theorem demoSpec_fits {cfg : Cfg} (h : 6 ≤ cfg.maxCount) (fmt : MeshFormat) (x : Double) :
    (demoSpec fmt x).Fits cfg where
  all := by
    intro n hn
    have : n ∈ [1,1,0,1,0,2,1,1,0,1,0,0,1,1,2,1,5,2,6,4,1,1,3,2,1,1,1,0,3,1,3] := hn
    simp only [List.mem_cons, List.not_mem_nil, or_false] at this
    omega
  groups := by simp [demoSpec]

theorem demoNano_fits {cfg : Cfg} (h : 6 ≤ cfg.maxCount) (fmt : MeshFormat) (x : Double) :
    (demoNano fmt x).Fits cfg where
  all := by
    intro n hn
    have : n ∈ [1,1,0,1,0,2,1,1,0,1,1,1,1,1,2,1,5,2,6,4,1,1,3,2,1,1,1,0,3,1,3,5,5] := hn
    simp only [List.mem_cons, List.not_mem_nil, or_false] at this
    omega
  groups := by simp [demoNano, demoSpec]

theorem demoSpec_plain (ext : Bool) (fmt : MeshFormat) (x : Double) : (demoSpec fmt x).Plain ext where
  nodes := by simp [demoSpec]
  elements := by simp [demoSpec]
  entries := by simp [demoSpec]
  noExt := by simp [demoSpec]

theorem demoNano_plain (fmt : MeshFormat) (x : Double) : (demoNano fmt x).Plain true where
  nodes := by simp [demoNano, demoSpec]
  elements := by simp [demoNano, demoSpec]
  entries := by simp [demoNano, demoSpec]
  noExt := by simp

theorem demo_tags (fmt : MeshFormat) (x : Double) : ∀ t ∈ (demoNano fmt x).dataTags, t.toNat < 2 ^ 31 := by
  intro t ht
  have : t ∈ ([1, 2, 9] : List UInt64) := ht
  simp only [List.mem_cons, List.not_mem_nil, or_false] at this
  rcases this with rfl | rfl | rfl <;> decide

theorem demo_reals (fmt : MeshFormat) (x : Double) :
    ∀ y ∈ (demoNano fmt x).realTags, Printable (.general 6) y ∧ reread (.general 6) y = y := by
  intro t ht
  have : t ∈ ([dTenth] : List Double) := ht
  simp only [List.mem_cons, List.not_mem_nil, or_false] at this
  subst this
  unfold Printable reread
  exact ⟨by decide +kernel, by decide +kernel⟩

theorem demo_doubles (fmt : MeshFormat) (x : Double) :
    ∀ y ∈ (demoNano fmt x).doubles, y = dOne ∨ y = dTenth ∨ y = x := by
  intro y hy
  simp only [MshSpec.doubles, MshSpec.realTags, demoNano, demoSpec, List.flatMap_cons, List.flatMap_nil,
    List.cons_append, List.nil_append, List.mem_cons, List.not_mem_nil, or_false, List.append_nil] at hy
  tauto

theorem demo_exact : Printable (.general 6) dOne ∧ reread (.general 6) dOne = dOne ∧ Printable (.general 6) dTenth ∧ reread (.general 6) dTenth = dTenth := by
  unfold Printable reread
  exact ⟨by decide +kernel, by decide +kernel, by decide +kernel, by decide +kernel⟩

/-- Builds used for concrete cases: release, debug, debug with extension. -/
def demoDebug : Cfg := ⟨true, false, .general 6, 1000000, by decide⟩
def demoExt : Cfg := ⟨true, true, .general 6, 1000000, by decide⟩
def demo17 : Cfg := ⟨true, true, .general 17, 1000000, by decide⟩

theorem word_10 : Word (b! "1.0") := ⟨by decide, by decide⟩

/-- C01: a spec with a NaN coordinate, an awkward name, entities, nodes, elements, data, a curve and a
patch is reproduced exactly by a v4.1 binary file. -/
example : ∃ file, saveMsh demoExt (demoNano ⟨b! "4.1", 1, 8⟩ dNaN) = (file, .ok ()) ∧
    loadMsh demoExt file = .ok (demoNano ⟨b! "4.1", 1, 8⟩ dNaN) :=
  C01_binary41_exact demoExt _ rfl (demoNano_ok _ _) (demoNano_fits (by decide) _ _) (demoNano_plain _ _)
    (demo_tags _ _) (demo_reals _ _) (fun _ => word_10)

/-- C02: the same for ASCII with short decimals. -/
example : ∃ file, saveMsh demoDebug (demoSpec ⟨b! "4.1", 0, 8⟩ dTenth) = (file, .ok ()) ∧
    loadMsh demoDebug file = .ok (demoSpec ⟨b! "4.1", 0, 8⟩ dTenth) := by
  refine C02_ascii41_exact demoDebug _ rfl (demoSpec_ok _ _) (demoSpec_fits (by decide) _ _)
    (demoSpec_plain _ _ _) (fun y hy => ?_) (fun _ => by decide) (by simp [demoDebug])
  obtain ⟨h1, h2, h3, h4⟩ := demo_exact
  rcases demo_doubles ⟨b! "4.1", 0, 8⟩ dTenth y (by
    rw [mem_doubles] at hy ⊢
    rcases hy with hy | hy | hy | hy | hy | hy
    · exact Or.inl hy
    · exact Or.inr (Or.inl hy)
    · exact Or.inr (Or.inr (Or.inl hy))
    · exact Or.inr (Or.inr (Or.inr (Or.inl hy)))
    · cases hy
    · cases hy) with rfl | rfl | rfl
  · exact ⟨h1, h2⟩
  · exact ⟨h3, h4⟩
  · exact ⟨h3, h4⟩

/-- C02 with a value that is not a short decimal: the loaded spec is the one with `reread` values. -/
example : ∃ file, saveMsh demoExt (demoNano ⟨b! "4.1", 0, 8⟩ dPi) = (file, .ok ()) ∧
    loadMsh demoExt file = .ok ((demoNano ⟨b! "4.1", 0, 8⟩ dPi).convert true id (reread (.general 6)) (reread (.general 6))) := by
  refine C02_ascii41 demoExt _ rfl (demoNano_ok _ _) (demoNano_fits (by decide) _ _) (fun y hy => ?_)
    (fun _ => by decide) (fun _ => word_10)
  obtain ⟨h1, h2, h3, h4⟩ := demo_exact
  rcases demo_doubles _ _ y hy with rfl | rfl | rfl
  · exact h1
  · exact h3
  · show (convertFloat (scanFloat (fmtDouble (.general 6) dPi))).2 = false
    decide +kernel

/-- C07: at precision 17 the same spec is reproduced exactly. -/
example : ∃ file, saveMsh demo17 (demoNano ⟨b! "4.1", 0, 8⟩ dPi) = (file, .ok ()) ∧
    loadMsh demo17 file = .ok (demoNano ⟨b! "4.1", 0, 8⟩ dPi) := by
  refine C07_ascii41_lossless demo17 (C07_lossless_general 17 (le_refl 17)) _ rfl (demoNano_ok _ _) (demoNano_fits (by decide) _ _)
    (demoNano_plain _ _) (fun y hy => ?_) (fun _ => by decide) (fun _ => word_10)
  rcases demo_doubles _ _ y hy with rfl | rfl | rfl <;> decide +kernel

/-- C16: entry tag `2^32 + 5` comes back as `5`, `2^31` as `2^64 - 2^31`. -/
example : wrap32 (2 ^ 32 + 5) = 5 ∧ wrap32 (2 ^ 31) = 2 ^ 64 - 2 ^ 31 := by decide +kernel

end MshIO
