import Verif.Props.Again
import Verif.Proofs.SameFile

/-!
# C67: when two specs have the same file

Saving is as injective as the format allows: two specs get the same file exactly if they agree in everything the file holds.  What a file
holds is said by the round trips: `MshSpec.convert` (C01, C02) and `MshSpec.convert22` (C03, C04).  Every spec here is consistent and within
the limits; text is stable for all finite doubles of normal magnitude (C54_stable_default).
-/

namespace MshIO

/-- A spec to be saved as 4.1 text: consistent, within the limits, every double with stable text. -/
structure Text41Spec (cfg : Cfg) (s : MshSpec) : Prop where
  format : s.meshFormat = ⟨b! "4.1", 0, 8⟩
  ok : s.Ok
  fits : s.Fits cfg
  doubles : ∀ x ∈ s.doubles, StableText cfg.fmt x
  parametric : cfg.asserts = true → ∀ b ∈ s.nodes.entityBlocks, 0 ≤ b.parametric.toInt ∧ b.parametric.toInt ≤ 3
  word : cfg.nanospline = true → Word s.nanosplineVersion

/-- A spec to be saved as 4.1 binary: consistent, within the limits, every real tag of a data section with stable text. -/
structure Binary41Spec (cfg : Cfg) (s : MshSpec) : Prop where
  format : s.meshFormat = ⟨b! "4.1", 1, 8⟩
  ok : s.Ok
  fits : s.Fits cfg
  reals : ∀ x ∈ s.realTags, StableText cfg.fmt x
  word : cfg.nanospline = true → Word s.nanosplineVersion

/-- A spec to be saved as 2.2 text. -/
structure Text22Spec (cfg : Cfg) (d : Int32) (s : MshSpec) : Prop where
  format : s.meshFormat = ⟨b! "2.2", 0, d⟩
  ok : s.Ok
  counted : s.Counted
  fits : s.Fits cfg
  tags : ∀ b ∈ s.elements.entityBlocks, ∀ t ∈ b.data, t.toNat < 2 ^ 31
  doubles : ∀ x ∈ s.doubles22, StableText cfg.fmt x
  range : NodesInRange s.nodes.list s.elements.list
  fits22 : Fits22 cfg s.nodes.list s.elements.list
  word : cfg.nanospline = true → Word s.nanosplineVersion

/-- A spec to be saved as 2.2 binary, all tags below `2^31`. -/
structure Binary22Spec (cfg : Cfg) (d : Int32) (s : MshSpec) : Prop where
  format : s.meshFormat = ⟨b! "2.2", 1, d⟩
  ok : s.Ok
  counted : s.Counted
  fits : s.Fits cfg
  blocks : ∀ b ∈ s.elements.entityBlocks, 0 < b.numElementsInBlock.toNat ∧ b.numElementsInBlock.toNat < 2 ^ 31
  nodeTags : ∀ b ∈ s.nodes.entityBlocks, ∀ t ∈ b.tags, t.toNat < 2 ^ 31
  elementTags : ∀ b ∈ s.elements.entityBlocks, ∀ t ∈ b.data, t.toNat < 2 ^ 31
  dataTags : ∀ t ∈ s.dataTags, t.toNat < 2 ^ 31
  reals : ∀ x ∈ s.realTags, StableText cfg.fmt x
  range : NodesInRange s.nodes.list s.elements.list
  fits22 : Fits22 cfg s.nodes.list s.elements.list
  word : cfg.nanospline = true → Word s.nanosplineVersion

/-- A spec that can be saved in its own format. -/
inductive Savable (cfg : Cfg) (s : MshSpec) : Prop
  | text41 (h : Text41Spec cfg s)
  | binary41 (h : Binary41Spec cfg s)
  | text22 {d : Int32} (h : Text22Spec cfg d s)
  | binary22 {d : Int32} (h : Binary22Spec cfg d s)

private theorem same_load {cfg : Cfg} {s t a b : MshSpec}
    (hs : ∃ file, saveMsh cfg s = (file, .ok ()) ∧ loadMsh cfg file = .ok a)
    (ht : ∃ file, saveMsh cfg t = (file, .ok ()) ∧ loadMsh cfg file = .ok b)
    (h : (saveMsh cfg s).1 = (saveMsh cfg t).1) : a = b := by
  obtain ⟨u, h1, h2⟩ := hs
  obtain ⟨v, h3, h4⟩ := ht
  rw [h1, h3] at h
  rw [show u = v from h, h4] at h2
  exact (Outcome.ok.inj h2).symm

theorem Text41Spec.load {cfg : Cfg} {s : MshSpec} (h : Text41Spec cfg s) :
    ∃ file, saveMsh cfg s = (file, .ok ()) ∧ loadMsh cfg file = .ok (s.convert cfg.nanospline id (reread cfg.fmt) (reread cfg.fmt)) :=
  C02_ascii41 cfg s h.format h.ok h.fits (fun x hx => (h.doubles x hx).1) h.parametric h.word

theorem Binary41Spec.load {cfg : Cfg} {s : MshSpec} (h : Binary41Spec cfg s) :
    ∃ file, saveMsh cfg s = (file, .ok ()) ∧ loadMsh cfg file = .ok (s.convert cfg.nanospline wrap32 (reread cfg.fmt) id) :=
  C01_binary41 cfg s h.format h.ok h.fits (fun x hx => (h.reals x hx).1) h.word

theorem Text22Spec.load {cfg : Cfg} {d : Int32} {s : MshSpec} (h : Text22Spec cfg d s) :
    ∃ file, saveMsh cfg s = (file, .ok ()) ∧
      loadMsh cfg file = .ok (s.convert22 cfg.nanospline id id (reread cfg.fmt) (reread cfg.fmt)) :=
  C04_ascii22 cfg s h.format h.ok h.counted h.fits h.tags (fun x hx => (h.doubles x hx).1) h.range h.fits22 h.word

theorem Binary22Spec.load {cfg : Cfg} {d : Int32} {s : MshSpec} (h : Binary22Spec cfg d s) :
    ∃ file, saveMsh cfg s = (file, .ok ()) ∧ loadMsh cfg file = .ok (s.convert22 cfg.nanospline id id (reread cfg.fmt) id) :=
  C03_binary22 cfg s h.format h.ok h.counted h.fits h.blocks h.nodeTags h.elementTags h.dataTags (fun x hx => (h.reals x hx).1) h.range h.fits22
    h.word

/-- **C67** Same text file of version 4.1: exactly the specs that agree once every double is replaced by what its text says. -/
theorem C67_text41 (cfg : Cfg) (s t : MshSpec) (hs : Text41Spec cfg s) (ht : Text41Spec cfg t) :
    (saveMsh cfg s).1 = (saveMsh cfg t).1 ↔
      s.convert cfg.nanospline id (reread cfg.fmt) (reread cfg.fmt) = t.convert cfg.nanospline id (reread cfg.fmt) (reread cfg.fmt) := by
  refine ⟨same_load hs.load ht.load, fun h => ?_⟩
  rw [← resave_text41 hs.format fun x hx => (hs.doubles x hx).2, ← resave_text41 ht.format fun x hx => (ht.doubles x hx).2, h]

/-- **C67** Same binary file of version 4.1: exactly the specs that agree except in the part of data tags above 32 bits and in real tags with
the same text. -/
theorem C67_binary41 (cfg : Cfg) (s t : MshSpec) (hs : Binary41Spec cfg s) (ht : Binary41Spec cfg t) :
    (saveMsh cfg s).1 = (saveMsh cfg t).1 ↔
      s.convert cfg.nanospline wrap32 (reread cfg.fmt) id = t.convert cfg.nanospline wrap32 (reread cfg.fmt) id := by
  refine ⟨same_load hs.load ht.load, fun h => ?_⟩
  rw [← resave_binary41 hs.format fun x hx => (hs.reals x hx).2, ← resave_binary41 ht.format fun x hx => (ht.reals x hx).2, h]

/-- **C67** Same text file of version 2.2: exactly the specs with the same nodes and elements in the same order, however they are grouped into
blocks, and the same rest without entities (C03_convert22_lists says what `convert22` keeps). -/
theorem C67_text22 (cfg : Cfg) (d : Int32) (s t : MshSpec) (hs : Text22Spec cfg d s) (ht : Text22Spec cfg d t) :
    (saveMsh cfg s).1 = (saveMsh cfg t).1 ↔
      s.convert22 cfg.nanospline id id (reread cfg.fmt) (reread cfg.fmt) = t.convert22 cfg.nanospline id id (reread cfg.fmt) (reread cfg.fmt) := by
  refine ⟨same_load hs.load ht.load, fun h => ?_⟩
  rw [← resave_text22 hs.format hs.ok hs.fits hs.counted (hs.fits22.convert (reread cfg.fmt)) fun x hx => (hs.doubles x hx).2,
    ← resave_text22 ht.format ht.ok ht.fits ht.counted (ht.fits22.convert (reread cfg.fmt)) fun x hx => (ht.doubles x hx).2, h]

/-- **C67** Specs with nothing a 4.1 binary file cannot express (C01_binary41_exact): the same file means the same spec. -/
theorem C67_binary41_exact (cfg : Cfg) (s t : MshSpec) (hs : Binary41Spec cfg s) (ht : Binary41Spec cfg t)
    (hps : s.Plain cfg.nanospline) (hpt : t.Plain cfg.nanospline)
    (hts : ∀ x ∈ s.dataTags, x.toNat < 2 ^ 31) (htt : ∀ x ∈ t.dataTags, x.toNat < 2 ^ 31)
    (hrs : ∀ x ∈ s.realTags, reread cfg.fmt x = x) (hrt : ∀ x ∈ t.realTags, reread cfg.fmt x = x) :
    (saveMsh cfg s).1 = (saveMsh cfg t).1 ↔ s = t := by
  refine ⟨same_load ?_ ?_, fun h => by rw [h]⟩
  · exact C01_binary41_exact cfg s hs.format hs.ok hs.fits hps hts (fun x hx => ⟨(hs.reals x hx).1, hrs x hx⟩) hs.word
  · exact C01_binary41_exact cfg t ht.format ht.ok ht.fits hpt htt (fun x hx => ⟨(ht.reals x hx).1, hrt x hx⟩) ht.word

/-- **C67** The same for 4.1 text, when every double survives as text (short decimals C08, precision 17 C07). -/
theorem C67_text41_exact (cfg : Cfg) (s t : MshSpec) (hs : Text41Spec cfg s) (ht : Text41Spec cfg t)
    (hps : s.Plain cfg.nanospline) (hpt : t.Plain cfg.nanospline)
    (hds : ∀ x ∈ s.doubles, reread cfg.fmt x = x) (hdt : ∀ x ∈ t.doubles, reread cfg.fmt x = x) :
    (saveMsh cfg s).1 = (saveMsh cfg t).1 ↔ s = t := by
  refine ⟨same_load ?_ ?_, fun h => by rw [h]⟩
  · exact C02_ascii41_exact cfg s hs.format hs.ok hs.fits hps (fun x hx => ⟨(hs.doubles x hx).1, hds x hx⟩) hs.parametric hs.word
  · exact C02_ascii41_exact cfg t ht.format ht.ok ht.fits hpt (fun x hx => ⟨(ht.doubles x hx).1, hdt x hx⟩) ht.parametric ht.word

/-- **C67** Two specs of different formats never have the same file: version, file type and data size are all in it. -/
theorem C67_formats (cfg : Cfg) (s t : MshSpec) (hs : Savable cfg s) (ht : Savable cfg t) (h : (saveMsh cfg s).1 = (saveMsh cfg t).1) :
    s.meshFormat = t.meshFormat := by
  have key : ∀ u, Savable cfg u → ∃ v : MshSpec, v.meshFormat = u.meshFormat ∧
      ∃ file, saveMsh cfg u = (file, .ok ()) ∧ loadMsh cfg file = .ok v := by
    intro u hu
    rcases hu with h | h | h | h
    · refine ⟨_, ?_, h.load⟩; rfl
    · refine ⟨_, ?_, h.load⟩; rfl
    · refine ⟨_, ?_, h.load⟩; rfl
    · refine ⟨_, ?_, h.load⟩; rfl
  obtain ⟨a, ha, ha'⟩ := key s hs
  obtain ⟨b, hb, hb'⟩ := key t ht
  rw [← ha, ← hb, same_load ha' hb' h]

/-- **C67** Same binary file of version 2.2: exactly the specs with the same nodes and elements in the same order, the same rest without
entities, and element blocks of the same sizes (a binary file keeps the length of each run of elements; loading forgets it, C54_binary22). -/
theorem C67_binary22 (cfg : Cfg) (d : Int32) (s t : MshSpec) (hs : Binary22Spec cfg d s) (ht : Binary22Spec cfg d t) :
    (saveMsh cfg s).1 = (saveMsh cfg t).1 ↔
      s.convert22 cfg.nanospline id id (reread cfg.fmt) id = t.convert22 cfg.nanospline id id (reread cfg.fmt) id ∧
      s.elements.entityBlocks.map (·.numElementsInBlock) = t.elements.entityBlocks.map (·.numElementsInBlock) := by
  have key := same_binary22 (w := id) (f := reread cfg.fmt) hs.format ht.format hs.ok ht.ok hs.fits ht.fits hs.counted ht.counted hs.blocks ht.blocks
    (fun _ => rfl) (fun x hx => (hs.reals x hx).2) (fun x hx => (ht.reals x hx).2)
  constructor
  · intro h
    have hc := same_load hs.load ht.load h
    refine ⟨hc, (key hc).mp ?_⟩
    obtain ⟨u, h1, _⟩ := hs.load
    obtain ⟨v, h2, _⟩ := ht.load
    rw [h1, h2] at h ⊢
    rw [show u = v from h]
  · intro ⟨hc, hb⟩
    rw [(key hc).mpr hb]

/-! ## Concrete cases -/

theorem demo_text41 (x : Double) (hx : StableText (.general 6) x) : Text41Spec demoExt (demoNano ⟨b! "4.1", 0, 8⟩ x) where
  format := rfl
  ok := demoNano_ok _ _
  fits := demoNano_fits (by decide) _ _
  doubles := fun y hy => by
    rcases demo_doubles _ _ y hy with rfl | rfl | rfl
    · exact demo_stable.1
    · exact demo_stable.2.1
    · exact hx
  parametric := fun _ b hb => by
    simp only [demoNano, demoSpec, List.mem_cons, List.not_mem_nil, or_false] at hb
    rcases hb with rfl | rfl
    · exact ⟨(by decide : 0 ≤ (1 : Int32).toInt), (by decide : (1 : Int32).toInt ≤ 3)⟩
    · exact ⟨(by decide : 0 ≤ (0 : Int32).toInt), (by decide : (0 : Int32).toInt ≤ 3)⟩
  word := fun _ => word_10

theorem demo_binary41 (x : Double) : Binary41Spec demoExt (demoNano ⟨b! "4.1", 1, 8⟩ x) where
  format := rfl
  ok := demoNano_ok _ _
  fits := demoNano_fits (by decide) _ _
  reals := fun y hy => by
    obtain ⟨h1, h2⟩ := demo_reals ⟨b! "4.1", 1, 8⟩ x y hy
    refine ⟨h1, ?_⟩
    show fmtDouble (.general 6) (reread (.general 6) y) = _
    rw [h2]; rfl
  word := fun _ => word_10

/-- π and what its six digits say share a text file, ... -/
example : (saveMsh demoExt (demoNano ⟨b! "4.1", 0, 8⟩ dPi)).1 = (saveMsh demoExt (demoNano ⟨b! "4.1", 0, 8⟩ (reread (.general 6) dPi))).1 := by
  have h : StableText (.general 6) (reread (.general 6) dPi) := by
    unfold StableText Printable reread
    exact ⟨by decide +kernel, by decide +kernel⟩
  refine (C67_text41 demoExt _ _ (demo_text41 dPi demo_stable.2.2) (demo_text41 _ h)).mpr ?_
  have e : reread demoExt.fmt (reread (.general 6) dPi) = reread demoExt.fmt dPi := by
    show reread (.general 6) (reread (.general 6) dPi) = reread (.general 6) dPi
    unfold reread
    decide +kernel
  simp only [MshSpec.convert, demoNano, demoSpec, e, List.map_cons, List.map_nil, Data.convert]
  rfl

/-- ... but not a binary one, ... -/
example : (saveMsh demoExt (demoNano ⟨b! "4.1", 1, 8⟩ dPi)).1 ≠ (saveMsh demoExt (demoNano ⟨b! "4.1", 1, 8⟩ (reread (.general 6) dPi))).1 := by
  intro h
  have h := (C67_binary41 demoExt _ _ (demo_binary41 dPi) (demo_binary41 _)).mp h
  have h : dPi = reread (.general 6) dPi := by
    simpa [MshSpec.convert, demoNano, demoSpec, demoExt] using congrArg MshSpec.curves h
  revert h
  unfold reread
  decide +kernel

/-- ... and a text file is never a binary file. -/
example : (saveMsh demoExt (demoNano ⟨b! "4.1", 0, 8⟩ dPi)).1 ≠ (saveMsh demoExt (demoNano ⟨b! "4.1", 1, 8⟩ dPi)).1 := by
  intro h
  have h := C67_formats demoExt _ _ (.text41 (demo_text41 dPi demo_stable.2.2)) (.binary41 (demo_binary41 dPi)) h
  exact absurd h (show (⟨b! "4.1", 0, 8⟩ : MeshFormat) ≠ ⟨b! "4.1", 1, 8⟩ by decide)

theorem demo_text22 : Text22Spec demoDebug 8 (demoSpec ⟨b! "2.2", 0, 8⟩ dPi) where
  format := rfl
  ok := demoSpec_ok _ _
  counted := demo22_counted _ _
  fits := demoSpec_fits (by decide) _ _
  tags := (demo22_tags _ _).2.1
  doubles := fun y hy => by
    rcases demo22_doubles _ _ y hy with rfl | rfl | rfl
    · exact demo_stable.1
    · exact demo_stable.2.1
    · exact demo_stable.2.2
  range := demo22_range _ _
  fits22 := demo22_fits (by decide) _ _
  word := by simp [demoDebug]

/-- Version 2.2 has no entities: without them the text file is the same. -/
example : (saveMsh demoDebug (demoSpec ⟨b! "2.2", 0, 8⟩ dPi)).1 =
    (saveMsh demoDebug { demoSpec ⟨b! "2.2", 0, 8⟩ dPi with entities := {} }).1 := by
  have h := demo_text22
  refine (C67_text22 demoDebug 8 _ _ h ⟨h.format, ?_, h.counted, ?_, h.tags, h.doubles, h.range, h.fits22, h.word⟩).mpr rfl
  · exact ⟨h.ok.nodeBlocks, h.ok.node, h.ok.elementBlocks, h.ok.element, h.ok.nodeData, h.ok.elementData, h.ok.elementNodeData, h.ok.curve,
      h.ok.patch⟩
  · exact ⟨by decide, by decide⟩

theorem demo_binary22 : Binary22Spec demoDebug 8 demoSplit where
  format := rfl
  ok := demoSplit_ok
  counted := ⟨rfl, rfl⟩
  fits := ⟨by decide, by decide⟩
  blocks := by decide
  nodeTags := by decide
  elementTags := by decide
  dataTags := fun t ht => by cases ht
  reals := fun x hx => by cases hx
  range := by unfold NodesInRange; decide
  fits22 := ⟨by decide, by decide, by decide, by decide⟩
  word := by simp [demoDebug]

/-- The same with another tag for the second element. -/
def demoSplit3 : MshSpec := { demoSplit with elements := ⟨2, 2, 1, 3, [⟨0, 1, 15, 1, [1, 1]⟩, ⟨0, 1, 15, 1, [3, 1]⟩]⟩ }

theorem demoSplit3_ok : demoSplit3.Ok where
  nodeBlocks := rfl
  node := demoSplit_ok.node
  elementBlocks := rfl
  element := by
    intro b hb
    simp only [demoSplit3, List.mem_cons, List.not_mem_nil, or_false] at hb
    rcases hb with rfl | rfl <;> exact ⟨1, rfl, rfl⟩
  nodeData := demoSplit_ok.nodeData
  elementData := demoSplit_ok.elementData
  elementNodeData := demoSplit_ok.elementNodeData
  curve := demoSplit_ok.curve
  patch := demoSplit_ok.patch

theorem demo_binary22_3 : Binary22Spec demoDebug 8 demoSplit3 where
  format := rfl
  ok := demoSplit3_ok
  counted := ⟨rfl, rfl⟩
  fits := ⟨by decide, by decide⟩
  blocks := by decide
  nodeTags := by decide
  elementTags := by decide
  dataTags := fun t ht => by cases ht
  reals := fun x hx => by cases hx
  range := by unfold NodesInRange; decide
  fits22 := ⟨by decide, by decide, by decide, by decide⟩
  word := by simp [demoDebug]

/-- A binary 2.2 file with another element tag is another file. -/
example : (saveMsh demoDebug demoSplit).1 ≠ (saveMsh demoDebug demoSplit3).1 := by
  intro h
  have h := (C67_binary22 demoDebug 8 _ _ demo_binary22 demo_binary22_3).mp h
  exact absurd (congrArg MshSpec.elements h.1) (by decide)

/-- The two elements of `demoSplit` in one block: what is loaded is the same, the file is not. -/
def demoJoined : MshSpec := { demoSplit with elements := ⟨1, 2, 1, 2, [⟨0, 1, 15, 2, [1, 1, 2, 1]⟩]⟩ }

theorem demoJoined_ok : demoJoined.Ok where
  nodeBlocks := rfl
  node := demoSplit_ok.node
  elementBlocks := rfl
  element := by
    intro b hb
    simp only [demoJoined, List.mem_cons, List.not_mem_nil, or_false] at hb
    subst hb
    exact ⟨1, rfl, rfl⟩
  nodeData := demoSplit_ok.nodeData
  elementData := demoSplit_ok.elementData
  elementNodeData := demoSplit_ok.elementNodeData
  curve := demoSplit_ok.curve
  patch := demoSplit_ok.patch

theorem demo_binary22_joined : Binary22Spec demoDebug 8 demoJoined where
  format := rfl
  ok := demoJoined_ok
  counted := ⟨rfl, rfl⟩
  fits := ⟨by decide, by decide⟩
  blocks := by decide
  nodeTags := by decide
  elementTags := by decide
  dataTags := fun t ht => by cases ht
  reals := fun x hx => by cases hx
  range := by unfold NodesInRange; decide
  fits22 := ⟨by decide, by decide, by decide, by decide⟩
  word := by simp [demoDebug]

example : (saveMsh demoDebug demoSplit).1 ≠ (saveMsh demoDebug demoJoined).1 ∧
    demoSplit.convert22 false id id (reread (.general 6)) id = demoJoined.convert22 false id id (reread (.general 6)) id := by
  refine ⟨fun h => ?_, by decide⟩
  have h := (C67_binary22 demoDebug 8 _ _ demo_binary22 demo_binary22_joined).mp h
  exact absurd h.2 (by decide)

end MshIO
