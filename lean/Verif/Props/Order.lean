import Verif.Spec.Header
import Verif.Proofs.Frame22
import Verif.Proofs.SectionUndefined
import Verif.Props.Robust
import Verif.Props.Reject

/-!
# C64: the order of sections in files of either version.  C65: the format section.  C66: the end of the stream.
-/

namespace MshIO

/-! ## C64 -/

theorem boundary_version {cfg : Cfg} {a : Bytes} {spec : MshSpec} (h : Boundary cfg a spec) :
    spec.meshFormat.version = b! "4.1" ∨ spec.meshFormat.version = b! "2.2" := by
  obtain ⟨w, -, h⟩ := h
  exact arrives_version h

/-- **C64.** In a file of either version, the sections that follow a boundary may come in any order that keeps the
order of the equally named ones. -/
theorem C64_section_order (cfg : Cfg) {a : Bytes} {spec spec' : MshSpec} {L M : List (Bytes × Bytes)}
    (ha : Boundary cfg a spec) (hL : Chain cfg spec L spec')
    (hn : ∀ p ∈ L, p.1 ≠ b! "MeshFormat") (hLM : Reorder L M) (b : Bytes) :
    loadMsh cfg (a ++ ((L.map Prod.snd).flatten ++ b)) = loadMsh cfg (a ++ ((M.map Prod.snd).flatten ++ b)) := by
  rcases boundary_version ha with hv | hv
  · exact C25_section_order cfg ha hv hL hn hLM b
  · rw [loadMsh_ext ha, loadMsh_ext ha, loadFull_chain hL, loadFull_chain (chain_reorder22 hLM hv hn hL)]

/-- **C64**, differently named sections: any permutation. -/
theorem C64_permutation (cfg : Cfg) {a : Bytes} {spec spec' : MshSpec} {L M : List (Bytes × Bytes)}
    (ha : Boundary cfg a spec) (hL : Chain cfg spec L spec')
    (hn : ∀ p ∈ L, p.1 ≠ b! "MeshFormat") (hd : (L.map Prod.fst).Nodup) (hLM : L.Perm M) (b : Bytes) :
    loadMsh cfg (a ++ ((L.map Prod.snd).flatten ++ b)) = loadMsh cfg (a ++ ((M.map Prod.snd).flatten ++ b)) :=
  C64_section_order cfg ha hL hn (reorder_of_perm hLM hd) b

/-! ## C65 -/

theorem announces_section {cfg : Cfg} {f : MeshFormat} {A : Bytes} (hf : Accepted f) (hA : Announces f A) (spec : MshSpec) :
    IsSection cfg spec (b! "MeshFormat") A { spec with meshFormat := f } := by
  obtain ⟨w1, w2, w3, w4, w5, hw1, hw2, hw3, hw4, hw5, hA⟩ := hA
  have hv : f.version = b! "2.2" ∨ f.version = b! "4.1" := hf.imp id And.left
  have h8 : ¬ (f.version = b! "4.1" ∧ sizeOfInt f.dataSize ≠ 8) := by
    rintro ⟨h1, h2⟩
    rcases hf with h | ⟨-, h⟩
    · rw [h] at h1; exact absurd h1 (by decide)
    · rw [h] at h2; exact h2 (by decide)
  have key : ∃ body, A = 36 :: b! "MeshFormat" ++ (w1 ++ body) ++ endTag (b! "MeshFormat") ++ w5 ∧
      Rds (loadSection cfg (36 :: b! "MeshFormat") spec) (w1 ++ body) { spec with meshFormat := f } := by
    rcases hA with ⟨h0, hne, rfl⟩ | ⟨h0, rfl⟩
    · refine ⟨f.version ++ (w2 ++ b! "0" ++ (w3 ++ decI32 f.dataSize ++ w4)), by simp [endTag], ?_⟩
      rw [loadSection_meshFormat]
      refine Rds.map (a := f) (fun rest _ => ⟨w4, hw4, ?_⟩) rfl
      have := loadMeshFormat_three (t := 0) (d := f.dataSize) spec.meshFormat hw1.1 hw2 hw3 hv (rest := w4 ++ rest)
        (wsHead_append (Sep.head ⟨hw4, hne⟩))
      rw [if_neg h8, if_neg (by simp)] at this
      have e : gs (w1 ++ (f.version ++ (w2 ++ b! "0" ++ (w3 ++ decI32 f.dataSize ++ w4))) ++ rest) =
          gs (w1 ++ f.version ++ (w2 ++ decI32 0 ++ (w3 ++ decI32 f.dataSize ++ (w4 ++ rest)))) := by
        have : decI32 0 = b! "0" := by decide
        rw [this]; simp
      rw [e, this, ← h0]
      rfl
    · refine ⟨f.version ++ (w2 ++ decI32 f.fileType ++ (w3 ++ decI32 f.dataSize ++ (b! "\n" ++ ([1, 0, 0, 0] ++ w4)))),
        by simp [endTag], ?_⟩
      rw [loadSection_meshFormat]
      refine Rds.map (a := f) (fun rest _ => ⟨w4, hw4, ?_⟩) rfl
      have := loadMeshFormat_three (t := f.fileType) (d := f.dataSize) spec.meshFormat hw1.1 hw2 hw3 hv
        (rest := b! "\n" ++ ([1, 0, 0, 0] ++ (w4 ++ rest))) (wsHead_append one_nl.sep.head)
      rw [if_neg h8, if_pos h0] at this
      have e : gs (w1 ++ (f.version ++ (w2 ++ decI32 f.fileType ++ (w3 ++ decI32 f.dataSize ++ (b! "\n" ++ ([1, 0, 0, 0] ++ w4))))) ++ rest) =
          gs (w1 ++ f.version ++ (w2 ++ decI32 f.fileType ++ (w3 ++ decI32 f.dataSize ++ (b! "\n" ++ ([1, 0, 0, 0] ++ (w4 ++ rest)))))) := by
        simp
      rw [e, this]
      have h3 : eatWhiteSpace (2 ^ 64 - 1) (gs (b! "\n" ++ ([1, 0, 0, 0] ++ (w4 ++ rest)))) = .ok ((), gs ([1, 0, 0, 0] ++ (w4 ++ rest))) :=
        by
        have := eat_all_nonspace (rest := [0, 0, 0] ++ (w4 ++ rest)) one_nl (c := 1) (by decide)
        simpa using this
      have h4 : [1, 0, 0, 0] ++ (w4 ++ rest) = encI32 1 ++ (w4 ++ rest) := by
        have : encI32 1 = [1, 0, 0, 0] := by decide
        rw [this]
      rw [Rd.bind_ok h3, h4, Rd.bind_ok (readInt_reads 0 1 _), if_neg (by simp)]
      rfl
  obtain ⟨body, rfl, hr⟩ := key
  refine ⟨?_, by decide, w5, hw5.1, rfl, ?_⟩
  · obtain ⟨c, r, e, hc⟩ := Sep.head hw1
    refine ⟨w1 ++ body ++ endTag (b! "MeshFormat") ++ w5, by simp, c, r ++ (body ++ endTag (b! "MeshFormat") ++ w5), ?_, hc⟩
    rw [e]; simp
  · have := loadRound_section (cfg := cfg) (w := []) (rest := w5) (name := b! "MeshFormat") (by decide)
      (by simp only [List.append_assoc]; exact wsHead_append (Sep.head hw1)) (Sep.head hw5) Ws.nil hr
    refine Eq.trans ?_ this
    congr 2

/-- **C65**, effect: a format section at any section boundary replaces the format and touches nothing else. -/
theorem C65_effect (cfg : Cfg) {a A : Bytes} {spec : MshSpec} {f : MeshFormat} (ha : Boundary cfg a spec) (hf : Accepted f)
    (hA : Announces f A) : Boundary cfg (a ++ A) { spec with meshFormat := f } :=
  ha.section (announces_section hf hA spec)

/-- **C65**, redundant sections: a format section announcing the format in force changes nothing, wherever it stands
between sections and whatever follows. -/
theorem C65_redundant (cfg : Cfg) {a A : Bytes} {spec : MshSpec} (ha : Boundary cfg a spec) (hf : Accepted spec.meshFormat)
    (hA : Announces spec.meshFormat A) (b : Bytes) : loadMsh cfg (a ++ (A ++ b)) = loadMsh cfg (a ++ b) := by
  rw [loadMsh_ext ha, loadMsh_ext ha, loadFull_section (announces_section hf hA spec)]

/-- **C65**, no format section: `load_msh` reads the file as if it started with the header of a text file of version
4.1. -/
theorem C65_default (cfg : Cfg) {A : Bytes} (hA : Announces ⟨b! "4.1", 0, 8⟩ A) (b : Bytes) :
    loadMsh cfg (A ++ b) = loadMsh cfg b :=
  C65_redundant (a := []) (spec := {}) cfg ⟨[], by simp, .refl⟩ (Or.inr ⟨rfl, rfl⟩) hA b

/-- **C65**, several format sections in a row: the last one counts. -/
theorem C65_last (cfg : Cfg) {a A B : Bytes} {spec : MshSpec} {f g : MeshFormat} (ha : Boundary cfg a spec)
    (hf : Accepted f) (hA : Announces f A) (hg : Accepted g) (hB : Announces g B) (b : Bytes) :
    loadMsh cfg (a ++ (A ++ (B ++ b))) = loadMsh cfg (a ++ (B ++ b)) := by
  rw [loadMsh_ext ha, loadMsh_ext ha, loadFull_section (announces_section hf hA spec),
    loadFull_section (announces_section hg hB _), loadFull_section (announces_section hg hB spec)]

/-! ## C66 -/

theorem reach_end {cfg : Cfg} {x y : MshSpec × Stream} (h : Relation.ReflTransGen (MainIter cfg) x y)
    (hx : x.2.eof = true → x.2.rem = []) : y.2.eof = true → y.2.rem = [] := by
  induction h with
  | refl => exact hx
  | @tail y z _ hz ih =>
    intro he
    rcases (loadRound_step hz.2).atEnd he with h | h
    · rw [hz.1] at h; cases h
    · exact h

/-- **C66.** When `load_msh` returns, the main loop has read the whole stream: it stopped in the state `st`, where
nothing is left and the end of file flag is set, and the result is what it held then, regrouped.  Calling `load_msh` on
that stream once more gives the empty spec. -/
theorem C66_whole_stream (cfg : Cfg) {file : Bytes} {spec : MshSpec} (h : loadMsh cfg file = .ok spec) :
    ∃ held st, Arrives cfg (Stream.ofBytes file) (held, st) ∧ st.rem = [] ∧ st.eof = true ∧
      loadPostProcess cfg held = .ok spec ∧ loadStream cfg st = .ok {} := by
  unfold loadMsh at h
  rw [loadStream_eq] at h
  split at h
  · rename_i held st hl
    obtain ⟨h1, h2⟩ := loadFull_ok cfg _ _ _ _ (Nat.le_refl _) hl
    refine ⟨held, st, h1, reach_end h1 (fun h => by cases h) h2, h2, h, ?_⟩
    rw [loadStream_eq, loadFull_eof h2]
    rfl
  all_goals cases h

/-- **C66**, conversely: what follows the first mesh of a stream is read with it, so that the sections of the second
add to, or replace, those of the first. -/
theorem C66_together (cfg : Cfg) {a : Bytes} {s t : MshSpec} {L : List (Bytes × Bytes)} (ha : Boundary cfg a s)
    (hL : Chain cfg s L t) : loadMsh cfg (a ++ (L.map Prod.snd).flatten) = loadPostProcess cfg t := by
  have h := loadMsh_ext ha ((L.map Prod.snd).flatten ++ [])
  rw [loadFull_chain hL] at h
  rw [List.append_nil] at h
  rw [h]
  have := loadFull_ws (cfg := cfg) (spec := t) Ws.nil
  rw [this]
  rfl

/-! ## Examples -/

/-- Nodes and elements of a text file of version 2.2. -/
def orderNodes : Bytes := b! "$Nodes\n2\n1 0 0 0\n2 1 0 0\n$EndNodes\n"
def orderElements : Bytes := b! "$Elements\n1\n1 1 2 7 5 1 2\n$EndElements\n"

/-- What the main loop holds after a round. -/
def heldAfter : Outcome (MshSpec × Stream) → MshSpec
  | .ok x => x.1
  | _ => {}

/-- What it holds after the nodes, and after the elements as well. -/
def orderSpec (elements : Bool) : MshSpec :=
  let s := heldAfter (loadRound demoCfg { meshFormat := ⟨b! "2.2", 0, 8⟩ } (gs orderNodes))
  if elements then heldAfter (loadRound demoCfg s (gs orderElements)) else s

theorem order_chain : Chain demoCfg { meshFormat := ⟨b! "2.2", 0, 8⟩ } [(b! "Nodes", orderNodes), (b! "Elements", orderElements)] (orderSpec true) :=
  .cons (t := orderSpec false) ⟨⟨_, rfl, _, _, rfl, by decide⟩, by decide, b! "\n", by unfold Blank; decide, rfl, by decide +kernel⟩
    (.cons ⟨⟨_, rfl, _, _, rfl, by decide⟩, by decide, b! "\n", by unfold Blank; decide, rfl, by decide +kernel⟩ (.nil _))

/-- Elements before the nodes they refer to. -/
example (b : Bytes) : loadMsh demoCfg (hdr22 ++ ((orderNodes ++ (orderElements ++ [])) ++ b)) =
    loadMsh demoCfg (hdr22 ++ ((orderElements ++ (orderNodes ++ [])) ++ b)) :=
  C64_permutation demoCfg boundary_hdr22 order_chain (by decide) (by decide) (List.Perm.swap _ _ _) b

example : (match loadMsh demoCfg (hdr22 ++ (orderElements ++ orderNodes)) with
    | .ok s => some (s.nodes.entityBlocks.map fun b => (b.entityDim, b.entityTag, b.tags), s.elements.numElements)
    | _ => none) = some ([(1, 5, [1, 2])], 1) := by decide +kernel

theorem announces_hdr41 : Announces ⟨b! "4.1", 0, 8⟩ hdr41 :=
  ⟨b! "\n", b! " ", b! " ", b! "\n", b! "\n", by unfold Blank; decide, by unfold Blank; decide, by unfold Blank; decide,
    by unfold Blank; decide, by unfold Blank; decide, Or.inl ⟨rfl, by decide, by decide +kernel⟩⟩

theorem announces_hdr22b : Announces ⟨b! "2.2", 1, 8⟩ hdr22b :=
  ⟨b! "\n", b! " ", b! " ", b! "\n", b! "\n", by unfold Blank; decide, by unfold Blank; decide, by unfold Blank; decide,
    by unfold Blank; decide, by unfold Blank; decide, Or.inr ⟨by decide, by decide +kernel⟩⟩

example : loadMsh demoCfg (secPhys ++ secData) = loadMsh demoCfg (hdr41 ++ (secPhys ++ secData)) :=
  (C65_default demoCfg announces_hdr41 _).symm

example : loadMsh demoCfg secPhys = .ok specPhys := by decide +kernel

example (b : Bytes) : loadMsh demoCfg (hdr22b ++ (hdr22b ++ b)) = loadMsh demoCfg (hdr22b ++ b) :=
  C65_redundant demoCfg boundary_hdr22b (Or.inl rfl) announces_hdr22b b

example (b : Bytes) : loadMsh demoCfg ([] ++ (hdr41 ++ (hdr22b ++ b))) = loadMsh demoCfg ([] ++ (hdr22b ++ b)) :=
  C65_last demoCfg (boundary_nil _) (Or.inr ⟨rfl, rfl⟩) announces_hdr41 (Or.inl rfl) announces_hdr22b b

/-- A second header does not take effect backwards: sections read before it were read in the format of their time. -/
example : loadMsh demoCfg (secPhys ++ hdr41) = .ok specPhys := by decide +kernel

example : ∃ held st, Arrives demoCfg (Stream.ofBytes (hdr41 ++ secPhys)) (held, st) ∧ st.rem = [] ∧ st.eof = true ∧
    loadPostProcess demoCfg held = .ok specPhys ∧ loadStream demoCfg st = .ok {} :=
  C66_whole_stream demoCfg (by decide +kernel)

set_option maxRecDepth 100000 in
example : loadMsh demoCfg ([] ++ [secPhys, secData].flatten) = loadPostProcess demoCfg specData :=
  C66_together demoCfg (boundary_nil _) demo_chain

end MshIO
