import Verif.Proofs.Accumulate
import Verif.Props.Cut

/-!
# C56: sections given more than once

`load_msh` takes sections in any number.  In version 4.1 a later section replaces what an earlier one of the same name gave; data sections add an entry
each; in version 2.2 nodes and elements add up, except that the number of elements of a binary file is that of the last section only.
-/

namespace MshIO

/-- **C56**, replacing.  A section of a 4.1 file that is not a data section reads the same whatever was read before it: it fills its own member and leaves
every other member as it was (`MshSpec.put name t s'` is `s'` with the member of the section `name` taken from `t`). -/
theorem C56_replaced {cfg : Cfg} {name A : Bytes} (hn : name ≠ b! "MeshFormat") (hd : name ∉ addedSections)
    (hx : cfg.nanospline = true ∨ (name ≠ b! "Curves" ∧ name ≠ b! "Patches")) {s t : MshSpec}
    (hv : s.meshFormat.version = b! "4.1") (h : IsSection cfg s name A t) (s' : MshSpec) (hf : s'.meshFormat = s.meshFormat) :
    IsSection cfg s' name A (MshSpec.put name t s') :=
  h.replace hn hd hx hf.symm hv

/-- **C56**, the last one counts.  In a 4.1 file an earlier section `A` makes no difference to what is loaded when a later section `B` has the same name:
whatever lies between them and whatever follows, the file loads as it does without `A`.  Data sections are not meant, nor files that change their format
in between. -/
theorem C56_last {cfg : Cfg} {a name A B : Bytes} {L : List (Bytes × Bytes)} {s t u : MshSpec} (ha : Boundary cfg a s)
    (hv : s.meshFormat.version = b! "4.1") (hn : name ≠ b! "MeshFormat") (hd : name ∉ addedSections) (hL : ∀ p ∈ L, p.1 ≠ b! "MeshFormat")
    (hA : IsSection cfg s name A t) (hB : Chain cfg t (L ++ [(name, B)]) u) :
    Chain cfg s (L ++ [(name, B)]) u ∧
    ∀ rest, loadMsh cfg (a ++ (A ++ ((L.map Prod.snd).flatten ++ (B ++ rest)))) = loadMsh cfg (a ++ ((L.map Prod.snd).flatten ++ (B ++ rest))) := by
  have hs := (chain_again hn hd hL hv hA).1 hB
  refine ⟨hs, fun rest => ?_⟩
  have he : (L.map Prod.snd).flatten ++ (B ++ rest) = ((L ++ [(name, B)]).map Prod.snd).flatten ++ rest := by simp
  rw [loadMsh_ext ha, loadMsh_ext ha, loadFull_section hA, he, loadFull_chain hB, loadFull_chain hs]

/-- **C56**, adding.  A data section adds one entry, which does not depend on what was read before, at the end of its list, and changes nothing else. -/
theorem C56_added {cfg : Cfg} {name A : Bytes} (hn : name ∈ addedSections) {s t : MshSpec} (h : IsSection cfg s name A t) :
    ∃ d, t = s.addData name d ∧ IsSection cfg (onlyFormat s.meshFormat) name A ((onlyFormat s.meshFormat).addData name d) := by
  obtain ⟨t0, h0, d, rfl, rfl⟩ := h.alike (alike_dataSections cfg hn s)
  exact ⟨d, rfl, h0⟩

/-- **C56**, nodes of version 2.2.  A further `$Nodes` section adds what it holds, read on its own, to the nodes there are. -/
theorem C56_nodes22 {cfg : Cfg} {A : Bytes} {s t : MshSpec} (hv : s.meshFormat.version = b! "2.2") (hs : s.nodes.entityBlocks ≠ [])
    (h : IsSection cfg s (b! "Nodes") A t) :
    ∃ t0, IsSection cfg (onlyFormat s.meshFormat) (b! "Nodes") A t0 ∧ AddsNodes s t0 t :=
  h.alike (alike_nodesSection22 cfg hv hs)

/-- **C56**, elements of version 2.2.  An `$Elements` section adds the elements it holds, read on its own, to the elements there are.  The counts of a text
file are summed up; the number of elements of a binary file is that of the last section alone, although the blocks of the earlier ones are kept. -/
theorem C56_elements22 {cfg : Cfg} {A : Bytes} {s t : MshSpec} (hv : s.meshFormat.version = b! "2.2") (h : IsSection cfg s (b! "Elements") A t) :
    ∃ t0, IsSection cfg (onlyFormat s.meshFormat) (b! "Elements") A t0 ∧ AddsElements s t0 t ∧
      t.elements.numEntityBlocks = (if s.meshFormat.fileType = 0 then s.elements.numEntityBlocks + t0.elements.numEntityBlocks
        else UInt64.ofNat t.elements.entityBlocks.length) ∧
      t.elements.numElements = (if s.meshFormat.fileType = 0 then s.elements.numElements + t0.elements.numElements else t0.elements.numElements) :=
  h.alike (alike_elementsSection22 cfg hv)

/-- **C56**, the exception is real: the same elements section given twice leaves 4 elements in the blocks of the loaded spec, of which `num_elements` counts
4 in the text file and 2 in the binary file. -/
theorem C56_binary22_count :
    (∃ u, loadMsh demoCfg (hdr22 ++ cutNodes22 ++ cutElements22 ++ cutElements22) = .ok u ∧
      u.elements.numElements = 4 ∧ (u.elements.entityBlocks.map ElementBlock.numElementsInBlock).sum = 4) ∧
    (∃ u, loadMsh demoCfg (hdr22b ++ cutNodes22b ++ cutElements22b ++ cutElements22b) = .ok u ∧
      u.elements.numElements = 2 ∧ (u.elements.entityBlocks.map ElementBlock.numElementsInBlock).sum = 4) := by
  have h : ∀ (x : Outcome MshSpec) (n : UInt64), (match x with
      | .ok u => decide (u.elements.numElements = n ∧ (u.elements.entityBlocks.map ElementBlock.numElementsInBlock).sum = 4) | _ => false) = true →
      ∃ u, x = .ok u ∧ u.elements.numElements = n ∧ (u.elements.entityBlocks.map ElementBlock.numElementsInBlock).sum = 4 := by
    intro x n hx
    cases x with
    | ok u => exact ⟨u, rfl, of_decide_eq_true hx⟩
    | _ => cases hx
  exact ⟨h _ _ (by decide +kernel), h _ _ (by decide +kernel)⟩

/-! ## The hypotheses are met -/

/-- A section of physical names that another one replaces. -/
def secPhys0 : Bytes := b! "$PhysicalNames\n2\n1 1 \"old\"\n1 2 \"other\"\n$EndPhysicalNames\n"
def specPhys0 : MshSpec := { physicalGroups := [⟨1, 1, b! "old"⟩, ⟨1, 2, b! "other"⟩] }

theorem secPhys0_section : IsSection demoCfg {} (b! "PhysicalNames") secPhys0 specPhys0 :=
  ⟨⟨_, rfl, _, _, rfl, by decide⟩, by decide, b! "\n", by unfold Blank; decide, rfl, by decide +kernel⟩

theorem repeat_chain : Chain demoCfg specPhys0 ([(b! "NodeData", secData)] ++ [(b! "PhysicalNames", secPhys)]) specData :=
  .cons (t := { specData with physicalGroups := specPhys0.physicalGroups })
    ⟨⟨_, rfl, _, _, rfl, by decide⟩, by decide, b! "\n", by unfold Blank; decide, rfl, by decide +kernel⟩
    (.cons ⟨⟨_, rfl, _, _, rfl, by decide⟩, by decide, b! "\n", by unfold Blank; decide, rfl, by decide +kernel⟩ (.nil _))

example (rest : Bytes) : loadMsh demoCfg (hdr41 ++ (secPhys0 ++ ((secData ++ []) ++ (secPhys ++ rest)))) =
    loadMsh demoCfg (hdr41 ++ ((secData ++ []) ++ (secPhys ++ rest))) :=
  (C56_last boundary_hdr41 rfl (by decide) (by decide) (by decide) secPhys0_section repeat_chain).2 rest

example : IsSection demoCfg specData (b! "PhysicalNames") secPhys0 { specData with physicalGroups := specPhys0.physicalGroups } :=
  C56_replaced (by decide) (by decide) (Or.inr (by decide)) rfl secPhys0_section specData rfl

/-- The data section above, which adds an entry to the one there is. -/
def entry1 : Data := ⟨⟨[b! "t"], [⟨0x3FE0000000000000⟩], [0, 1, 1]⟩, [{ tag := 4, data := [⟨0x4004000000000000⟩] }]⟩

theorem secData_again : IsSection demoCfg specData (b! "NodeData") secData (specData.addData (b! "NodeData") entry1) :=
  ⟨⟨_, rfl, _, _, rfl, by decide⟩, by decide, b! "\n", by unfold Blank; decide, rfl, by decide +kernel⟩

example : ∃ d, specData.addData (b! "NodeData") entry1 = specData.addData (b! "NodeData") d ∧
    IsSection demoCfg (onlyFormat specData.meshFormat) (b! "NodeData") secData ((onlyFormat specData.meshFormat).addData (b! "NodeData") d) :=
  C56_added (by decide) secData_again

/-- What is held after `k` sections of nodes and `m` sections of elements. -/
def held22 (ft : Int32) (data : List Double) (k m : Nat) (last : UInt64) : MshSpec where
  meshFormat := ⟨b! "2.2", ft, 8⟩
  nodes := ⟨UInt64.ofNat k, UInt64.ofNat (2 * k), 1, 2, List.replicate k { numNodesInBlock := 2, tags := [1, 2], data }⟩
  elements := if m = 0 then {} else ⟨UInt64.ofNat (2 * m), last, 1, 2, (List.replicate m [⟨1, 1, 1, 1, [1, 1, 2]⟩, ⟨1, 1, 1, 1, [2, 2, 1]⟩]).flatten⟩

def data22 : List Double := [⟨0⟩, ⟨0⟩, ⟨0⟩, dOne, ⟨0⟩, ⟨0⟩]
def data22b : List Double := List.replicate 6 dOne

theorem nodes_again : IsSection demoCfg (held22 0 data22 1 0 0) (b! "Nodes") cutNodes22 (held22 0 data22 2 0 0) :=
  ⟨⟨_, rfl, _, _, rfl, by decide⟩, by decide, b! "\n", by unfold Blank; decide, rfl, by decide +kernel⟩

theorem nodes_again_binary : IsSection demoCfg (held22 1 data22b 1 0 0) (b! "Nodes") cutNodes22b (held22 1 data22b 2 0 0) :=
  ⟨⟨_, rfl, _, _, rfl, by decide⟩, by decide, b! "\n", by unfold Blank; decide, rfl, by decide +kernel⟩

theorem elements_again : IsSection demoCfg (held22 0 data22 1 1 2) (b! "Elements") cutElements22 (held22 0 data22 1 2 4) :=
  ⟨⟨_, rfl, _, _, rfl, by decide⟩, by decide, b! "\n", by unfold Blank; decide, rfl, by decide +kernel⟩

theorem elements_again_binary : IsSection demoCfg (held22 1 data22b 1 1 2) (b! "Elements") cutElements22b (held22 1 data22b 1 2 2) :=
  ⟨⟨_, rfl, _, _, rfl, by decide⟩, by decide, b! "\n", by unfold Blank; decide, rfl, by decide +kernel⟩

example : ∃ t0, IsSection demoCfg (onlyFormat ⟨b! "2.2", 0, 8⟩) (b! "Nodes") cutNodes22 t0 ∧ AddsNodes (held22 0 data22 1 0 0) t0 (held22 0 data22 2 0 0) :=
  C56_nodes22 rfl (by decide) nodes_again

example : ∃ t0, IsSection demoCfg (onlyFormat ⟨b! "2.2", 1, 8⟩) (b! "Nodes") cutNodes22b t0 ∧ AddsNodes (held22 1 data22b 1 0 0) t0 (held22 1 data22b 2 0 0) :=
  C56_nodes22 rfl (by decide) nodes_again_binary

example : ∃ t0, IsSection demoCfg (onlyFormat ⟨b! "2.2", 0, 8⟩) (b! "Elements") cutElements22 t0 ∧
    AddsElements (held22 0 data22 1 1 2) t0 (held22 0 data22 1 2 4) ∧ (held22 0 data22 1 2 4).elements.numElements = 2 + t0.elements.numElements :=
  let ⟨t0, h1, h2, _, h4⟩ := C56_elements22 rfl elements_again
  ⟨t0, h1, h2, h4⟩

example : ∃ t0, IsSection demoCfg (onlyFormat ⟨b! "2.2", 1, 8⟩) (b! "Elements") cutElements22b t0 ∧
    AddsElements (held22 1 data22b 1 1 2) t0 (held22 1 data22b 1 2 2) ∧ (held22 1 data22b 1 2 2).elements.numElements = t0.elements.numElements :=
  let ⟨t0, h1, h2, _, h4⟩ := C56_elements22 rfl elements_again_binary
  ⟨t0, h1, h2, h4⟩

end MshIO
