import Verif.Proofs.Pieces22
import Verif.Props.Spelling22
import Verif.Props.Pieces

/-!
# C72: binary files of version 2.2 by any program
-/

namespace MshIO

theorem load_binary22 (cfg : Cfg) (parts : List BinaryPart22) (hfit : ∀ p ∈ parts, p.Fits cfg)
    (honce : (parts.map BinaryPart22.asText).Pairwise fun p q => p.name = q.name → p.Repeats)
    (hhead : ∃ lead d rest, parts = lead ++ .format d :: rest ∧ ∀ p ∈ lead, p.AlwaysText)
    (hr : NodesInRange (nodesIn (parts.map BinaryPart22.asText)) ((elementsIn (parts.map BinaryPart22.asText)).map FileElem.elem))
    (hf : Fits22 cfg (nodesIn (parts.map BinaryPart22.asText)) ((elementsIn (parts.map BinaryPart22.asText)).map FileElem.elem))
    (hroom : (restOf (parts.map BinaryPart22.asText)).nodeData.length ≤ cfg.maxCount ∧ (restOf (parts.map BinaryPart22.asText)).elementData.length ≤ cfg.maxCount ∧
      (restOf (parts.map BinaryPart22.asText)).elementNodeData.length ≤ cfg.maxCount)
    (file : Bytes) (h : BinaryFile22 parts file) : loadMsh cfg file = .ok { restOf (parts.map BinaryPart22.asText) with
      meshFormat := { (restOf (parts.map BinaryPart22.asText)).meshFormat with fileType := 1 }
      entities := entitiesFrom (physOf (elementsIn (parts.map BinaryPart22.asText)))
      nodes := if (parts.map BinaryPart22.asText).any Part22.isNodes then
        nodesOf (nodesIn (parts.map BinaryPart22.asText)) ((elementsIn (parts.map BinaryPart22.asText)).map FileElem.elem) else {}
      elements := if (parts.map BinaryPart22.asText).any Part22.isElements then
        elementsOf ((elementsIn (parts.map BinaryPart22.asText)).map FileElem.elem) else {} } := by
  obtain ⟨gap, bytes, trail, hw, ht, rfl⟩ := h
  have h2 := hf.two
  have hfitT : ∀ p ∈ parts.map BinaryPart22.asText, p.Fits cfg := by
    intro p hp
    obtain ⟨q, hq, rfl⟩ := List.mem_map.mp hp
    exact (hfit q hq).asText
  have hraw := raw_fold (parts.map BinaryPart22.asText) {} {} {} {} hfitT honce
  have e0 : MshSpec.withMesh {} {} {} {} = {} := rfl
  rw [e0] at hraw
  have hm := rawB_fold parts {} {} rfl
  have hform := rawB_format parts {} {} (Or.inr (by
    obtain ⟨lead, d, rest, e, _⟩ := hhead
    exact ⟨d, by simp [e]⟩)) hfit
  rw [hform, hraw] at hm
  obtain ⟨h1, hv, _⟩ := rounds_binary22 (by omega) parts (s := {}) (Or.inr hhead) hfit
    (fun p _ => by
      cases p with
      | common p => cases p <;> first | trivial | rfl
      | nodes ns => rfl
      | elements fs => exact ⟨rfl, rfl⟩
      | format d => trivial) honce (by rw [← hm]; exact ⟨hroom.1, hroom.2.1, hroom.2.2⟩) hf.coords (by rw [elemEntries_eq]; exact hf.entries)
  rw [loadMsh_finish, h1.load (by rw [← List.flatMap_def]; exact hw) ht]
  rw [← hm] at hv ⊢
  rw [finish_parts22 cfg (parts.map BinaryPart22.asText) hfitT hr hf _ hv rfl rfl]
  congr 1
  unfold MshSpec.withMesh restOf
  simp only [entities_none]

/-- **C72** A binary file of version 2.2 loads to the mesh it describes: sections in any order, nodes and elements after the header; nodes and elements at most once, data sections any number of
times; elements in any number of groups, with any number of tags; unknown sections and words between sections anywhere; any white space between words and in front of
end markers, one white space character or a line end in front of binary data; whole numbers outside binary data with any sign and zeros in front; names quoted or bare. -/
theorem C72_any_program (cfg : Cfg) (parts : List BinaryPart22) (hfit : ∀ p ∈ parts, p.Fits cfg)
    (honce : (parts.map BinaryPart22.asText).Pairwise fun p q => p.name = q.name → p.Repeats)
    (hhead : ∃ lead d rest, parts = lead ++ .format d :: rest ∧ ∀ p ∈ lead, p.AlwaysText)
    (hr : NodesInRange (nodesIn (parts.map BinaryPart22.asText)) ((elementsIn (parts.map BinaryPart22.asText)).map FileElem.elem))
    (hf : Fits22 cfg (nodesIn (parts.map BinaryPart22.asText)) ((elementsIn (parts.map BinaryPart22.asText)).map FileElem.elem))
    (hroom : (restOf (parts.map BinaryPart22.asText)).nodeData.length ≤ cfg.maxCount ∧ (restOf (parts.map BinaryPart22.asText)).elementData.length ≤ cfg.maxCount ∧
      (restOf (parts.map BinaryPart22.asText)).elementNodeData.length ≤ cfg.maxCount)
    (file : Bytes) (h : BinaryFile22 parts file) : ∃ s, loadMsh cfg file = .ok s ∧ BinaryMeshOf22 parts s :=
  ⟨_, load_binary22 cfg parts hfit honce hhead hr hf hroom file h, _, ⟨physOf (elementsIn (parts.map BinaryPart22.asText)), physOf_entitiesAre _, rfl⟩, rfl⟩

/-- **C72** A text file and a binary file that describe the same parts load to the same mesh; only the file type in the header tells them apart. -/
theorem C72_text_or_binary (cfg : Cfg) (parts : List BinaryPart22) (hfit : ∀ p ∈ parts, p.Fits cfg)
    (honce : (parts.map BinaryPart22.asText).Pairwise fun p q => p.name = q.name → p.Repeats)
    (hhead : ∃ lead d rest, parts = lead ++ .format d :: rest ∧ ∀ p ∈ lead, p.AlwaysText)
    (hr : NodesInRange (nodesIn (parts.map BinaryPart22.asText)) ((elementsIn (parts.map BinaryPart22.asText)).map FileElem.elem))
    (hf : Fits22 cfg (nodesIn (parts.map BinaryPart22.asText)) ((elementsIn (parts.map BinaryPart22.asText)).map FileElem.elem))
    (hroom : (restOf (parts.map BinaryPart22.asText)).nodeData.length ≤ cfg.maxCount ∧ (restOf (parts.map BinaryPart22.asText)).elementData.length ≤ cfg.maxCount ∧
      (restOf (parts.map BinaryPart22.asText)).elementNodeData.length ≤ cfg.maxCount)
    (file file' : Bytes) (h : TextFile22 (parts.map BinaryPart22.asText) file) (h' : BinaryFile22 parts file') :
    ∃ s, loadMsh cfg file = .ok s ∧ loadMsh cfg file' = .ok { s with meshFormat := { s.meshFormat with fileType := 1 } } := by
  refine ⟨_, load_text22 cfg _ ?_ honce ?_ hr hf hroom file h, load_binary22 cfg parts hfit honce hhead hr hf hroom file' h'⟩
  · intro p hp
    obtain ⟨q, hq, rfl⟩ := List.mem_map.mp hp
    exact (hfit q hq).asText
  · obtain ⟨lead, d, rest, rfl, hl⟩ := hhead
    refine ⟨lead.map BinaryPart22.asText, d, rest.map BinaryPart22.asText, by simp [BinaryPart22.asText], ?_⟩
    intro p hp
    obtain ⟨q, hq, rfl⟩ := List.mem_map.mp hp
    have := hl q hq
    cases q with
    | common q => exact id
    | _ => exact this.elim

/-! ## A file -/

/-- Groups in front of the header, elements in two groups in front of nodes, a value of a node. -/
def demoBinaryParts22 : List BinaryPart22 :=
  [.common (.names [⟨1, 7, b! "rim"⟩]), .format 8, .elements [⟨1, 3, [⟨5, 1, [7, 3, 0], [1, 2]⟩, ⟨9, 1, [8, 3, 0], [2, 1]⟩]⟩, ⟨15, 0, [⟨6, 15, [], [2]⟩]⟩],
   .nodes [⟨1, ⟨0x3FF8000000000000⟩, ⟨0x3FF0000000000000⟩, ⟨0x8000000000000000⟩⟩, ⟨2, ⟨0⟩, ⟨0⟩, ⟨0⟩⟩],
   .common (.nodeData ⟨⟨[b! "t"], [], [0, 1, 1]⟩, [⟨2, 0, [⟨0x3FF0000000000000⟩]⟩]⟩)]

/-- The bytes of the elements. -/
def demoElementData22 : Bytes :=
  [1, 2, 3, 5, 7, 3, 0, 1, 2, 9, 8, 3, 0, 2, 1, 15, 1, 0, 6, 2].flatMap encI32

/-- The bytes of the nodes. -/
def demoNodeData22 : Bytes :=
  encI32 1 ++ encU64 0x3FF8000000000000 ++ encU64 0x3FF0000000000000 ++ encU64 0x8000000000000000 ++ encI32 2 ++ encU64 0 ++ encU64 0 ++ encU64 0

/-- A file that describes it. -/
def demoBinary22 : Bytes :=
  b! "$PhysicalNames\n1\n1 7 rim\n$EndPhysicalNames\n$MeshFormat\n2.2 1 8\n" ++ [1, 0, 0, 0] ++ b! "\n$EndMeshFormat\n$Elements\n003\t" ++ demoElementData22 ++
  b! "$EndElements\n$Nodes 2\n" ++ demoNodeData22 ++ b! "\n$EndNodes\n$NodeData 1 \"t\" 0 3 0 1 1\n" ++ encI32 2 ++ encU64 0x3FF0000000000000 ++ b! "\n$EndNodeData\n"

theorem demoBinary22_file : BinaryFile22 demoBinaryParts22 demoBinary22 := by
  have hi : ∀ (s : Option Bool) (ds : List (Fin 10)) (z : ℤ) (t : Bytes), ds ≠ [] → signValue s * digitsValue ds = z → signText s ++ digitsText ds = t →
      Item.Spelled (.whole z) t := by rintro s ds z t h1 h2 rfl; exact .whole h1 h2
  have h0 := hi none [0] 0 (b! "0") (by simp) rfl rfl
  have h1 := hi none [1] 1 (b! "1") (by simp) rfl rfl
  have h2 := hi none [2] 2 (b! "2") (by simp) rfl rfl
  have h3 := hi none [3] 3 (b! "3") (by simp) rfl rfl
  have h8 := hi none [8] 8 (b! "8") (by simp) rfl rfl
  have word : ∀ (g : Bool) (ps : List Piece) (g' : Bool) (c : UInt8) (w r : Bytes), isSpace c = true → Written true ps g' r →
      Written g (.item (.word w) :: ps) g' ([c] ++ w ++ r) := fun g ps g' c w r hc h =>
    .item (by intro d hd; rw [List.mem_singleton] at hd; rw [hd]; exact hc) (by simp) .word h
  have item : ∀ (g : Bool) (i : Item) (ps : List Piece) (g' : Bool) (c : UInt8) (w r : Bytes), isSpace c = true → i.Spelled w → Written true ps g' r →
      Written g (.item i :: ps) g' ([c] ++ w ++ r) := fun g i ps g' c w r hc hi h =>
    .item (by intro d hd; rw [List.mem_singleton] at hd; rw [hd]; exact hc) (by simp) hi h
  have bare : ∀ (w : Bytes) (ps : List Piece) (g' : Bool) (r : Bytes), Written true ps g' r → Written false (.item (.word w) :: ps) g' ([] ++ w ++ r) :=
    fun w ps g' r h => .item (by intro d hd; cases hd) (by simp) .word h
  have hn : Item.Spelled (.name (b! "rim")) (b! "rim") := .name (Or.inr ⟨rfl, by decide, by decide, by decide⟩)
  have hq : Item.Spelled (.name (b! "t")) (b! "\"t\"") := .name (Or.inl ⟨b! "t", .plain (by decide) (by decide) .nil, rfl⟩)
  have w : Written false (demoBinaryParts22.flatMap BinaryPart22.pieces) true _ :=
    bare _ _ _ _ (item _ _ _ _ 10 _ _ rfl h1 (item _ _ _ _ 10 _ _ rfl h1 (item _ _ _ _ 32 _ _ rfl (hi none [7] 7 (b! "7") (by simp) rfl rfl)
      (item _ _ _ _ 32 _ _ rfl hn (word _ _ _ 10 _ _ rfl
    (word _ _ _ 10 _ _ rfl (word _ _ _ 10 _ _ rfl (item _ _ _ _ 32 _ _ rfl h1 (item _ _ _ _ 32 _ _ rfl h8
      (.marker (w := b! "\n") (by simp) (by unfold Skipped; decide) (by decide) (word _ _ _ 10 _ _ rfl
    (word _ _ _ 10 _ _ rfl (item _ _ _ _ 10 _ _ rfl (hi none [0, 0, 3] 3 (b! "003") (by simp) rfl rfl) (.data (c := 9) (by unfold Skipped; decide) (bare _ _ _ _
    (word _ _ _ 10 _ _ rfl (item _ _ _ _ 32 _ _ rfl h2 (.data (c := 10) (by unfold Skipped; decide) (word _ _ _ 10 _ _ rfl
    (word _ _ _ 10 _ _ rfl (item _ _ _ _ 32 _ _ rfl h1 (item _ _ _ _ 32 _ _ rfl hq (item _ _ _ _ 32 _ _ rfl h0 (item _ _ _ _ 32 _ _ rfl h3
      (item _ _ _ _ 32 _ _ rfl h0 (item _ _ _ _ 32 _ _ rfl h1 (item _ _ _ _ 32 _ _ rfl h1 (.data (c := 10) (by unfold Skipped; decide)
      (word _ _ _ 10 _ _ rfl .nil)))))))))))))))))))))))))))))
  exact ⟨true, _, b! "\n", w, (by intro c hc; rw [List.mem_singleton] at hc; rw [hc]; rfl), by decide +kernel⟩

theorem demoBinaryParts22_fits : ∀ p ∈ demoBinaryParts22, p.Fits demoDebug := by
  intro p hp
  simp only [demoBinaryParts22, List.mem_cons, List.not_mem_nil, or_false] at hp
  rcases hp with rfl | rfl | rfl | rfl | rfl
  rotate_left
  · trivial
  · refine ⟨by simp, ?_⟩
    intro g hg
    simp only [List.mem_cons, List.not_mem_nil, or_false] at hg
    rcases hg with rfl | rfl
    · exact ⟨⟨by decide, (by intro e he; simp only [List.mem_cons, List.not_mem_nil, or_false] at he; rcases he with rfl | rfl <;> rfl), by simp, by decide, by decide⟩, by decide⟩
    · exact ⟨⟨by decide, (by intro e he; simp only [List.mem_cons, List.not_mem_nil, or_false] at he; rcases he with rfl; rfl), by simp, by decide, by decide⟩, by decide⟩
  · show ∀ n ∈ _, _
    decide
  all_goals refine ⟨trivial, ⟨⟨rfl, (by intro b hb; cases hb), rfl, by simp [Part.add], ?_, by simp [Part.add], by simp [Part.add], by simp [Part.add], by simp [Part.add]⟩,
    ⟨by decide, by decide⟩, by decide, by simp [Part.add], by simp [Part.Extension], ⟨by decide, by decide⟩, ?_, ?_⟩, by simp [Part.SmallTags, Part.add]⟩
  all_goals first
    | (intro n ws h; cases h; done)
    | (intro n h; cases h; done)
    | skip
  intro d hd
  simp only [Part.add, List.nil_append, List.mem_singleton] at hd
  subst hd
  exact ⟨0, 1, 1, [], rfl, by decide, by decide, by
    intro e he
    simp only [List.mem_cons, List.not_mem_nil, or_false] at he
    subst he
    decide⟩

/-- C72: the file loads. -/
example : ∃ s, loadMsh demoDebug demoBinary22 = .ok s ∧ BinaryMeshOf22 demoBinaryParts22 s :=
  C72_any_program demoDebug demoBinaryParts22 demoBinaryParts22_fits
    (by simp [demoBinaryParts22, BinaryPart22.asText, Part22.name, Part22.Repeats, Part.name, Part.Repeats])
    ⟨[.common (.names _)], 8, _, rfl, by simp [BinaryPart22.AlwaysText, Part.AlwaysText]⟩ (by unfold NodesInRange; decide) ⟨by decide, by decide, by decide, by decide⟩ (by decide) _
    demoBinary22_file

/-- The mesh: both lines are on the curve 3, which is in two physical groups. -/
example : BinaryMeshOf22 demoBinaryParts22 { meshFormat := ⟨b! "2.2", 1, 8⟩
                                             physicalGroups := [⟨1, 7, (b! "rim" : Bytes)⟩]
                                             entities := { curves := [{ tag := 3, physicalGroupTags := [7, 8] }] }
                                             nodes := ⟨2, 2, 1, 2, [⟨1, 3, 0, 1, [1], [⟨0x3FF8000000000000⟩, ⟨0x3FF0000000000000⟩, ⟨0x8000000000000000⟩]⟩,
                                               ⟨0, 1, 0, 1, [2], [⟨0⟩, ⟨0⟩, ⟨0⟩]⟩]⟩
                                             elements := ⟨2, 3, 5, 9, [⟨1, 3, 1, 2, [5, 1, 2, 9, 2, 1]⟩, ⟨0, 1, 15, 1, [6, 2]⟩]⟩
                                             nodeData := [⟨⟨[b! "t"], [], [0, 1, 1]⟩, [⟨2, 0, [⟨0x3FF0000000000000⟩]⟩]⟩] } :=
  ⟨_, ⟨physOf (elementsIn (demoBinaryParts22.map BinaryPart22.asText)), physOf_entitiesAre _, rfl⟩, by decide +kernel⟩

end MshIO
