import Verif.Proofs.PiecesFile
import Verif.Props.Spelling

/-!
# C71: binary files of version 4.1 by any program

`Spec/Pieces.lean` says which binary files describe a mesh: the sections come in any order, unknown sections and other words are among them, the text in them is spelled in any way the format
allows, and any white space is around it.  MshIO loads each of these files to the mesh it describes.
-/

namespace MshIO

/-- **C71** A binary file of version 4.1 loads to the mesh it describes, whichever program wrote it: sections in any order after the header, each of those for the mesh at most once, data sections any
number of times; unknown sections and words between sections anywhere; any white space around words; one line feed, carriage return, space or tab before data; names, numbers of
entries and real tags, which are text also in binary files, spelled in any way. -/
theorem C71_any_program (cfg : Cfg) (parts : List Part) (hfit : ∀ p ∈ parts, p.Fits cfg) (hsmall : ∀ p ∈ parts, p.SmallTags)
    (honce : parts.Pairwise fun p q => p.name = q.name → p.Repeats)
    (hhead : ∃ lead rest, parts = lead ++ .format :: rest ∧ ∀ p ∈ lead, p.AlwaysText)
    (hroom : (meshOf parts).nodeData.length ≤ cfg.maxCount ∧ (meshOf parts).elementData.length ≤ cfg.maxCount ∧
      (meshOf parts).elementNodeData.length ≤ cfg.maxCount)
    (file : Bytes) (h : BinaryFile parts file) : loadMsh cfg file = .ok (binaryMeshOf parts) := by
  obtain ⟨gap, bytes, trail, hw, ht, rfl⟩ := h
  have he := addB_fold parts {} {} rfl
  rw [addB_format parts {} (Or.inr (by obtain ⟨lead, rest, rfl, -⟩ := hhead; simp))] at he
  have he : binaryMeshOf parts = parts.foldl (fun s p => p.addB s) {} := he
  obtain ⟨h1, h2⟩ := rounds_binary parts (s := {}) rfl (Or.inr hhead) hfit hsmall (fun p _ => by cases p <;> first | trivial | rfl) honce
    (by rw [← he]; exact ⟨hroom.1, hroom.2.1, hroom.2.2⟩)
  rw [loadMsh_finish, h1.load (by rw [← List.flatMap_def]; exact hw) ht, he]
  unfold loadPostProcess
  rw [if_neg (by rw [h2]; decide)]

/-- **C71** A text file and a binary file that describe the same parts load to the same mesh; only the file type in the header tells them apart. -/
theorem C71_text_or_binary (cfg : Cfg) (parts : List Part) (hfit : ∀ p ∈ parts, p.Fits cfg) (hsmall : ∀ p ∈ parts, p.SmallTags)
    (honce : parts.Pairwise fun p q => p.name = q.name → p.Repeats)
    (hhead : ∃ lead rest, parts = lead ++ .format :: rest ∧ ∀ p ∈ lead, p.AlwaysText)
    (hroom : (meshOf parts).nodeData.length ≤ cfg.maxCount ∧ (meshOf parts).elementData.length ≤ cfg.maxCount ∧
      (meshOf parts).elementNodeData.length ≤ cfg.maxCount)
    (file file' : Bytes) (h : TextFile parts file) (h' : BinaryFile parts file') :
    ∃ s, loadMsh cfg file = .ok s ∧ loadMsh cfg file' = .ok { s with meshFormat := ⟨b! "4.1", 1, 8⟩ } :=
  ⟨_, C69_any_spelling cfg parts hfit honce hroom file h, C71_any_program cfg parts hfit hsmall honce hhead hroom file' h'⟩

/-! ## A file -/

/-- A word between sections, a group, the header, a node, a section MshIO does not know, a value for the node. -/
def demoBinaryParts : List Part :=
  [.stray (b! "made-by-hand"), .names [⟨2, 7, b! "upper"⟩], .format,
   .nodes ⟨1, 1, 1, 1, [⟨0, 1, 0, 1, [1], [⟨0x3FF8000000000000⟩, ⟨0x3FF0000000000000⟩, ⟨0x8000000000000000⟩]⟩]⟩,
   .other (b! "Comments") [b! "see", b! "$Nodes", b! "above"], .nodeData ⟨⟨[b! "t"], [⟨0x3FF8000000000000⟩], [0, 1, 1]⟩, [⟨1, 0, [⟨0x3FF0000000000000⟩]⟩]⟩]

/-- The bytes of the node. -/
def demoNodeData : Bytes :=
  [1, 1, 1, 1].flatMap encU64 ++ encI32 0 ++ encI32 1 ++ encI32 0 ++ encU64 1 ++ encU64 1 ++ encU64 0x3FF8000000000000 ++ encU64 0x3FF0000000000000 ++ encU64 0x8000000000000000

/-- A file that describes it: two lines between the header and the byte-order marker, a carriage return in front of the data of the node, no white space after it, a tab in front of the
data of the value, no white space at the end. -/
def demoBinary : Bytes :=
  b! "made-by-hand $PhysicalNames\n1\n2 007\tupper\n$EndPhysicalNames\n$MeshFormat\r\n4.1 1 +8\r\n" ++ [1, 0, 0, 0] ++ b! "$EndMeshFormat\r\n" ++
  b! "$Nodes\r" ++ demoNodeData ++ b! "$EndNodes\n$Comments see $Nodes above $EndComments\n" ++
  b! "$NodeData 1 \"t\" 1 +1.50 3 0 1 1\t" ++ encI32 1 ++ encU64 0x3FF0000000000000 ++ b! "\n$EndNodeData"

theorem demoBinary_file : BinaryFile demoBinaryParts demoBinary := by
  have hi : ∀ (s : Option Bool) (ds : List (Fin 10)) (z : ℤ) (t : Bytes), ds ≠ [] → signValue s * digitsValue ds = z → signText s ++ digitsText ds = t →
      Item.Spelled (.whole z) t := by rintro s ds z t h1 h2 rfl; exact .whole h1 h2
  have h0 := hi none [0] 0 (b! "0") (by simp) rfl rfl
  have h1 := hi none [1] 1 (b! "1") (by simp) rfl rfl
  have h3 := hi none [3] 3 (b! "3") (by simp) rfl rfl
  have hr : Item.Spelled (.real ⟨0x3FF8000000000000⟩) (b! "+1.50") := by
    refine spelled_real (n := ⟨some false, [1], some [5, 0], none⟩) ⟨by decide, by simp⟩ (inRange_small ?_) (by decide +kernel)
    norm_num [Numeral.value, Numeral.size, Numeral.power, signValue, digitsValue, Numeral.fracDigits]
  have word : ∀ (g : Bool) (ps : List Piece) (g' : Bool) (c : UInt8) (w r : Bytes), isSpace c = true → Written true ps g' r →
      Written g (.item (.word w) :: ps) g' ([c] ++ w ++ r) := fun g ps g' c w r hc h =>
    .item (by intro d hd; rw [List.mem_singleton] at hd; rw [hd]; exact hc) (by simp) .word h
  have item : ∀ (g : Bool) (i : Item) (ps : List Piece) (g' : Bool) (c : UInt8) (w r : Bytes), isSpace c = true → i.Spelled w → Written true ps g' r →
      Written g (.item i :: ps) g' ([c] ++ w ++ r) := fun g i ps g' c w r hc hi h =>
    .item (by intro d hd; rw [List.mem_singleton] at hd; rw [hd]; exact hc) (by simp) hi h
  have bare : ∀ (w : Bytes) (ps : List Piece) (g' : Bool) (r : Bytes), Written true ps g' r → Written false (.item (.word w) :: ps) g' ([] ++ w ++ r) :=
    fun w ps g' r h => .item (by intro d hd; cases hd) (by simp) .word h
  have two : ∀ (g : Bool) (w : Bytes) (ps : List Piece) (g' : Bool) (r : Bytes), Written true ps g' r →
      Written g (.item (.word w) :: ps) g' (b! "\r\n" ++ w ++ r) := fun g w ps g' r h =>
    .item (by intro d hd; simp only [List.mem_cons, List.not_mem_nil, or_false] at hd; rcases hd with rfl | rfl <;> decide) (by simp) .word h
  have hn : Item.Spelled (.name (b! "upper")) (b! "upper") := .name (Or.inr ⟨rfl, by decide, by decide, by decide⟩)
  have hq : Item.Spelled (.name (b! "t")) (b! "\"t\"") := .name (Or.inl ⟨b! "t", .plain (by decide) (by decide) .nil, rfl⟩)
  have w : Written false (demoBinaryParts.flatMap Part.pieces) true _ :=
    bare _ _ _ _ (word _ _ _ 32 _ _ rfl (item _ _ _ _ 10 _ _ rfl h1 (item _ _ _ _ 10 _ _ rfl (hi none [2] 2 (b! "2") (by simp) rfl rfl)
      (item _ _ _ _ 32 _ _ rfl (hi none [0, 0, 7] 7 (b! "007") (by simp) rfl rfl) (item _ _ _ _ 9 _ _ rfl hn (word _ _ _ 10 _ _ rfl
    (word _ _ _ 10 _ _ rfl (two _ _ _ _ _ (item _ _ _ _ 32 _ _ rfl h1 (item _ _ _ _ 32 _ _ rfl (hi (some false) [8] 8 (b! "+8") (by simp) rfl rfl)
      (.marker (w := b! "\r\n") (by simp) (by unfold Skipped; decide) (by decide) (bare _ _ _ _
    (two _ _ _ _ _ (.data (c := 13) (by unfold Skipped; decide) (bare _ _ _ _
    (word _ _ _ 10 _ _ rfl (word _ _ _ 32 _ _ rfl (word _ _ _ 32 _ _ rfl (word _ _ _ 32 _ _ rfl (word _ _ _ 32 _ _ rfl
    (word _ _ _ 10 _ _ rfl (item _ _ _ _ 32 _ _ rfl h1 (item _ _ _ _ 32 _ _ rfl hq (item _ _ _ _ 32 _ _ rfl h1 (item _ _ _ _ 32 _ _ rfl hr (item _ _ _ _ 32 _ _ rfl h3
      (item _ _ _ _ 32 _ _ rfl h0 (item _ _ _ _ 32 _ _ rfl h1 (item _ _ _ _ 32 _ _ rfl h1 (.data (c := 9) (by unfold Skipped; decide) (word _ _ _ 10 _ _ rfl .nil)))))))))))))))))))))))))))))))
  exact ⟨true, _, [], w, (by intro c hc; cases hc), by decide +kernel⟩

theorem demoBinaryParts_fits : ∀ p ∈ demoBinaryParts, p.Fits demoDebug := by
  intro p hp
  simp only [demoBinaryParts, List.mem_cons, List.not_mem_nil, or_false] at hp
  rcases hp with rfl | rfl | rfl | rfl | rfl | rfl
  all_goals refine ⟨⟨rfl, ?_, rfl, by simp [Part.add], ?_, by simp [Part.add], by simp [Part.add], by simp [Part.add], by simp [Part.add]⟩,
    ⟨by decide, by decide⟩, by decide, by simp [Part.add], by simp [Part.Extension], ⟨by decide, by decide⟩, ?_, ?_⟩
  all_goals first
    | (intro n ws h; injection h with h1 h2; subst h1 h2; unfold Word; decide)
    | (intro n h; injection h with h1; subst h1; unfold Word; decide)
    | (intro n ws h; cases h; done)
    | (intro n h; cases h; done)
    | (intro b hb; cases hb; done)
    | skip
  · intro b hb
    simp only [Part.add, List.mem_cons, List.not_mem_nil, or_false] at hb
    subst hb
    exact ⟨by decide, rfl, rfl⟩
  · intro d hd
    simp only [Part.add, List.nil_append, List.mem_singleton] at hd
    subst hd
    exact ⟨0, 1, 1, [], rfl, by decide, by decide, by
      intro e he
      simp only [List.mem_cons, List.not_mem_nil, or_false] at he
      subst he
      decide⟩

/-- C71: the file loads. -/
example : loadMsh demoDebug demoBinary = .ok { meshFormat := ⟨b! "4.1", 1, 8⟩
                                               physicalGroups := [⟨2, 7, (b! "upper" : Bytes)⟩]
                                               nodes := ⟨1, 1, 1, 1, [⟨0, 1, 0, 1, [1], [⟨0x3FF8000000000000⟩, ⟨0x3FF0000000000000⟩, ⟨0x8000000000000000⟩]⟩]⟩
                                               nodeData := [⟨⟨[b! "t"], [⟨0x3FF8000000000000⟩], [0, 1, 1]⟩, [⟨1, 0, [⟨0x3FF0000000000000⟩]⟩]⟩] } :=
  C71_any_program demoDebug demoBinaryParts demoBinaryParts_fits (by simp [demoBinaryParts, Part.SmallTags, Part.add])
    (by simp [demoBinaryParts, Part.name, Part.Repeats]) ⟨[.stray _, .names _], _, rfl, by simp [Part.AlwaysText]⟩ (by decide) demoBinary demoBinary_file

end MshIO
