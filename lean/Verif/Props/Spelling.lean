import Verif.Proofs.SpellFile
import Verif.Props.Format
import Verif.Props.Numeral

/-!
# C69: text files of version 4.1 by any program

`Spec/Spelling.lean` says which text files describe a mesh: the sections come in any order, unknown sections and other words are among them, and every item
is spelled in any way the format allows.  MshIO loads each of these files to the mesh it describes.
-/

namespace MshIO

/-- **C69** A text file of version 4.1 loads to the mesh it describes: sections in any order, each of those for the mesh at most once, data sections any number of times; unknown sections and
words between sections anywhere; any white space; whole numbers with any sign and zeros in front; doubles as any numerals that are nearest to them; names quoted or bare. -/
theorem C69_any_spelling (cfg : Cfg) (parts : List Part) (hfit : ∀ p ∈ parts, p.Fits cfg)
    (honce : parts.Pairwise fun p q => p.name = q.name → p.Repeats)
    (hroom : (meshOf parts).nodeData.length ≤ cfg.maxCount ∧ (meshOf parts).elementData.length ≤ cfg.maxCount ∧
      (meshOf parts).elementNodeData.length ≤ cfg.maxCount)
    (file : Bytes) (h : TextFile parts file) : loadMsh cfg file = .ok (meshOf parts) := by
  obtain ⟨lead, words, rfl, hl, hw, hs, hi⟩ := h
  rw [loadMsh_finish, spaced_flat]
  obtain ⟨h1, h2⟩ := rounds_parts parts (s := {}) rfl rfl hfit (fun p _ => by cases p <;> first | trivial | rfl) honce ⟨hroom.1, hroom.2.1, hroom.2.2⟩
  rw [h1.load hl hw hs (by rw [← List.flatMap_def]; exact hi)]
  unfold loadPostProcess
  rw [if_neg (by rw [h2]; decide)]
  rfl

/-- **C69** So a file does not describe two meshes. -/
theorem C69_unambiguous (cfg : Cfg) (parts parts' : List Part) (hfit : ∀ p ∈ parts, p.Fits cfg) (hfit' : ∀ p ∈ parts', p.Fits cfg)
    (honce : parts.Pairwise fun p q => p.name = q.name → p.Repeats) (honce' : parts'.Pairwise fun p q => p.name = q.name → p.Repeats)
    (hroom : (meshOf parts).nodeData.length ≤ cfg.maxCount ∧ (meshOf parts).elementData.length ≤ cfg.maxCount ∧
      (meshOf parts).elementNodeData.length ≤ cfg.maxCount)
    (hroom' : (meshOf parts').nodeData.length ≤ cfg.maxCount ∧ (meshOf parts').elementData.length ≤ cfg.maxCount ∧
      (meshOf parts').elementNodeData.length ≤ cfg.maxCount)
    (file : Bytes) (h : TextFile parts file) (h' : TextFile parts' file) : meshOf parts = meshOf parts' := by
  have h1 := C69_any_spelling cfg parts hfit honce hroom file h
  rw [C69_any_spelling cfg parts' hfit' honce' hroom' file h'] at h1
  exact (Outcome.ok.inj h1).symm

/-! ## A file -/

theorem spelled_real {d : Double} {n : Numeral} (hn : n.Proper) (hq : InRange n.value)
    (h : inDouble Double.zero (gs ([] ++ n.text ++ [])) = .ok (d, ⟨[], true, false⟩)) : Item.Spelled (.real d) n.text := by
  obtain ⟨e, h1, h2, h3⟩ := C48_number_read n hn hq Double.zero [] [] (by intro c hc; cases hc) (by simp)
  rw [h] at h1
  injection h1 with h1
  injection h1 with h1 _
  subst h1
  exact .real hn hq h2 h3

/-- Header, a section MshIO does not know, a group, a word between sections, a node. -/
def demoParts : List Part :=
  [.format, .other (b! "Comments") [b! "see", b! "$Nodes", b! "below"], .names [⟨2, 7, b! "upper"⟩], .stray (b! "end-of-header"),
   .nodes ⟨1, 1, 1, 1, [⟨0, 1, 0, 1, [1], [⟨0x3FF8000000000000⟩, ⟨0x3FF0000000000000⟩, ⟨0x8000000000000000⟩]⟩]⟩]

/-- A file that describes it.  There is no white space at its end. -/
def demoText : Bytes :=
  b! "$MeshFormat\r\n4.1 0 +8\r\n$EndMeshFormat\r\n$Comments see $Nodes below $EndComments\n$PhysicalNames\n1\n2 007\tupper\n$EndPhysicalNames\nend-of-header\n$Nodes\n1 1 1 1\n0 1 -0 01\n1\n+1.50 .1e1 -0\n$EndNodes"

theorem inRange_small {q : ℚ} (h : |q| ≤ 1000) : InRange q := by
  unfold InRange
  have h1 : (1000 : ℚ) ≤ 2 ^ 970 := le_trans (by norm_num) (pow_le_pow_right₀ (by norm_num : (1 : ℚ) ≤ 2) (by norm_num : 10 ≤ 970))
  have h2 : (2 : ℚ) ^ 1024 = 2 ^ 54 * 2 ^ 970 := by rw [← pow_add]
  rw [h2]
  generalize (2 : ℚ) ^ 970 = A at h1 ⊢
  norm_num
  linarith

theorem demoText_textFile : TextFile demoParts demoText := by
  refine ⟨[], [(b! "$MeshFormat", b! "\r\n"), (b! "4.1", b! " "), (b! "0", b! " "), (b! "+8", b! "\r\n"), (b! "$EndMeshFormat", b! "\r\n"),
    (b! "$Comments", b! " "), (b! "see", b! " "), (b! "$Nodes", b! " "), (b! "below", b! " "), (b! "$EndComments", b! "\n"),
    (b! "$PhysicalNames", b! "\n"), (b! "1", b! "\n"), (b! "2", b! " "), (b! "007", b! "\t"), (b! "upper", b! "\n"), (b! "$EndPhysicalNames", b! "\n"),
    (b! "end-of-header", b! "\n"), (b! "$Nodes", b! "\n"), (b! "1", b! " "), (b! "1", b! " "), (b! "1", b! " "), (b! "1", b! "\n"),
    (b! "0", b! " "), (b! "1", b! " "), (b! "-0", b! " "), (b! "01", b! "\n"), (b! "1", b! "\n"),
    (b! "+1.50", b! " "), (b! ".1e1", b! " "), (b! "-0", b! "\n"), (b! "$EndNodes", [])], by decide +kernel, ?_, ?_, ?_, ?_⟩
  · intro c hc; cases hc
  · unfold Blank; decide
  · decide
  · have hw : ∀ w, Item.Spelled (.word w) w := fun w => .word
    have hi : ∀ (s : Option Bool) (ds : List (Fin 10)) (z : ℤ) (t : Bytes), ds ≠ [] → signValue s * digitsValue ds = z → signText s ++ digitsText ds = t →
        Item.Spelled (.whole z) t := by rintro s ds z t h1 h2 rfl; exact .whole h1 h2
    have h0 := hi none [0] 0 (b! "0") (by simp) rfl rfl
    have h1 := hi none [1] 1 (b! "1") (by simp) rfl rfl
    have hr : ∀ (n : Numeral) (d : Double) (t : Bytes), n.Proper → |n.value| ≤ 1000 → n.text = t →
        inDouble Double.zero (gs ([] ++ n.text ++ [])) = .ok (d, ⟨[], true, false⟩) → Item.Spelled (.real d) t := by
      rintro n d t hn hq rfl h
      exact spelled_real hn (inRange_small hq) h
    refine .cons (hw _) (.cons (hw _) (.cons h0 (.cons (hi (some false) [8] 8 _ (by simp) rfl rfl) (.cons (hw _) ?_))))
    refine .cons (hw _) (.cons (hw _) (.cons (hw _) (.cons (hw _) (.cons (hw _) ?_))))
    refine .cons (hw _) (.cons h1 (.cons (hi none [2] 2 _ (by simp) rfl rfl) (.cons (hi none [0, 0, 7] 7 _ (by simp) rfl rfl) (.cons (.name (Or.inr ?_)) (.cons (hw _) ?_)))))
    · exact ⟨rfl, by decide, by decide, by decide⟩
    refine .cons (hw _) (.cons (hw _) (.cons h1 (.cons h1 (.cons h1 (.cons h1 ?_)))))
    refine .cons h0 (.cons h1 (.cons (hi (some true) [0] 0 _ (by simp) rfl rfl) (.cons (hi none [0, 1] 1 _ (by simp) rfl rfl) (.cons h1 ?_))))
    refine .cons (hr ⟨some false, [1], some [5, 0], none⟩ _ _ ⟨by decide, by simp⟩ ?_ rfl (by decide +kernel)) ?_
    · norm_num [Numeral.value, Numeral.size, Numeral.power, signValue, digitsValue, Numeral.fracDigits]
    refine .cons (hr ⟨none, [], some [1], some ⟨false, none, [1]⟩⟩ _ _ ⟨by decide, by simp⟩ ?_ rfl (by decide +kernel)) ?_
    · norm_num [Numeral.value, Numeral.size, Numeral.power, signValue, digitsValue, Numeral.fracDigits]
    refine .cons (hr ⟨some true, [0], none, none⟩ _ _ ⟨by decide, by simp⟩ ?_ rfl (by decide +kernel)) ?_
    · norm_num [Numeral.value, Numeral.size, Numeral.power, signValue, digitsValue, Numeral.fracDigits]
    exact .cons (hw _) .nil

theorem demoParts_fits : ∀ p ∈ demoParts, p.Fits demoDebug := by
  intro p hp
  simp only [demoParts, List.mem_cons, List.not_mem_nil, or_false] at hp
  rcases hp with rfl | rfl | rfl | rfl | rfl
  all_goals refine ⟨⟨rfl, ?_, rfl, by simp [Part.add], by simp [Part.add], by simp [Part.add], by simp [Part.add], by simp [Part.add], by simp [Part.add]⟩,
    ⟨by decide, by decide⟩, by decide, by simp [Part.add], by simp [Part.Extension], ⟨by decide, by decide⟩, ?_, ?_⟩
  all_goals first
    | (intro n ws h; injection h with h1 h2; subst h1 h2; unfold Word; decide)
    | (intro n h; injection h with h1; subst h1; unfold Word; decide)
    | (intro n ws h; cases h; done)
    | (intro n h; cases h; done)
    | (intro b hb; cases hb; done)
    | skip
  intro b hb
  simp only [Part.add, List.mem_cons, List.not_mem_nil, or_false] at hb
  subst hb
  exact ⟨by decide, rfl, rfl⟩

/-- C69: the file loads to the mesh with the group and the node. -/
example : loadMsh demoDebug demoText = .ok { physicalGroups := [⟨2, 7, (b! "upper" : Bytes)⟩]
                                             nodes := ⟨1, 1, 1, 1, [⟨0, 1, 0, 1, [1], [⟨0x3FF8000000000000⟩, ⟨0x3FF0000000000000⟩, ⟨0x8000000000000000⟩]⟩]⟩ } :=
  C69_any_spelling demoDebug demoParts demoParts_fits (by simp [demoParts, Part.name, Part.Repeats]) (by decide) demoText demoText_textFile

end MshIO
