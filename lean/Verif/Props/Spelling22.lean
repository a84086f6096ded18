import Verif.Proofs.Spell22
import Verif.Props.Spelling

/-!
# C70: text files of version 2.2 by any program
-/

namespace MshIO

/-- What the post-processing makes of the nodes and elements that were read. -/
theorem finish_parts22 (cfg : Cfg) (parts : List Part22) (hfit : ∀ p ∈ parts, p.Fits cfg)
    (hr : NodesInRange (nodesIn parts) ((elementsIn parts).map FileElem.elem))
    (hf : Fits22 cfg (nodesIn parts) ((elementsIn parts).map FileElem.elem)) (s : MshSpec) (hv : s.meshFormat.version = b! "2.2")
    (hN : s.nodes = if parts.any Part22.isNodes then rawNodes (nodesIn parts) else {})
    (hE : s.elements = if parts.any Part22.isElements then rawElements ((elementsIn parts).map FileElem.elem) else {}) :
    loadPostProcess cfg s = .ok { s with
      nodes := if parts.any Part22.isNodes then nodesOf (nodesIn parts) ((elementsIn parts).map FileElem.elem) else {}
      elements := if parts.any Part22.isElements then elementsOf ((elementsIn parts).map FileElem.elem) else {} } := by
  have ho : ∀ f ∈ elementsIn parts, f.Ok := by
    intro f hf
    obtain ⟨p, hp, hf⟩ := List.mem_flatMap.mp hf
    cases p with
    | elements fs => exact (hfit _ hp f hf).1
    | _ => cases hf
  rw [loadPostProcess22 cfg _ hv (nodesIn parts) ((elementsIn parts).map FileElem.elem) ?_ ?_ (typed_file ho) hr hf]
  · congr 1
    rw [hN, hE]
    congr 1
    · by_cases hN : parts.any Part22.isNodes
      · simp only [if_pos hN]
        rw [if_neg]
        rintro ⟨_, h⟩
        have := congrArg Nodes.entityBlocks h
        simp [rawNodes] at this
      · simp only [if_neg hN]
        rw [if_pos ⟨none_nodes (by simpa using hN), trivial⟩]
    · by_cases hE : parts.any Part22.isElements
      · simp only [if_pos hE]
        rfl
      · simp only [if_neg hE]
        rw [none_elements (by simpa using hE)]
        rfl
  · rw [hN]
    by_cases hN : parts.any Part22.isNodes
    · left; simp only [if_pos hN]
    · right; simp only [if_neg hN]; exact ⟨none_nodes (by simpa using hN), trivial⟩
  · rw [hE]
    by_cases hE : parts.any Part22.isElements
    · simp only [if_pos hE]; exact ⟨rfl, rfl⟩
    · simp only [if_neg hE]
      rw [none_elements (by simpa using hE)]
      exact ⟨rfl, rfl⟩

theorem entities_none (parts : List Part22) :
    (if parts.any Part22.isElements then entitiesFrom (physOf (elementsIn parts)) else {}) = entitiesFrom (physOf (elementsIn parts)) := by
  by_cases hE : parts.any Part22.isElements
  · rw [if_pos hE]
  · rw [if_neg hE, none_elements (by simpa using hE)]
    rfl

theorem load_text22 (cfg : Cfg) (parts : List Part22) (hfit : ∀ p ∈ parts, p.Fits cfg)
    (honce : parts.Pairwise fun p q => p.name = q.name → p.Repeats)
    (hhead : ∃ lead d rest, parts = lead ++ .format d :: rest ∧ ∀ p ∈ lead, ¬ p.NeedsFormat)
    (hr : NodesInRange (nodesIn parts) ((elementsIn parts).map FileElem.elem))
    (hf : Fits22 cfg (nodesIn parts) ((elementsIn parts).map FileElem.elem))
    (hroom : (restOf parts).nodeData.length ≤ cfg.maxCount ∧ (restOf parts).elementData.length ≤ cfg.maxCount ∧
      (restOf parts).elementNodeData.length ≤ cfg.maxCount)
    (file : Bytes) (h : TextFile22 parts file) : loadMsh cfg file = .ok { restOf parts with
      entities := entitiesFrom (physOf (elementsIn parts))
      nodes := if parts.any Part22.isNodes then nodesOf (nodesIn parts) ((elementsIn parts).map FileElem.elem) else {}
      elements := if parts.any Part22.isElements then elementsOf ((elementsIn parts).map FileElem.elem) else {} } := by
  obtain ⟨lead, words, rfl, hl, hw, hs, hi⟩ := h
  have h2 := hf.two
  have hraw := raw_fold parts {} {} {} {} hfit honce
  have e0 : MshSpec.withMesh {} {} {} {} = {} := rfl
  rw [e0] at hraw
  obtain ⟨h1, hv⟩ := rounds_parts22 (by omega) parts (s := {}) (Or.inr hhead) rfl hfit
    (fun p _ => by
      cases p with
      | common p => cases p <;> first | trivial | rfl
      | nodes ns => rfl
      | elements fs => exact ⟨rfl, rfl⟩
      | format d => trivial) honce (by rw [hraw]; exact ⟨hroom.1, hroom.2.1, hroom.2.2⟩) hf.coords (by rw [elemEntries_eq]; exact hf.entries)
  rw [loadMsh_finish, spaced_flat, h1.load hl hw hs (by rw [← List.flatMap_def]; exact hi)]
  rw [hraw] at hv ⊢
  rw [finish_parts22 cfg parts hfit hr hf _ hv rfl rfl]
  congr 1
  unfold MshSpec.withMesh restOf
  simp only [entities_none]

theorem sorted_unique {α : Type} {f : α → Int32} {a b : List α} (ha : a.Pairwise fun x y => f x < f y) (hb : b.Pairwise fun x y => f x < f y)
    (h : ∀ x, x ∈ a ↔ x ∈ b) : a = b := by
  have hn : ∀ {l : List α}, (l.Pairwise fun x y => f x < f y) → l.Nodup := fun h => h.imp fun hlt e => by
    subst e; exact Int32.lt_irrefl hlt
  refine ((List.perm_ext_iff_of_nodup (hn ha) (hn hb)).mpr h).eq_of_pairwise ?_ ha hb
  intro x y _ _ h1 h2
  exact (Int32.lt_irrefl (Int32.lt_trans h1 h2)).elim

/-- The entities named by elements are determined. -/
theorem entitiesAre_unique {fs : List FileElem} {d : Nat} {a b : List (Int32 × List Int32)} (ha : EntitiesAre fs d a) (hb : EntitiesAre fs d b) : a = b := by
  have key : ∀ {a b : List (Int32 × List Int32)}, EntitiesAre fs d a → EntitiesAre fs d b → ∀ x ∈ a, x ∈ b := by
    intro a b ha hb x hx
    obtain ⟨y, hy, e⟩ := (hb.tags x.1).mpr ((ha.tags x.1).mp ⟨x, hx, rfl⟩)
    have : x = y := by
      refine Prod.ext e.symm ?_
      refine sorted_unique (f := id) (ha.sortedTags x hx) (hb.sortedTags y hy) fun p => ?_
      rw [ha.groups x hx, hb.groups y hy, e]
    rw [this]; exact hy
  exact sorted_unique (f := Prod.fst) ha.sorted hb.sorted fun x => ⟨key ha hb x, key hb ha x⟩

/-- **C70** Parts describe one mesh. -/
theorem C70_unique (parts : List Part22) (s s' : MshSpec) (h : MeshOf22 parts s) (h' : MeshOf22 parts s') : s = s' := by
  obtain ⟨a, ha, rfl⟩ := h
  obtain ⟨b, hb, rfl⟩ := h'
  rw [show a = b from funext fun d => entitiesAre_unique (ha d) (hb d)]

/-- **C70** A text file of version 2.2 loads to the mesh it describes: sections in any order, nodes and elements after the header; nodes and elements at most once, data sections any number of
times; elements with any number of tags; unknown sections and words between sections anywhere; any white space; whole numbers with any sign and zeros in front; doubles as any numerals that are
nearest to them; names quoted or bare.  Every node of an element is between the smallest and the largest node tag. -/
theorem C70_any_spelling (cfg : Cfg) (parts : List Part22) (hfit : ∀ p ∈ parts, p.Fits cfg)
    (honce : parts.Pairwise fun p q => p.name = q.name → p.Repeats)
    (hhead : ∃ lead d rest, parts = lead ++ .format d :: rest ∧ ∀ p ∈ lead, ¬ p.NeedsFormat)
    (hr : NodesInRange (nodesIn parts) ((elementsIn parts).map FileElem.elem))
    (hf : Fits22 cfg (nodesIn parts) ((elementsIn parts).map FileElem.elem))
    (hroom : (restOf parts).nodeData.length ≤ cfg.maxCount ∧ (restOf parts).elementData.length ≤ cfg.maxCount ∧
      (restOf parts).elementNodeData.length ≤ cfg.maxCount)
    (file : Bytes) (h : TextFile22 parts file) : ∃ s, loadMsh cfg file = .ok s ∧ MeshOf22 parts s :=
  ⟨_, load_text22 cfg parts hfit honce hhead hr hf hroom file h, physOf (elementsIn parts), physOf_entitiesAre _, rfl⟩

/-! ## A file -/

/-- Header, elements in front of nodes, a section MshIO does not know, data. -/
def demoParts22 : List Part22 :=
  [.common (.stray (b! "made")), .format 8, .elements [⟨5, 1, [7, 3, 0], [1, 2]⟩, ⟨6, 15, [], [2]⟩], .common (.other (b! "Periodic") [b! "0"]),
   .nodes [⟨1, ⟨0x3FF8000000000000⟩, ⟨0x3FF0000000000000⟩, ⟨0x8000000000000000⟩⟩, ⟨2, ⟨0⟩, ⟨0⟩, ⟨0⟩⟩],
   .common (.nodeData ⟨⟨[b! "t"], [], [0, 1, 1]⟩, [⟨2, 0, [⟨0x3FF0000000000000⟩]⟩]⟩)]

/-- A file that describes it. -/
def demoText22 : Bytes :=
  b! "made\n$MeshFormat\n2.2 0 8\n$EndMeshFormat\n$Elements\n2\n5 1 3 7 3 0 1 2\n6 15 0 +2\n$EndElements\n$Periodic\n0\n$EndPeriodic\n$Nodes\n2\n1 1.5 1.e0 -0\n2 0 0 0\n$EndNodes\n$NodeData\n1\nt\n0\n3\n0\n1\n1\n2 1\n$EndNodeData"

theorem demoText22_textFile : TextFile22 demoParts22 demoText22 := by
  refine ⟨[], [(b! "made", b! "\n"), (b! "$MeshFormat", b! "\n"), (b! "2.2", b! " "), (b! "0", b! " "), (b! "8", b! "\n"), (b! "$EndMeshFormat", b! "\n"),
    (b! "$Elements", b! "\n"), (b! "2", b! "\n"), (b! "5", b! " "), (b! "1", b! " "), (b! "3", b! " "), (b! "7", b! " "), (b! "3", b! " "), (b! "0", b! " "), (b! "1", b! " "), (b! "2", b! "\n"),
    (b! "6", b! " "), (b! "15", b! " "), (b! "0", b! " "), (b! "+2", b! "\n"), (b! "$EndElements", b! "\n"),
    (b! "$Periodic", b! "\n"), (b! "0", b! "\n"), (b! "$EndPeriodic", b! "\n"),
    (b! "$Nodes", b! "\n"), (b! "2", b! "\n"), (b! "1", b! " "), (b! "1.5", b! " "), (b! "1.e0", b! " "), (b! "-0", b! "\n"),
    (b! "2", b! " "), (b! "0", b! " "), (b! "0", b! " "), (b! "0", b! "\n"), (b! "$EndNodes", b! "\n"),
    (b! "$NodeData", b! "\n"), (b! "1", b! "\n"), (b! "t", b! "\n"), (b! "0", b! "\n"), (b! "3", b! "\n"), (b! "0", b! "\n"), (b! "1", b! "\n"), (b! "1", b! "\n"),
    (b! "2", b! " "), (b! "1", b! "\n"), (b! "$EndNodeData", [])], by decide +kernel, ?_, ?_, ?_, ?_⟩
  · intro c hc; cases hc
  · unfold Blank; decide
  · decide
  · have hw : ∀ w, Item.Spelled (.word w) w := fun w => .word
    have hi : ∀ (s : Option Bool) (ds : List (Fin 10)) (z : ℤ) (t : Bytes), ds ≠ [] → signValue s * digitsValue ds = z → signText s ++ digitsText ds = t →
        Item.Spelled (.whole z) t := by rintro s ds z t h1 h2 rfl; exact .whole h1 h2
    have h0 := hi none [0] 0 (b! "0") (by simp) rfl rfl
    have h1 := hi none [1] 1 (b! "1") (by simp) rfl rfl
    have h2 := hi none [2] 2 (b! "2") (by simp) rfl rfl
    have h3 := hi none [3] 3 (b! "3") (by simp) rfl rfl
    have hr : ∀ (n : Numeral) (d : Double) (t : Bytes), n.Proper → |n.value| ≤ 1000 → n.text = t →
        inDouble Double.zero (gs ([] ++ n.text ++ [])) = .ok (d, ⟨[], true, false⟩) → Item.Spelled (.real d) t := by
      rintro n d t hn hq rfl h
      exact spelled_real hn (inRange_small hq) h
    have r0 : Item.Spelled (.real ⟨0⟩) (b! "0") := by
      refine hr ⟨none, [0], none, none⟩ _ _ ⟨by decide, by simp⟩ ?_ rfl (by decide +kernel)
      norm_num [Numeral.value, Numeral.size, Numeral.power, signValue, digitsValue, Numeral.fracDigits]
    refine .cons (hw _) (.cons (hw _) (.cons (hw _) (.cons h0 (.cons (hi none [8] 8 _ (by simp) rfl rfl) (.cons (hw _) ?_)))))
    refine .cons (hw _) (.cons h2 (.cons (hi none [5] 5 _ (by simp) rfl rfl) (.cons h1 (.cons h3 (.cons (hi none [7] 7 _ (by simp) rfl rfl) (.cons h3 (.cons h0 (.cons h1 (.cons h2 ?_)))))))))
    refine .cons (hi none [6] 6 _ (by simp) rfl rfl) (.cons (hi none [1, 5] 15 _ (by simp) rfl rfl) (.cons h0 (.cons (hi (some false) [2] 2 _ (by simp) rfl rfl) (.cons (hw _) ?_))))
    refine .cons (hw _) (.cons (hw _) (.cons (hw _) ?_))
    refine .cons (hw _) (.cons h2 (.cons h1 ?_))
    refine .cons (hr ⟨none, [1], some [5], none⟩ _ _ ⟨by decide, by simp⟩ ?_ rfl (by decide +kernel)) ?_
    · norm_num [Numeral.value, Numeral.size, Numeral.power, signValue, digitsValue, Numeral.fracDigits]
    refine .cons (hr ⟨none, [1], some [], some ⟨false, none, [0]⟩⟩ _ _ ⟨by decide, by simp⟩ ?_ rfl (by decide +kernel)) ?_
    · norm_num [Numeral.value, Numeral.size, Numeral.power, signValue, digitsValue, Numeral.fracDigits]
    refine .cons (hr ⟨some true, [0], none, none⟩ _ _ ⟨by decide, by simp⟩ ?_ rfl (by decide +kernel)) ?_
    · norm_num [Numeral.value, Numeral.size, Numeral.power, signValue, digitsValue, Numeral.fracDigits]
    refine .cons h2 (.cons r0 (.cons r0 (.cons r0 (.cons (hw _) ?_))))
    refine .cons (hw _) (.cons h1 (.cons (.name (Or.inr ⟨rfl, by decide, by decide, by decide⟩)) (.cons h0 (.cons h3 (.cons h0 (.cons h1 (.cons h1 (.cons h2 ?_))))))))
    refine .cons (hr ⟨none, [1], none, none⟩ _ _ ⟨by decide, by simp⟩ ?_ rfl (by decide +kernel)) (.cons (hw _) .nil)
    norm_num [Numeral.value, Numeral.size, Numeral.power, signValue, digitsValue, Numeral.fracDigits]

theorem demoParts22_fits : ∀ p ∈ demoParts22, p.Fits demoDebug := by
  intro p hp
  simp only [demoParts22, List.mem_cons, List.not_mem_nil, or_false] at hp
  rcases hp with rfl | rfl | rfl | rfl | rfl | rfl
  rotate_left
  · trivial
  · intro f hf
    simp only [List.mem_cons, List.not_mem_nil, or_false] at hf
    rcases hf with rfl | rfl <;> exact ⟨rfl, by decide, by decide⟩
  rotate_left
  · trivial
  all_goals refine ⟨trivial, ⟨rfl, (by intro b hb; cases hb), rfl, by simp [Part.add], ?_, by simp [Part.add], by simp [Part.add], by simp [Part.add], by simp [Part.add]⟩,
    ⟨by decide, by decide⟩, by decide, by simp [Part.add], by simp [Part.Extension], ⟨by decide, by decide⟩, ?_, ?_⟩
  all_goals first
    | (intro n ws h; injection h with h1 h2; subst h1 h2; unfold Word; decide)
    | (intro n h; injection h with h1; subst h1; unfold Word; decide)
    | (intro n ws h; cases h; done)
    | (intro n h; cases h; done)
    | skip
  intro d hd
  simp only [Part.add, List.nil_append, List.mem_singleton] at hd
  subst hd
  exact ⟨0, 1, 1, [], rfl, by decide, by decide, by
    intro e he
    simp only [List.mem_cons, List.not_mem_nil, or_false] at he
    subst he
    decide⟩

/-- C70: the file loads; the line is entity 3 of dimension 1 and in the physical group 7. -/
example : ∃ s, loadMsh demoDebug demoText22 = .ok s ∧ MeshOf22 demoParts22 s :=
  C70_any_spelling demoDebug demoParts22 demoParts22_fits (by simp [demoParts22, Part22.name, Part22.Repeats, Part.name, Part.Repeats])
    ⟨[.common (.stray (b! "made"))], 8, _, rfl, by simp [Part22.NeedsFormat]⟩ (by unfold NodesInRange; decide) ⟨by decide, by decide, by decide, by decide⟩ (by decide) _ demoText22_textFile

/-- The mesh. -/
example : MeshOf22 demoParts22 { meshFormat := ⟨b! "2.2", 0, 8⟩
                                 entities := { curves := [{ tag := 3, physicalGroupTags := [7] }] }
                                 nodes := ⟨2, 2, 1, 2, [⟨1, 3, 0, 1, [1], [⟨0x3FF8000000000000⟩, ⟨0x3FF0000000000000⟩, ⟨0x8000000000000000⟩]⟩,
                                   ⟨0, 1, 0, 1, [2], [⟨0⟩, ⟨0⟩, ⟨0⟩]⟩]⟩
                                 elements := ⟨2, 2, 5, 6, [⟨1, 3, 1, 1, [5, 1, 2]⟩, ⟨0, 1, 15, 1, [6, 2]⟩]⟩
                                 nodeData := [⟨⟨[b! "t"], [], [0, 1, 1]⟩, [⟨2, 0, [⟨0x3FF0000000000000⟩]⟩]⟩] } :=
  ⟨physOf (elementsIn demoParts22), physOf_entitiesAre _, by decide +kernel⟩

end MshIO
