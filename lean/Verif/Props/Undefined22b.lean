import Verif.Props.Undefined

/-!
# C36: undefined behaviour of `load_msh` on binary files of version 2.2

`NodesUndefined`, `ElementsUndefined` and `Harmless22b` are in `Spec/Hazards.lean`.  In builds with and without assertions, a binary version 2.2 file without a second
`$MeshFormat` whose data sections have complete heads is undefined exactly if the main loop arrives at a counted section cut off before its counter, at a data section that is
cut off, at a `$Nodes` section whose data end too early, at an `$Elements` section whose groups end too early or announce too many tags, or at the end of the file with a node tag
outside the table made after reading.
-/

namespace MshIO

/-- **C36**, binary files of version 2.2 (partial: missing are the features `Harmless22b` excludes).  Whatever bytes follow the header, unless they use these features,
loading is undefined exactly if a counter is missing, data are cut off, reading nodes is undefined, or reading elements, or the table made after reading is too small. -/
theorem C36_binary22_partial (cfg : Cfg) (hm : 57 ≤ cfg.maxCount) {header rest : Bytes} {t : Int32} (ht : t ≠ 0)
    (hh : Boundary cfg header { meshFormat := ⟨b! "2.2", t, 8⟩ }) (hr : Harmless22b cfg t rest) :
    loadMsh cfg (header ++ rest) = .ub ↔
      CounterMissing cfg (header ++ rest) ∨ DataCutOff cfg ⟨b! "2.2", t, 8⟩ (header ++ rest) ∨
      (∃ s r N d, ArrivesAt cfg (header ++ rest) s (b! "$Nodes") r ∧ s.meshFormat = ⟨b! "2.2", t, 8⟩ ∧ Counted r N d ∧ NodesUndefined cfg s N d) ∨
      (∃ s r N d, ArrivesAt cfg (header ++ rest) s (b! "$Elements") r ∧ s.meshFormat = ⟨b! "2.2", t, 8⟩ ∧ Counted r N d ∧ ElementsUndefined cfg s N d) ∨
      (∃ s st, Arrives cfg (Stream.ofBytes (header ++ rest)) (s, st) ∧ st.eof = true ∧
        s.tableSize ≤ cfg.maxCount ∧ ∃ tag, s.LooksUp tag ∧ s.tableSize ≤ s.tableIndex tag) := by
  constructor
  · intro hu
    rcases file_ub (F := ⟨rest, false⟩) (I := fun s => s.meshFormat = ⟨b! "2.2", t, 8⟩)
      (H := fun s buf r => NoCounter cfg buf r ∨ BadData cfg s buf r ∨ BadNodes22 cfg s buf r ∨ BadElements22 cfg s buf r)
      (fun buf _ h => section_binary22 hm ht hr buf h) hh rfl hu with ⟨s, buf, r, hs, ha, h | h | h | h⟩ | ⟨s, st, -, ha, he, -⟩
    · exact Or.inl (.of ha h)
    · exact Or.inr (Or.inl (.of hs ha h))
    · obtain ⟨rfl, N, d, hc, hu⟩ := h
      exact Or.inr (Or.inr (Or.inl ⟨s, r, N, d, ha, hs, hc, hu⟩))
    · obtain ⟨rfl, N, d, hc, hu⟩ := h
      exact Or.inr (Or.inr (Or.inr (Or.inl ⟨s, r, N, d, ha, hs, hc, hu⟩)))
    · exact Or.inr (Or.inr (Or.inr (Or.inr ⟨s, st, ha, he, (C36_table22 cfg rfl hh hr.format ha he).mp hu⟩)))
  · rintro (h | h | ⟨s, r, N, d, ⟨-, w, hw, ha⟩, hf, hc, hu⟩ | ⟨s, r, N, d, ⟨-, w, hw, ha⟩, hf, hc, hu⟩ | ⟨s, st, ha, he, h⟩)
    · exact h.ub
    · exact h.ub (Or.inr rfl)
    · exact (loadMsh_ub_iff cfg _).mpr (Or.inl ⟨s, _, ha, rfl, (round22b_nodes (by rw [hf]) (by rw [hf]; exact ht) hw hc).mpr hu⟩)
    · exact (loadMsh_ub_iff cfg _).mpr (Or.inl ⟨s, _, ha, rfl, (round22b_elements hm (by rw [hf]) (by rw [hf]; exact ht) hw hc).mpr hu⟩)
    · exact (C36_table22 cfg rfl hh hr.format ha he).mpr h

/-! ## Concrete cases -/

theorem boundary_binary22 (cfg : Cfg) : Boundary cfg hdr22b { meshFormat := ⟨b! "2.2", 1, 8⟩ } := ⟨b! "\n", by decide, .single ⟨rfl, rfl⟩⟩

/-- A binary file with a node and one of two elements, followed by `pad`. -/
def demoCut22b (pad : Bytes) : Bytes :=
  b! "$Nodes\n1\n" ++ encI32 7 ++ [0, 0, 0].flatMap encU64 ++ b! "\n$EndNodes\n$Elements\n2\n" ++ [15, 1, 0, 1, 7].flatMap encI32 ++ pad

theorem demoCut22b_harmless : Harmless22b demoDebug 1 (demoCut22b (b! "abcdefghijk")) := by
  refine ⟨not_occurs (by decide +kernel), data_of_not_occurs (by decide +kernel), ?_, ?_⟩
  · intro r hr
    have h := suffix_tails hr
    have e : (((demoCut22b (b! "abcdefghijk")).tails.filter fun t => (b! "$Nodes").isPrefixOf t).map fun t => t.drop (b! "$Nodes").length) =
        [b! "\n" ++ decU64 1 ++ 10 :: (encI32 7 ++ [0, 0, 0].flatMap encU64 ++ b! "\n$EndNodes\n$Elements\n2\n" ++ [15, 1, 0, 1, 7].flatMap encI32 ++
          b! "abcdefghijk")] := by decide +kernel
    rw [e, List.mem_singleton] at h
    exact ⟨1, _, b! "\n", 10, h, by unfold Blank; decide, by simp, Or.inl rfl⟩
  · intro r hr
    have h := suffix_tails hr
    have e : (((demoCut22b (b! "abcdefghijk")).tails.filter fun t => (b! "$Elements").isPrefixOf t).map fun t => t.drop (b! "$Elements").length) =
        [b! "\n" ++ decU64 2 ++ 10 :: ([15, 1, 0, 1, 7].flatMap encI32 ++ b! "abcdefghijk")] := by decide +kernel
    rw [e, List.mem_singleton] at h
    exact ⟨2, _, b! "\n", 10, h, by unfold Blank; decide, by simp, Or.inl rfl⟩

set_option maxRecDepth 100000 in
/-- The second group of the file is cut off in its header. -/
example : loadMsh demoDebug (hdr22b ++ demoCut22b (b! "abcdefghijk")) = .ub := by
  refine (C36_binary22_partial demoDebug (by decide) (t := 1) (by decide) (boundary_binary22 _) demoCut22b_harmless).mpr (Or.inr (Or.inr (Or.inr (Or.inl ?_))))
  have ha : ∃ s w, Blank w ∧ s.meshFormat = ⟨b! "2.2", 1, 8⟩ ∧ s.elements.entityBlocks = [] ∧
      Arrives demoDebug (Stream.ofBytes (hdr22b ++ demoCut22b (b! "abcdefghijk")))
        (s, ⟨w ++ b! "$Elements" ++ (b! "\n" ++ decU64 2 ++ 10 :: ([15, 1, 0, 1, 7].flatMap encI32 ++ b! "abcdefghijk")), false, false⟩) :=
    ⟨_, b! "\n", by unfold Blank; decide, rfl, rfl, .head ⟨rfl, rfl⟩ (.single ⟨rfl, rfl⟩)⟩
  obtain ⟨s, w, hw, hf, hb, ha⟩ := ha
  refine ⟨s, _, 2, _, ⟨by decide, w, hw, ha⟩, hf, ⟨b! "\n", 10, rfl, by unfold Blank; decide, by simp, Or.inl rfl⟩, by decide, ?_⟩
  rw [hb]
  exact .next (ty := 15) (nb := 1) (nt := 0) (k := 1) (r := encI32 1 ++ encI32 7 ++ b! "abcdefghijk") (by decide) ⟨rfl, rfl⟩ (by decide) (Or.inl (by decide)) (by decide)
    (by decide) (by decide) (by decide) (.header (by decide) (by decide) (by decide))

/-- A build that can allocate vectors of any reasonable length. -/
def demoBig : Cfg := ⟨true, false, .general 6, 2 ^ 40, by decide⟩

/-- Elements with `2^29` tags are undefined in it: the number of their bytes does not fit into `int`. -/
theorem demoTags22b : ElementsUndefined demoBig {} 1 ([1, 1, 2 ^ 29, 1, 2, 3].flatMap encI32) :=
  ⟨by decide, .tags (ty := 1) (nb := 1) (nt := 2 ^ 29) (k := 2) (r := [1, 2, 3].flatMap encI32) (by decide) (by decide) ⟨rfl, rfl⟩ (by decide) (by decide) (by decide)⟩

/-- Elements with one tag less are not. -/
example : ¬ ElementsUndefined demoBig {} 1 ([1, 1, 2 ^ 29 - 1, 1, 2, 3].flatMap encI32) := by
  rintro ⟨-, h⟩
  cases h with
  | header _ _ h => exact absurd h (by decide)
  | first _ _ hg _ _ _ hr =>
    obtain ⟨e, -⟩ := hg
    obtain ⟨-, -, -, rfl⟩ := header_inj (r := [1, 2, 3].flatMap encI32) e
    exact absurd hr (by decide)
  | tags _ _ hg h =>
    obtain ⟨e, -⟩ := hg
    obtain ⟨-, -, rfl, -⟩ := header_inj (r := [1, 2, 3].flatMap encI32) e
    exact absurd h (by decide)
  | cut hg _ _ _ hb h =>
    obtain ⟨e, -⟩ := hg
    obtain ⟨-, rfl, -, -⟩ := header_inj (r := [1, 2, 3].flatMap encI32) e
    exact absurd h (by decide)
  | next _ hg _ _ _ _ _ h =>
    obtain ⟨e, hk⟩ := hg
    obtain ⟨rfl, rfl, rfl, rfl⟩ := header_inj (r := [1, 2, 3].flatMap encI32) e
    cases hk
    exact absurd h (by decide)

/-- An entry of `$ElementNodeData` cut off in its number of nodes is undefined in version 2.2; the last one is not in version 4.1, where the number is taken to be what the bytes
present stand for. -/
example : EntriesUndefined demoCfg True True 1 1 (encI32 7 ++ [2]) ∧ ¬ EntriesUndefined demoCfg False True 1 1 (encI32 7 ++ [2]) ∧
    EntriesUndefined demoCfg False True 1 2 (encI32 7 ++ [2]) := by
  refine ⟨.count trivial trivial (by decide), ?_, .short (npe := 2) id trivial (by decide) (by decide) (by decide) (by decide)⟩
  generalize hd : encI32 7 ++ [2] = d
  intro h
  cases h with
  | tag h => subst hd; exact absurd h (by decide)
  | count h => exact h
  | next h => exact absurd h.length (by subst hd; decide)

/-- In builds with assertions, data of `$Nodes` cut off after the number of a node stop the program; cut off in the number, they are undefined. -/
example : ¬ NodesUndefined demoDebug {} 2 (encI32 1 ++ [0, 0, 0].flatMap encU64 ++ encI32 2) ∧
    ¬ NodesUndefined demoDebug {} 2 (encI32 1 ++ b! "abc") ∧
    NodesUndefined demoDebug {} 2 (encI32 1 ++ [0, 0, 0].flatMap encU64 ++ b! "abc") ∧ NodesUndefined demoCfg {} 2 (encI32 1 ++ b! "abc") := by
  unfold NodesUndefined
  decide +kernel

end MshIO
