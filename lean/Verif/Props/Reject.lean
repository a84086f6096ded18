import Verif.Spec.File41
import Verif.Proofs.Fails
import Verif.Props.Robust
import Verif.Props.Save

/-!
# C33: files with unsupported element types are rejected

`mshNodes t = none` (`Spec/Consistent.lean`) says that the MSH manual's table has no element of type `t`.
The saving half is in `Props/Save.lean`.
-/

namespace MshIO

/-! ## Helper lemmas -/

theorem blockWords_eq (b : ElementBlock) : blockWords b = elementBlockToks b := rfl

theorem blockBytes_eq (b : ElementBlock) : blockBytes b = elementBlockEnc b := by
  simp [blockBytes, blockHeadBytes, elementBlockEnc]

/-- An `$Elements` section whose reader throws after some words. -/
theorem loadMsh_elements_fails {cfg : Cfg} {a lead rest : Bytes} {spec : MshSpec} {words : List (Bytes × Bytes)} {e : Exc}
    (ha : Boundary cfg a spec) (hseps : ∀ q ∈ words, Blank q.2 ∧ q.2 ≠ []) (hlead : Blank lead ∧ lead ≠ [])
    (h : FailsT (loadElements cfg spec.meshFormat spec.elements spec.entities) (words.map Prod.fst) e) :
    loadMsh cfg (a ++ (b! "$Elements" ++ (Spaced lead words ++ rest))) = .throw e := by
  have hh : WsHead (Spaced lead words ++ rest) := by
    unfold Spaced; rw [List.append_assoc]; exact wsHead_append (Sep.head hlead)
  refine loadMsh_throw (name := b! "Elements") ha (by decide) (Or.inr hh) ?_
  rw [hh.stream, loadSection_elements]
  refine Rd.bind_throw ?_
  have e : Spaced lead words = lead ++ flat words := by simp [Spaced, flat, List.flatMap_def]
  rw [e]
  exact h words rfl hseps lead rest hlead.1

theorem one_of_mem {c : UInt8} (h : c ∈ b! " \t\n\r") : One [c] :=
  ⟨c, rfl, by
    simp only [List.mem_cons, List.not_mem_nil, or_false] at h
    rcases h with rfl | rfl | rfl | rfl <;> decide⟩

/-! ## The theorems -/

/-- **C33**, version 4.1, ASCII.  After any number of readable blocks, a block of an unknown element type makes
`load_msh` throw `UnsupportedFeature`, whatever follows its head. -/
theorem C33_load_ascii41 (cfg : Cfg) {a lead rest : Bytes} {spec : MshSpec} (ha : Boundary cfg a spec)
    (hv : spec.meshFormat.version = b! "4.1") (ht : spec.meshFormat.fileType = 0) (h0 : spec.elements.entityBlocks = [])
    {numBlocks numElements lo hi : UInt64} {good : List ElementBlock} {bad : ElementBlock}
    (hgood : ∀ b ∈ good, b.Ok ∧ b.data.length ≤ cfg.maxCount) (hbad : mshNodes bad.elementType = none)
    (hnum : good.length < numBlocks.toNat) (hmem : numBlocks.toNat ≤ cfg.maxCount)
    {words : List (Bytes × Bytes)}
    (hwords : words.map Prod.fst =
      [decU64 numBlocks, decU64 numElements, decU64 lo, decU64 hi] ++ good.flatMap blockWords ++ blockHeadWords bad)
    (hseps : ∀ q ∈ words, Blank q.2 ∧ q.2 ≠ []) (hlead : Blank lead ∧ lead ≠ []) :
    loadMsh cfg (a ++ (b! "$Elements" ++ (Spaced lead words ++ rest))) = .throw .unsupportedFeature := by
  refine loadMsh_elements_fails ha hseps hlead ?_
  rw [hwords]
  unfold loadElements
  rw [h0]
  simp only [List.length_nil, if_true, if_pos hv, if_pos ht]
  exact FailsT.first (loadElementsAscii41_fails cfg ⟨numBlocks, numElements, lo, hi, []⟩ good bad _ rfl hgood hbad hnum hmem)

/-- **C33**, version 4.1, binary. -/
theorem C33_load_binary41 (cfg : Cfg) {a rest : Bytes} {sep : UInt8} {spec : MshSpec} (ha : Boundary cfg a spec)
    (hv : spec.meshFormat.version = b! "4.1") (ht : spec.meshFormat.fileType ≠ 0) (h0 : spec.elements.entityBlocks = [])
    {numBlocks numElements lo hi : UInt64} {good : List ElementBlock} {bad : ElementBlock}
    (hgood : ∀ b ∈ good, b.Ok ∧ b.data.length ≤ cfg.maxCount) (hbad : mshNodes bad.elementType = none)
    (hnum : good.length < numBlocks.toNat) (hmem : numBlocks.toNat ≤ cfg.maxCount) (hsep : sep ∈ b! " \t\n\r") :
    loadMsh cfg (a ++ (b! "$Elements" ++ ([sep] ++ encU64 numBlocks ++ encU64 numElements ++ encU64 lo ++ encU64 hi ++
      good.flatMap blockBytes ++ blockHeadBytes bad ++ rest))) = .throw .unsupportedFeature := by
  have hsep := one_of_mem hsep
  have e : [sep] ++ encU64 numBlocks ++ encU64 numElements ++ encU64 lo ++ encU64 hi ++
      good.flatMap blockBytes ++ blockHeadBytes bad ++ rest =
      ([sep] ++ (encU64 numBlocks ++ (encU64 numElements ++ (encU64 lo ++ (encU64 hi ++ (good.flatMap elementBlockEnc ++
        (encI32 bad.entityDim ++ (encI32 bad.entityTag ++ (encI32 bad.elementType ++ (encU64 bad.numElementsInBlock ++ [])))))))))) ++ rest := by
    rw [funext blockBytes_eq]
    simp [blockHeadBytes]
  rw [e]
  have hh := wsHead_append (b := encU64 numBlocks ++ (encU64 numElements ++ (encU64 lo ++ (encU64 hi ++ (good.flatMap elementBlockEnc ++
        (encI32 bad.entityDim ++ (encI32 bad.entityTag ++ (encI32 bad.elementType ++ (encU64 bad.numElementsInBlock ++ [])))))))) ++ rest)
        hsep.sep.head
  rw [← List.append_assoc] at hh
  refine loadMsh_throw (name := b! "Elements") ha (by decide) (Or.inr hh) ?_
  rw [hh.stream, loadSection_elements]
  refine Rd.bind_throw ?_
  unfold loadElements
  rw [h0]
  simp only [List.length_nil, if_true, if_pos hv, if_neg ht]
  exact FailsB.first (loadElementsBinary41_fails cfg ⟨numBlocks, numElements, lo, hi, []⟩ good bad _ rfl hgood hbad hnum hmem hsep) rest

/-- **C33**, version 2.2, ASCII. -/
theorem C33_load_ascii22 (cfg : Cfg) {a lead rest : Bytes} {spec : MshSpec} (ha : Boundary cfg a spec)
    (hv : spec.meshFormat.version = b! "2.2") (ht : spec.meshFormat.fileType = 0) (h0 : spec.elements.entityBlocks = [])
    {num : UInt64} {good : List FileElem} {bad : FileElem} (hgood : ∀ e ∈ good, e.Ok ∧ e.Small cfg)
    (hbad : mshNodes bad.type = none) (hsmall : bad.Small cfg) (hnum : good.length < num.toNat)
    (hmem : good.length ≤ cfg.maxCount ∧ ∀ e ∈ good, e.nodes.length + 1 ≤ cfg.maxCount)
    {words : List (Bytes × Bytes)}
    (hwords : words.map Prod.fst = [decU64 num] ++ good.flatMap elemWords ++
      [decI32 bad.num, decI32 bad.type, decI32 (Int32.ofNat bad.tags.length)] ++ bad.tags.map decI32)
    (hseps : ∀ q ∈ words, Blank q.2 ∧ q.2 ≠ []) (hlead : Blank lead ∧ lead ≠ []) :
    loadMsh cfg (a ++ (b! "$Elements" ++ (Spaced lead words ++ rest))) = .throw .unsupportedFeature := by
  refine loadMsh_elements_fails ha hseps hlead ?_
  rw [hwords]
  unfold loadElements
  rw [h0, if_neg (by rw [hv]; decide)]
  simp only [List.length_nil, if_true, if_pos hv, if_pos ht]
  exact (loadElementsAscii22_fails cfg num good bad (fun e h => (hgood e h).1) (fun e h => (hgood e h).2) hmem.1 hmem.2 hbad hsmall hnum _ _
    rfl rfl rfl).cast (by simp)

/-- **C33**, version 2.2, binary: a group of an unknown element type. -/
theorem C33_load_binary22 (cfg : Cfg) {a lead rest : Bytes} {sep : UInt8} {spec : MshSpec} (ha : Boundary cfg a spec)
    (hv : spec.meshFormat.version = b! "2.2") (ht : spec.meshFormat.fileType ≠ 0) (h0 : spec.elements.entityBlocks = [])
    {num : UInt64} {good : List FileGroup} {type count : Int32} {ntags : Nat} (hgood : ∀ g ∈ good, g.Ok cfg)
    (hmemg : ∀ g ∈ good, ∀ e ∈ g.elems, e.nodes.length + 1 ≤ cfg.maxCount)
    (hbad : mshNodes type = none) (hsmall : ntags ≤ cfg.maxCount ∧ ntags < 2 ^ 31)
    (hnum : (good.flatMap FileGroup.elems).length < num.toNat) (hmem : num.toNat ≤ cfg.maxCount)
    (hsep : sep ∈ b! " \t\n\r") (hlead : Blank lead ∧ lead ≠ []) :
    loadMsh cfg (a ++ (b! "$Elements" ++ (lead ++ decU64 num ++ [sep] ++ good.flatMap FileGroup.bytes ++
      encI32 type ++ encI32 count ++ encI32 (Int32.ofNat ntags) ++ rest))) = .throw .unsupportedFeature := by
  have hlt := cfg.maxCount_lt
  have hsep := one_of_mem hsep
  have e : lead ++ decU64 num ++ [sep] ++ good.flatMap FileGroup.bytes ++
      encI32 type ++ encI32 count ++ encI32 (Int32.ofNat ntags) ++ rest =
      lead ++ decU64 num ++ ([sep] ++ ((good.flatMap FileGroup.bytes ++ (encI32 type ++ (encI32 count ++ (encI32 (Int32.ofNat ntags) ++ [])))) ++ rest)) := by
    simp
  rw [e]
  have hh := wsHead_append (b := decU64 num ++ ([sep] ++ ((good.flatMap FileGroup.bytes ++ (encI32 type ++ (encI32 count ++ (encI32 (Int32.ofNat ntags) ++ [])))) ++ rest)))
    (Sep.head hlead)
  rw [← List.append_assoc] at hh
  refine loadMsh_throw (name := b! "Elements") ha (by decide) (Or.inr hh) ?_
  rw [hh.stream, loadSection_elements]
  refine Rd.bind_throw ?_
  unfold loadElements
  rw [h0, if_neg (by rw [hv]; decide)]
  simp only [List.length_nil, if_true, if_pos hv, if_neg ht]
  unfold loadElementsBinary22
  have hres : vecReserve cfg num = .ok () := by
    unfold vecReserve
    rw [if_pos hmem]
  have hgl := groups_length good
  have hnum' : UInt64.ofNat num.toNat = num := UInt64.ofNat_toNat
  rw [Rd.bind_ok (inSize_tok _ _ lead _ hlead.1 (wsHead_append hsep.sep.head)), Rd.bind_ok (Rd.lift_ok hres _),
    Rd.bind_ok (eat_one hsep (by
      intro h
      have := congrArg List.length h
      simp at this))]
  refine Rd.bind_throws ?_
  have := loadElementGroups22_fails cfg num.toNat hmem type count ntags hbad hsmall good hgood hmemg
    (((good.flatMap FileGroup.bytes ++ (encI32 type ++ (encI32 count ++ (encI32 (Int32.ofNat ntags) ++ [])))) ++ rest).length + 2)
    [] { blocks := [] } (by simp only [List.length_append]; omega) (by simpa using hnum) ⟨rfl, rfl, rfl, rfl, rfl⟩ rest
  rw [hnum'] at this
  exact this

/-! ## Concrete cases -/

/-- One triangle, then a block of type 32. -/
example (more : Bytes) : loadMsh demoCfg (hdr41 ++ (b! "$Elements" ++ (Spaced (b! "\n")
      [(b! "2", b! " "), (b! "2", b! " "), (b! "1", b! " "), (b! "2", b! "\n"), (b! "2", b! " "), (b! "1", b! " "), (b! "2", b! " "), (b! "1", b! "\n"),
       (b! "1", b! " "), (b! "1", b! " "), (b! "2", b! " "), (b! "3", b! "\n"), (b! "2", b! " "), (b! "1", b! " "), (b! "32", b! " "), (b! "1", b! "\n")] ++
      more))) = .throw .unsupportedFeature :=
  C33_load_ascii41 demoCfg boundary_hdr41 rfl rfl rfl (numBlocks := 2) (numElements := 2) (lo := 1) (hi := 2)
    (good := [⟨2, 1, 2, 1, [1, 1, 2, 3]⟩]) (bad := ⟨2, 1, 32, 1, []⟩)
    (by simp only [List.mem_singleton]; rintro b rfl; exact ⟨⟨3, by decide, by decide⟩, by decide⟩)
    (by decide) (by decide) (by decide) (by decide +kernel)
    (by simp only [List.mem_cons, List.not_mem_nil, or_false]
        rintro q (rfl | rfl | rfl | rfl | rfl | rfl | rfl | rfl | rfl | rfl | rfl | rfl | rfl | rfl | rfl | rfl) <;>
          exact ⟨by unfold Blank; decide, by decide⟩)
    ⟨by unfold Blank; decide, by decide⟩

/-- Headers of the other formats. -/
def hdr41b : Bytes := b! "$MeshFormat\n4.1 1 8\n" ++ [1, 0, 0, 0] ++ b! "\n$EndMeshFormat\n"
def hdr22 : Bytes := b! "$MeshFormat\n2.2 0 8\n$EndMeshFormat\n"
def hdr22b : Bytes := b! "$MeshFormat\n2.2 1 8\n" ++ [1, 0, 0, 0] ++ b! "\n$EndMeshFormat\n"

theorem boundary_hdr41b : Boundary demoCfg hdr41b { meshFormat := ⟨b! "4.1", 1, 8⟩ } :=
  ⟨b! "\n", by decide, .single ⟨rfl, by decide +kernel⟩⟩
theorem boundary_hdr22 : Boundary demoCfg hdr22 { meshFormat := ⟨b! "2.2", 0, 8⟩ } :=
  ⟨b! "\n", by decide, .single ⟨rfl, by decide +kernel⟩⟩
theorem boundary_hdr22b : Boundary demoCfg hdr22b { meshFormat := ⟨b! "2.2", 1, 8⟩ } :=
  ⟨b! "\n", by decide, .single ⟨rfl, by decide +kernel⟩⟩

example (more : Bytes) : loadMsh demoCfg (hdr41b ++ (b! "$Elements" ++ ([10] ++ encU64 2 ++ encU64 2 ++ encU64 1 ++ encU64 2 ++
      [(⟨2, 1, 2, 1, [1, 1, 2, 3]⟩ : ElementBlock)].flatMap blockBytes ++ blockHeadBytes ⟨2, 1, -2, 1, []⟩ ++ more))) = .throw .unsupportedFeature :=
  C33_load_binary41 demoCfg boundary_hdr41b rfl (by decide) rfl
    (by simp only [List.mem_singleton]; rintro b rfl; exact ⟨⟨3, by decide, by decide⟩, by decide⟩)
    (by decide) (by decide) (by decide) (by decide)

example (more : Bytes) : loadMsh demoCfg (hdr22 ++ (b! "$Elements" ++ (Spaced (b! "\n")
      [(b! "2", b! "\n"), (b! "1", b! " "), (b! "15", b! " "), (b! "1", b! " "), (b! "7", b! " "), (b! "4", b! "\n"),
       (b! "2", b! " "), (b! "0", b! " "), (b! "1", b! " "), (b! "7", b! " ")] ++ more))) = .throw .unsupportedFeature :=
  C33_load_ascii22 demoCfg boundary_hdr22 rfl rfl rfl (num := 2) (good := [⟨1, 15, [7], [4]⟩]) (bad := ⟨2, 0, [7], []⟩)
    (by simp only [List.mem_singleton]; rintro b rfl; exact ⟨by unfold FileElem.Ok; decide, by unfold FileElem.Small; decide⟩)
    (by decide) (by unfold FileElem.Small; decide) (by decide) (by decide) (by decide +kernel)
    (by simp only [List.mem_cons, List.not_mem_nil, or_false]
        rintro q (rfl | rfl | rfl | rfl | rfl | rfl | rfl | rfl | rfl | rfl) <;> exact ⟨by unfold Blank; decide, by decide⟩)
    ⟨by unfold Blank; decide, by decide⟩

example (more : Bytes) : loadMsh demoCfg (hdr22b ++ (b! "$Elements" ++ (b! "\n" ++ decU64 2 ++ [10] ++
      [(⟨15, 1, [⟨1, 15, [7], [4]⟩]⟩ : FileGroup)].flatMap FileGroup.bytes ++ encI32 93 ++ encI32 1 ++ encI32 (Int32.ofNat 2) ++ more))) =
    .throw .unsupportedFeature :=
  C33_load_binary22 demoCfg boundary_hdr22b rfl (by decide) rfl
    (by simp only [List.mem_singleton]
        rintro g rfl
        exact ⟨by decide, by unfold FileElem.Ok; decide, by decide, by decide, by decide⟩)
    (by decide) (by decide) (by decide) (by decide) (by decide) (by decide) ⟨by unfold Blank; decide, by decide⟩

end MshIO
