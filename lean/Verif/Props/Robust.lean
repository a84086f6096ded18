import Verif.Proofs.Frame
import Verif.Proofs.Quoted
import Verif.Proofs.File41
import Verif.Proofs.DblRound
import Verif.Props.Termination

/-!
# C23–C30, C40: what `load_msh` ignores, what it rejects, and what it keeps in order

`Boundary cfg a spec` (`Spec/Execution.lean`): the bytes `a` end at a section boundary and the sections
of `a` have been loaded as `spec`.
-/

namespace MshIO

/-! ## Helper lemmas -/

theorem boundary_nil (cfg : Cfg) : Boundary cfg [] {} := ⟨[], by simp, .refl⟩

theorem Boundary.section {cfg : Cfg} {a A name : Bytes} {s t : MshSpec} (h : Boundary cfg a s)
    (hA : IsSection cfg s name A t) : Boundary cfg (a ++ A) t := by
  obtain ⟨w, hw, h⟩ := h
  obtain ⟨w', hw', h1, h2⟩ := hA.round
  have h3 := arrives_ext (cfg := cfg) (spec := {}) (a := a) h s w rfl A
  refine ⟨w', hw', h3.tail ⟨rfl, ?_⟩⟩
  exact (loadRound_ws cfg s hw A).trans h2

theorem loadFull_throw {cfg : Cfg} {spec : MshSpec} {s : Stream} {e : Exc} (he : s.eof = false)
    (h : loadRound cfg spec s = .throw e) : loadFull cfg spec s = .throw e := by
  rw [loadFull_round he, Rd.bind_def, h]

theorem Rd.bind_throw {α β : Type} {p : Rd α} {f : α → Rd β} {s : Stream} {e : Exc}
    (h : p s = .throw e) : (p >>= f) s = .throw e := by rw [Rd.bind_def, h]

/-- A section whose reader throws. -/
theorem loadMsh_throw {cfg : Cfg} {a : Bytes} {spec : MshSpec} {name rest : Bytes} {e : Exc}
    (h : Boundary cfg a spec) (hn : ∀ c ∈ name, isSpace c = false) (hr : EndHead rest)
    (ht : loadSection cfg (36 :: name) spec ⟨rest, rest.isEmpty, false⟩ = .throw e) :
    loadMsh cfg (a ++ (36 :: name ++ rest)) = .throw e := by
  rw [loadMsh_ext h, loadFull_throw (e := e) rfl]
  · rfl
  · unfold loadRound
    have := inString_end [] (tag_word hn) hr Ws.nil
    rw [List.nil_append] at this
    rw [Rd.bind_ok this]
    exact Rd.bind_throw ht

theorem WsHead.stream {b : Bytes} (h : WsHead b) : (⟨b, b.isEmpty, false⟩ : Stream) = gs b := by
  rw [h.ne_nil]

/-! ## C23, C24: what is ignored -/

/-- **C23.** Inserting, at a section boundary, a section of an unknown name whose words do not contain
its end marker does not change the result. -/
theorem C23_unknown_section (cfg : Cfg) {a b name lead : Bytes} {spec : MshSpec}
    {words : List (Bytes × Bytes)} (ha : Boundary cfg a spec)
    (hname : ∀ c ∈ name, isSpace c = false) (hunknown : name ∉ knownSections cfg.nanospline)
    (hlead : Blank lead ∧ lead ≠ [])
    (hwords : ∀ q ∈ words, Word q.1 ∧ q.1 ≠ b! "$End" ++ name ∧ Blank q.2 ∧ q.2 ≠ [])
    (hb : ∀ c, b.head? = some c → isSpace c = true) :
    loadMsh cfg (a ++ (b! "$" ++ name ++ Spaced lead words ++ b! "$End" ++ name ++ b)) =
      loadMsh cfg (a ++ b) := by
  have hb' : EndHead b := by
    cases b with
    | nil => exact Or.inl rfl
    | cons c r => exact Or.inr ⟨c, r, rfl, hb c rfl⟩
  have e : b! "$" ++ name ++ Spaced lead words ++ b! "$End" ++ name ++ b =
      (36 :: name) ++ (lead ++ flat words ++ endTag name ++ b) := by
    simp [Spaced, flat, endTag, List.flatMap_def]
  rw [loadMsh_ext ha, loadMsh_ext ha, e, loadFull_round_ok rfl
    (loadRound_skip hname (loadSection_unknown cfg hunknown spec) hlead (ps := words)
      (fun q hq => ⟨(hwords q hq).1, (hwords q hq).2.1, (hwords q hq).2.2⟩) hb'), loadFull_rest]

/-- **C24.** Words that do not start with `$`, and white space, at a section boundary do not change the
result. -/
theorem C24_text_between (cfg : Cfg) {a b lead : Bytes} {spec : MshSpec} {words : List (Bytes × Bytes)}
    (ha : Boundary cfg a spec) (hlead : Blank lead)
    (hwords : ∀ q ∈ words, Word q.1 ∧ q.1.head? ≠ some 36 ∧ Blank q.2 ∧ q.2 ≠ []) :
    loadMsh cfg (a ++ (Spaced lead words ++ b)) = loadMsh cfg (a ++ b) := by
  have e : Spaced lead words ++ b = lead ++ flat words ++ b := by
    simp [Spaced, flat, List.flatMap_def]
  rw [loadMsh_ext ha, loadMsh_ext ha, e, loadFull_words words lead b hlead hwords]

/-! ## C25: order of sections -/

/-- **C25.** In a v4.1 file, the sections that follow a boundary may come in any order that keeps the
order of the equally named ones. -/
theorem C25_section_order (cfg : Cfg) {a : Bytes} {spec spec' : MshSpec} {L M : List (Bytes × Bytes)}
    (ha : Boundary cfg a spec) (hv : spec.meshFormat.version = b! "4.1") (hL : Chain cfg spec L spec')
    (hn : ∀ p ∈ L, p.1 ≠ b! "MeshFormat") (hLM : Reorder L M) (b : Bytes) :
    loadMsh cfg (a ++ ((L.map Prod.snd).flatten ++ b)) = loadMsh cfg (a ++ ((M.map Prod.snd).flatten ++ b)) := by
  rw [loadMsh_ext ha, loadMsh_ext ha, loadFull_chain hL, loadFull_chain (chain_reorder hLM hv hn hL)]

/-- **C25**, differently named sections: any permutation. -/
theorem C25_permutation (cfg : Cfg) {a : Bytes} {spec spec' : MshSpec} {L M : List (Bytes × Bytes)}
    (ha : Boundary cfg a spec) (hv : spec.meshFormat.version = b! "4.1") (hL : Chain cfg spec L spec')
    (hn : ∀ p ∈ L, p.1 ≠ b! "MeshFormat") (hd : (L.map Prod.fst).Nodup) (hLM : L.Perm M) (b : Bytes) :
    loadMsh cfg (a ++ ((L.map Prod.snd).flatten ++ b)) = loadMsh cfg (a ++ ((M.map Prod.snd).flatten ++ b)) :=
  C25_section_order cfg ha hv hL hn (reorder_of_perm hLM hd) b

/-! ## C26–C30: what is rejected -/

/-- **C26.** A `$MeshFormat` section announcing a version other than 2.2 and 4.1, at any section boundary
(in particular at the start of the file), makes `load_msh` throw `UnsupportedFeature`, whatever follows. -/
theorem C26_version (cfg : Cfg) {a w v rest : Bytes} {spec : MshSpec} (ha : Boundary cfg a spec)
    (hw : Blank w ∧ w ≠ []) (hv : Word v) (h22 : v ≠ b! "2.2") (h41 : v ≠ b! "4.1")
    (hr : ∀ c, rest.head? = some c → isSpace c = true) :
    loadMsh cfg (a ++ (b! "$MeshFormat" ++ (w ++ v ++ rest))) = .throw .unsupportedFeature := by
  have hr' : EndHead rest := by
    cases rest with
    | nil => exact Or.inl rfl
    | cons c r => exact Or.inr ⟨c, r, rfl, hr c rfl⟩
  have hh : WsHead (w ++ v ++ rest) := by
    rw [List.append_assoc]; exact wsHead_append (Sep.head hw)
  refine loadMsh_throw (name := b! "MeshFormat") ha (by decide) (Or.inr hh) ?_
  rw [hh.stream, loadSection_meshFormat]
  refine Rd.bind_throw ?_
  unfold loadMeshFormat
  rw [Rd.bind_ok (inString_end _ hv hr' hw.1), if_pos ⟨h22, h41⟩]
  rfl

/-- The reader of `$MeshFormat` after the three words of the header. -/
theorem loadMeshFormat_three (old : MeshFormat) {w1 w2 w3 v : Bytes} {t d : Int32} (hw1 : Ws w1)
    (hw2 : Sep w2) (hw3 : Sep w3) (hv : v = b! "2.2" ∨ v = b! "4.1") {rest : Bytes} (hr : WsHead rest) :
    loadMeshFormat old (gs (w1 ++ v ++ (w2 ++ decI32 t ++ (w3 ++ decI32 d ++ rest)))) =
      (if v = b! "4.1" ∧ sizeOfInt d ≠ 8 then Rd.throw .unsupportedFeature
       else if t ≠ 0 then do
         eatWhiteSpace (2 ^ 64 - 1)
         let one ← readInt 0
         if one ≠ 1 then Rd.throw .unsupportedFeature
         else return { version := v, fileType := t, dataSize := d }
       else return { version := v, fileType := t, dataSize := d } : Rd MeshFormat) (gs rest) := by
  unfold loadMeshFormat
  rw [Rd.bind_ok (inString_tok _ _ (word_version hv) w1 _ hw1 (by
    rw [List.append_assoc]; exact wsHead_append hw2.head)),
    if_neg (by rintro ⟨h1, h2⟩; rcases hv with h | h <;> contradiction),
    Rd.bind_ok (inInt_tok _ t w2 _ hw2.1 (by rw [List.append_assoc]; exact wsHead_append hw3.head)),
    Rd.bind_ok (inInt_tok _ d w3 _ hw3.1 hr)]

theorem sizeOfInt_eq_8 {d : Int32} (h : d ≠ 8) : sizeOfInt d ≠ 8 := by
  intro h'
  apply h
  have : intOfSize (sizeOfInt d) = intOfSize 8 := by rw [h']
  rw [intOfSize_sizeOfInt] at this
  exact this

/-- **C27.** A v4.1 header with a data size other than 8 makes `load_msh` throw `UnsupportedFeature`. -/
theorem C27_data_size (cfg : Cfg) {a w1 w2 w3 rest : Bytes} {t d : Int32} {spec : MshSpec}
    (ha : Boundary cfg a spec) (hw1 : Blank w1 ∧ w1 ≠ []) (hw2 : Blank w2 ∧ w2 ≠ [])
    (hw3 : Blank w3 ∧ w3 ≠ []) (hd : d ≠ 8) (hr : ∃ c r, rest = c :: r ∧ isSpace c = true) :
    loadMsh cfg (a ++ (b! "$MeshFormat" ++
      (w1 ++ b! "4.1" ++ (w2 ++ decI32 t ++ (w3 ++ decI32 d ++ rest))))) = .throw .unsupportedFeature := by
  have hh : WsHead (w1 ++ b! "4.1" ++ (w2 ++ decI32 t ++ (w3 ++ decI32 d ++ rest))) := by
    rw [List.append_assoc]; exact wsHead_append (Sep.head hw1)
  refine loadMsh_throw (name := b! "MeshFormat") ha (by decide) (Or.inr hh) ?_
  rw [hh.stream, loadSection_meshFormat]
  refine Rd.bind_throw ?_
  rw [loadMeshFormat_three _ hw1.1 hw2 hw3 (Or.inr rfl) hr, if_pos ⟨rfl, sizeOfInt_eq_8 hd⟩]
  rfl

/-- **C27**, second part: a v2.2 ASCII header is accepted with every data size, and the data size is
stored as it is. -/
theorem C27_data_size_22 (cfg : Cfg) {a w1 w2 w3 w4 w5 : Bytes} {d : Int32} {spec : MshSpec}
    (ha : Boundary cfg a spec) (hw1 : Blank w1 ∧ w1 ≠ []) (hw2 : Blank w2 ∧ w2 ≠ [])
    (hw3 : Blank w3 ∧ w3 ≠ []) (hw4 : Blank w4 ∧ w4 ≠ []) (hw5 : Blank w5 ∧ w5 ≠ []) :
    Boundary cfg (a ++ (b! "$MeshFormat" ++ (w1 ++ b! "2.2" ++ (w2 ++ b! "0" ++ (w3 ++ decI32 d ++
      (w4 ++ b! "$EndMeshFormat" ++ w5))))))
      { spec with meshFormat := ⟨b! "2.2", 0, d⟩ } := by
  refine ha.section (name := b! "MeshFormat") ⟨?_, by decide, w5, hw5.1, rfl, ?_⟩
  · obtain ⟨c, r, e, hc⟩ := Sep.head hw1
    exact ⟨_, rfl, c, _, by rw [e]; simp only [List.cons_append]; rfl, hc⟩
  · have h : Rds (loadSection cfg (36 :: b! "MeshFormat") spec)
        (w1 ++ b! "2.2" ++ (w2 ++ b! "0" ++ (w3 ++ decI32 d ++ w4))) { spec with meshFormat := ⟨b! "2.2", 0, d⟩ } := by
      rw [loadSection_meshFormat]
      refine Rds.map (a := ⟨b! "2.2", 0, d⟩) ?_ rfl
      refine Rds.cast (ReadsT.rds (loadMeshFormat_ascii spec.meshFormat ⟨b! "2.2", 0, d⟩ (Or.inl rfl) rfl
        (fun h => absurd h (by decide : b! "2.2" ≠ b! "4.1"))) [(b! "2.2", w2), (b! "0", w3), (decI32 d, w4)] ?_ ?_ hw1.1) ?_ rfl
      · simp only [List.map_cons, List.map_nil, List.cons.injEq, and_true, true_and]; decide
      · intro q hq
        simp only [List.mem_cons, List.not_mem_nil, or_false] at hq
        rcases hq with rfl | rfl | rfl <;> assumption
      · simp [flat]
    have := loadRound_section (cfg := cfg) (w := []) (rest := w5) (name := b! "MeshFormat") (by decide)
      (body := w1 ++ b! "2.2" ++ (w2 ++ b! "0" ++ (w3 ++ decI32 d ++ w4)))
      (by simp only [List.append_assoc]; exact wsHead_append (Sep.head hw1)) (Sep.head hw5) Ws.nil h
    refine Eq.trans ?_ this
    congr 2
    simp [endTag]

theorem eatLoop_drop (n : Nat) (r : Bytes) (h : r.length ≤ n) (hne : r.dropWhile isEatSpace ≠ []) :
    eatLoop n r = gs (r.dropWhile isEatSpace) := by
  induction r generalizing n with
  | nil => exact absurd rfl hne
  | cons c r ih =>
    cases n with
    | zero => simp at h
    | succ n =>
      rw [eatLoop]
      cases hc : isEatSpace c with
      | true =>
        rw [if_pos rfl, List.dropWhile_cons_of_pos hc]
        rw [List.dropWhile_cons_of_pos hc] at hne
        exact ih n (by simpa using h) hne
      | false => rw [if_neg (by simp), List.dropWhile_cons_of_neg (by simp [hc])]

/-- **C28.** In a header with a non-zero file type, if the four bytes that follow the white space after the
data size are not `01 00 00 00`, `load_msh` throws `UnsupportedFeature`. -/
theorem C28_byte_order (cfg : Cfg) {a w1 w2 w3 v marker rest rest' : Bytes} {t d : Int32} {spec : MshSpec}
    (ha : Boundary cfg a spec) (hw1 : Blank w1 ∧ w1 ≠ []) (hw2 : Blank w2 ∧ w2 ≠ [])
    (hw3 : Blank w3 ∧ w3 ≠ []) (hv : v = b! "2.2" ∨ v = b! "4.1") (ht : t ≠ 0)
    (hr : ∃ c r, rest = c :: r ∧ isSpace c = true) (hlen : rest.length < 2 ^ 64)
    (hm : rest.dropWhile isEatSpace = marker ++ rest') (hm4 : marker.length = 4) (hm1 : marker ≠ [1, 0, 0, 0]) :
    loadMsh cfg (a ++ (b! "$MeshFormat" ++
      (w1 ++ v ++ (w2 ++ decI32 t ++ (w3 ++ decI32 d ++ rest))))) = .throw .unsupportedFeature := by
  have hh : WsHead (w1 ++ v ++ (w2 ++ decI32 t ++ (w3 ++ decI32 d ++ rest))) := by
    rw [List.append_assoc]; exact wsHead_append (Sep.head hw1)
  refine loadMsh_throw (name := b! "MeshFormat") ha (by decide) (Or.inr hh) ?_
  rw [hh.stream, loadSection_meshFormat]
  refine Rd.bind_throw ?_
  rw [loadMeshFormat_three _ hw1.1 hw2 hw3 hv hr]
  by_cases h8 : v = b! "4.1" ∧ sizeOfInt d ≠ 8
  · rw [if_pos h8]; rfl
  · rw [if_neg h8, if_pos ht]
    have he : eatWhiteSpace (2 ^ 64 - 1) (gs rest) = .ok ((), gs (marker ++ rest')) := by
      unfold eatWhiteSpace
      have : eatLoop (2 ^ 64 - 1) rest = gs (marker ++ rest') := by
        rw [← hm]
        exact eatLoop_drop _ _ (by omega) (by rw [hm]; intro h; simp at h; simp [h.1] at hm4)
      simp only [Stream.good, Bool.not_false, Bool.and_self, if_true]
      rw [← this]
    rw [Rd.bind_ok he]
    obtain ⟨x, hx⟩ : ∃ x : Int32, marker = encI32 x := ⟨_, (encI32_decodeI32 hm4).symm⟩
    have hx1 : x ≠ 1 := by rintro rfl; exact hm1 (by rw [hx]; decide)
    rw [hx, Rd.bind_ok (readInt_reads 0 x rest'), if_pos hx1]
    rfl

/-- **C29.** An `$Entities` section in a v2.2 file makes `load_msh` throw `InvalidFormat`. -/
theorem C29_entities_22 (cfg : Cfg) {a rest : Bytes} {spec : MshSpec} (ha : Boundary cfg a spec)
    (hv : spec.meshFormat.version = b! "2.2") (hr : ∀ c, rest.head? = some c → isSpace c = true) :
    loadMsh cfg (a ++ (b! "$Entities" ++ rest)) = .throw .invalidFormat := by
  have hr' : EndHead rest := by
    cases rest with
    | nil => exact Or.inl rfl
    | cons c r => exact Or.inr ⟨c, r, rfl, hr c rfl⟩
  refine loadMsh_throw (name := b! "Entities") ha (by decide) hr' ?_
  show (loadEntities cfg spec.meshFormat spec.entities >>= fun q => pure { spec with entities := q }) _ = _
  refine Rd.bind_throw ?_
  unfold loadEntities
  rw [if_neg (by rw [hv]; decide), if_pos hv]
  rfl

/-- **C30.** A data section with fewer than three integer tags makes `load_msh` throw `InvalidFormat`. -/
theorem C30_int_tags (cfg : Cfg) {a lead rest name : Bytes} {spec : MshSpec} (ha : Boundary cfg a spec)
    (hname : name = b! "NodeData" ∨ name = b! "ElementData" ∨ name = b! "ElementNodeData")
    {P : Fmt} {strs : List Bytes} {reals : List Double} {ints : List Int32} (hints : ints.length < 3)
    (hreals : ∀ d ∈ reals, Printable P d)
    {words : List (Bytes × Bytes)} (hwords : words.map Prod.fst = headerWords P strs reals ints)
    (hseps : ∀ q ∈ words, Blank q.2 ∧ q.2 ≠ []) (hlead : Blank lead ∧ lead ≠ [])
    (hmem : spec.nodeData.length < cfg.maxCount ∧ spec.elementData.length < cfg.maxCount ∧
      spec.elementNodeData.length < cfg.maxCount ∧ strs.length ≤ cfg.maxCount ∧
      reals.length ≤ cfg.maxCount ∧ 2 ≤ cfg.maxCount) :
    loadMsh cfg (a ++ (b! "$" ++ name ++ (Spaced lead words ++ rest))) = .throw .invalidFormat := by
  obtain ⟨m1, m2, m3, m4, m5, m6⟩ := hmem
  have hh : WsHead (Spaced lead words ++ rest) := by
    unfold Spaced; rw [List.append_assoc]; exact wsHead_append (Sep.head hlead)
  have hlt := cfg.maxCount_lt
  have hd : ∀ isEN, loadData cfg spec.meshFormat isEN (gs (Spaced lead words ++ rest)) = .throw .invalidFormat := by
    intro isEN
    unfold loadData
    have hk := loadDataHeader_reads cfg (P := P) (rd := reread P) ⟨strs, reals, ints⟩
      (fun d hd => (hreals d hd).dtok) m4 m5 (by simp only; omega)
    have := hk words (by
      rw [hwords]; simp [headerWords, quoted_eq', headerToks, decU64, sizeU_toNat (v := strs) (by omega),
        sizeU_toNat (v := reals) (by omega), sizeU_toNat (v := ints) (by omega)]) hseps lead rest hlead.1
    have e : Spaced lead words = lead ++ flat words := by simp [Spaced, flat, List.flatMap_def]
    rw [e, Rd.bind_ok this]
    match ints, hints with
    | [], _ => rfl
    | [_], _ => rfl
    | [_, _], _ => rfl
    | _ :: _ :: _ :: _, h => simp at h; omega
  have hs : ∀ isEN (ds : List Data), ds.length < cfg.maxCount →
      loadDataSection cfg spec.meshFormat isEN ds (gs (Spaced lead words ++ rest)) = .throw .invalidFormat := by
    intro isEN ds hl
    unfold loadDataSection
    rw [Rd.bind_ok (silent_pushBack cfg ds {} hl _)]
    exact Rd.bind_throw (hd isEN)
  have e : b! "$" ++ name ++ (Spaced lead words ++ rest) = 36 :: name ++ (Spaced lead words ++ rest) := rfl
  rw [e]
  refine loadMsh_throw ha ?_ (Or.inr hh) ?_
  · rcases hname with rfl | rfl | rfl <;> decide
  · rw [hh.stream]
    rcases hname with rfl | rfl | rfl
    · exact Rd.bind_throw (f := fun q => pure { spec with nodeData := q }) (hs false _ m1)
    · exact Rd.bind_throw (f := fun q => pure { spec with elementData := q }) (hs false _ m2)
    · exact Rd.bind_throw (f := fun q => pure { spec with elementNodeData := q }) (hs true _ m3)

/-! ## C40: data sections keep their order -/

/-- The data section `ds` holds exactly what `load_data` read from the sections named `word`, in the order
of the file. -/
def FromSections (cfg : Cfg) (isElementNode : Bool) (word : Bytes) (ms : List Meets) (ds : List Data) : Prop :=
  List.Forall₂ (fun m d => ∃ s, loadData cfg m.format isElementNode m.stream = .ok (d, s))
    (ms.filter fun m => m.word = word) ds

theorem loadDataSection_ok {cfg : Cfg} {f : MeshFormat} {isEN : Bool} {ds ds' : List Data} {s s' : Stream}
    (h : loadDataSection cfg f isEN ds s = .ok (ds', s')) :
    ∃ d, ds' = ds ++ [d] ∧ loadData cfg f isEN s = .ok (d, s') := by
  unfold loadDataSection at h
  obtain ⟨x, s1, h1, h'⟩ := Rd.bind_eq_ok h
  obtain ⟨d, s2, h2, h3⟩ := Rd.bind_eq_ok h'
  clear h h'
  unfold pushBack Rd.lift vecPush at h1
  split at h1
  · rename_i hl
    split at hl
    · simp only [Outcome.ok.injEq, Prod.mk.injEq] at hl h1
      obtain ⟨rfl, rfl⟩ := h1
      subst hl
      rw [Rd.pure_def] at h3
      simp only [Outcome.ok.injEq, Prod.mk.injEq] at h3
      obtain ⟨rfl, rfl⟩ := h3
      exact ⟨d, by simp, h2⟩
    · cases hl
  all_goals cases h1

/-- Every normal result of `p` satisfies `P`. -/
def Keeps (P : MshSpec → Prop) (p : Rd MshSpec) : Prop := ∀ s t s', p s = .ok (t, s') → P t

theorem Keeps.map {α : Type} {P : MshSpec → Prop} {p : Rd α} {f : α → MshSpec} (h : ∀ a, P (f a)) :
    Keeps P (p >>= fun a => pure (f a)) := by
  intro s t s' e
  obtain ⟨a, s1, _, h2⟩ := Rd.bind_eq_ok e
  rw [Rd.pure_def] at h2
  simp only [Outcome.ok.injEq, Prod.mk.injEq] at h2
  rw [← h2.1]
  exact h a

theorem Keeps.ite {P : MshSpec → Prop} {c : Prop} [Decidable c] {p q : Rd MshSpec} (h1 : Keeps P p)
    (h2 : Keeps P q) : Keeps P (if c then p else q) := by split <;> assumption

theorem Keeps.pure {P : MshSpec → Prop} {a : MshSpec} (h : P a) : Keeps P (pure a) := by
  intro s t s' e
  rw [Rd.pure_def] at e
  simp only [Outcome.ok.injEq, Prod.mk.injEq] at e
  rw [← e.1]
  exact h

theorem loadSection_nodeData {cfg : Cfg} {w : Bytes} {spec spec' : MshSpec} {s s' : Stream}
    (h : loadSection cfg w spec s = .ok (spec', s')) :
    (w = b! "$NodeData" ∧ ∃ d s2, loadData cfg spec.meshFormat false s = .ok (d, s2) ∧
      spec'.nodeData = spec.nodeData ++ [d]) ∨ (w ≠ b! "$NodeData" ∧ spec'.nodeData = spec.nodeData) := by
  by_cases hw : w = b! "$NodeData"
  · subst hw
    change (loadDataSection cfg spec.meshFormat false spec.nodeData >>= fun q =>
      (pure { spec with nodeData := q } : Rd MshSpec)) s = _ at h
    obtain ⟨ds, s1, h1, h2⟩ := Rd.bind_eq_ok h
    obtain ⟨d, rfl, h3⟩ := loadDataSection_ok h1
    rw [Rd.pure_def] at h2
    simp only [Outcome.ok.injEq, Prod.mk.injEq] at h2
    obtain ⟨rfl, rfl⟩ := h2
    exact Or.inl ⟨rfl, d, _, h3, rfl⟩
  · refine Or.inr ⟨hw, ?_⟩
    have key : Keeps (fun t => t.nodeData = spec.nodeData) (loadSection cfg w spec) := by
      unfold loadSection
      simp only [if_neg hw]
      repeat' refine Keeps.ite ?_ ?_
      all_goals first
        | exact Keeps.map fun _ => rfl
        | exact Keeps.pure rfl
    exact key _ _ _ h

theorem mainIter_nodeData {cfg : Cfg} {x y : MshSpec × Stream} {w : Bytes} {s : Stream}
    (hi : inString [] x.2 = .ok (w, s)) (h : MainIter cfg x y) :
    (w = b! "$NodeData" ∧ ∃ d s2, loadData cfg x.1.meshFormat false s = .ok (d, s2) ∧
      y.1.nodeData = x.1.nodeData ++ [d]) ∨ (w ≠ b! "$NodeData" ∧ y.1.nodeData = x.1.nodeData) := by
  have h2 := h.2
  unfold loadRound at h2
  rw [Rd.bind_ok hi] at h2
  split at h2
  · obtain ⟨t, s1, h3, h2⟩ := Rd.bind_eq_ok h2
    obtain ⟨_, s2, h4, h2⟩ := Rd.bind_eq_ok h2
    rw [Rd.pure_def] at h2
    simp only [Outcome.ok.injEq] at h2
    rw [← h2]
    exact loadSection_nodeData h3
  · rename_i hw
    rw [Rd.pure_def] at h2
    simp only [Outcome.ok.injEq] at h2
    rw [← h2]
    exact Or.inr ⟨fun e => hw _ e, rfl⟩

theorem rounds_nodeData {cfg : Cfg} {x y : MshSpec × Stream} {ms : List Meets} (h : Rounds cfg x ms y) :
    ∃ ds, FromSections cfg false (b! "$NodeData") ms ds ∧ y.1.nodeData = x.1.nodeData ++ ds := by
  induction h with
  | nil x => exact ⟨[], .nil, by simp⟩
  | @cons x y z w s ms hi hxy h ih =>
    obtain ⟨ds, h1, h2⟩ := ih
    rcases mainIter_nodeData hi hxy with ⟨rfl, d, s2, h3, h4⟩ | ⟨hw, h4⟩
    · refine ⟨d :: ds, ?_, by rw [h2, h4]; simp⟩
      unfold FromSections
      rw [List.filter_cons_of_pos (by simp)]
      exact .cons ⟨s2, h3⟩ h1
    · refine ⟨ds, ?_, by rw [h2, h4]⟩
      unfold FromSections
      rw [List.filter_cons_of_neg (by simpa using hw)]
      exact h1

theorem loadSection_elementData {cfg : Cfg} {w : Bytes} {spec spec' : MshSpec} {s s' : Stream}
    (h : loadSection cfg w spec s = .ok (spec', s')) :
    (w = b! "$ElementData" ∧ ∃ d s2, loadData cfg spec.meshFormat false s = .ok (d, s2) ∧
      spec'.elementData = spec.elementData ++ [d]) ∨ (w ≠ b! "$ElementData" ∧ spec'.elementData = spec.elementData) := by
  by_cases hw : w = b! "$ElementData"
  · subst hw
    change (loadDataSection cfg spec.meshFormat false spec.elementData >>= fun q =>
      (pure { spec with elementData := q } : Rd MshSpec)) s = _ at h
    obtain ⟨ds, s1, h1, h2⟩ := Rd.bind_eq_ok h
    obtain ⟨d, rfl, h3⟩ := loadDataSection_ok h1
    rw [Rd.pure_def] at h2
    simp only [Outcome.ok.injEq, Prod.mk.injEq] at h2
    obtain ⟨rfl, rfl⟩ := h2
    exact Or.inl ⟨rfl, d, _, h3, rfl⟩
  · refine Or.inr ⟨hw, ?_⟩
    have key : Keeps (fun t => t.elementData = spec.elementData) (loadSection cfg w spec) := by
      unfold loadSection
      simp only [if_neg hw]
      repeat' refine Keeps.ite ?_ ?_
      all_goals first
        | exact Keeps.map fun _ => rfl
        | exact Keeps.pure rfl
    exact key _ _ _ h

theorem mainIter_elementData {cfg : Cfg} {x y : MshSpec × Stream} {w : Bytes} {s : Stream}
    (hi : inString [] x.2 = .ok (w, s)) (h : MainIter cfg x y) :
    (w = b! "$ElementData" ∧ ∃ d s2, loadData cfg x.1.meshFormat false s = .ok (d, s2) ∧
      y.1.elementData = x.1.elementData ++ [d]) ∨ (w ≠ b! "$ElementData" ∧ y.1.elementData = x.1.elementData) := by
  have h2 := h.2
  unfold loadRound at h2
  rw [Rd.bind_ok hi] at h2
  split at h2
  · obtain ⟨t, s1, h3, h2⟩ := Rd.bind_eq_ok h2
    obtain ⟨_, s2, h4, h2⟩ := Rd.bind_eq_ok h2
    rw [Rd.pure_def] at h2
    simp only [Outcome.ok.injEq] at h2
    rw [← h2]
    exact loadSection_elementData h3
  · rename_i hw
    rw [Rd.pure_def] at h2
    simp only [Outcome.ok.injEq] at h2
    rw [← h2]
    exact Or.inr ⟨fun e => hw _ e, rfl⟩

theorem rounds_elementData {cfg : Cfg} {x y : MshSpec × Stream} {ms : List Meets} (h : Rounds cfg x ms y) :
    ∃ ds, FromSections cfg false (b! "$ElementData") ms ds ∧ y.1.elementData = x.1.elementData ++ ds := by
  induction h with
  | nil x => exact ⟨[], .nil, by simp⟩
  | @cons x y z w s ms hi hxy h ih =>
    obtain ⟨ds, h1, h2⟩ := ih
    rcases mainIter_elementData hi hxy with ⟨rfl, d, s2, h3, h4⟩ | ⟨hw, h4⟩
    · refine ⟨d :: ds, ?_, by rw [h2, h4]; simp⟩
      unfold FromSections
      rw [List.filter_cons_of_pos (by simp)]
      exact .cons ⟨s2, h3⟩ h1
    · refine ⟨ds, ?_, by rw [h2, h4]⟩
      unfold FromSections
      rw [List.filter_cons_of_neg (by simpa using hw)]
      exact h1

theorem loadSection_elementNodeData {cfg : Cfg} {w : Bytes} {spec spec' : MshSpec} {s s' : Stream}
    (h : loadSection cfg w spec s = .ok (spec', s')) :
    (w = b! "$ElementNodeData" ∧ ∃ d s2, loadData cfg spec.meshFormat true s = .ok (d, s2) ∧
      spec'.elementNodeData = spec.elementNodeData ++ [d]) ∨ (w ≠ b! "$ElementNodeData" ∧ spec'.elementNodeData = spec.elementNodeData) := by
  by_cases hw : w = b! "$ElementNodeData"
  · subst hw
    change (loadDataSection cfg spec.meshFormat true spec.elementNodeData >>= fun q =>
      (pure { spec with elementNodeData := q } : Rd MshSpec)) s = _ at h
    obtain ⟨ds, s1, h1, h2⟩ := Rd.bind_eq_ok h
    obtain ⟨d, rfl, h3⟩ := loadDataSection_ok h1
    rw [Rd.pure_def] at h2
    simp only [Outcome.ok.injEq, Prod.mk.injEq] at h2
    obtain ⟨rfl, rfl⟩ := h2
    exact Or.inl ⟨rfl, d, _, h3, rfl⟩
  · refine Or.inr ⟨hw, ?_⟩
    have key : Keeps (fun t => t.elementNodeData = spec.elementNodeData) (loadSection cfg w spec) := by
      unfold loadSection
      simp only [if_neg hw]
      repeat' refine Keeps.ite ?_ ?_
      all_goals first
        | exact Keeps.map fun _ => rfl
        | exact Keeps.pure rfl
    exact key _ _ _ h

theorem mainIter_elementNodeData {cfg : Cfg} {x y : MshSpec × Stream} {w : Bytes} {s : Stream}
    (hi : inString [] x.2 = .ok (w, s)) (h : MainIter cfg x y) :
    (w = b! "$ElementNodeData" ∧ ∃ d s2, loadData cfg x.1.meshFormat true s = .ok (d, s2) ∧
      y.1.elementNodeData = x.1.elementNodeData ++ [d]) ∨ (w ≠ b! "$ElementNodeData" ∧ y.1.elementNodeData = x.1.elementNodeData) := by
  have h2 := h.2
  unfold loadRound at h2
  rw [Rd.bind_ok hi] at h2
  split at h2
  · obtain ⟨t, s1, h3, h2⟩ := Rd.bind_eq_ok h2
    obtain ⟨_, s2, h4, h2⟩ := Rd.bind_eq_ok h2
    rw [Rd.pure_def] at h2
    simp only [Outcome.ok.injEq] at h2
    rw [← h2]
    exact loadSection_elementNodeData h3
  · rename_i hw
    rw [Rd.pure_def] at h2
    simp only [Outcome.ok.injEq] at h2
    rw [← h2]
    exact Or.inr ⟨fun e => hw _ e, rfl⟩

theorem rounds_elementNodeData {cfg : Cfg} {x y : MshSpec × Stream} {ms : List Meets} (h : Rounds cfg x ms y) :
    ∃ ds, FromSections cfg true (b! "$ElementNodeData") ms ds ∧ y.1.elementNodeData = x.1.elementNodeData ++ ds := by
  induction h with
  | nil x => exact ⟨[], .nil, by simp⟩
  | @cons x y z w s ms hi hxy h ih =>
    obtain ⟨ds, h1, h2⟩ := ih
    rcases mainIter_elementNodeData hi hxy with ⟨rfl, d, s2, h3, h4⟩ | ⟨hw, h4⟩
    · refine ⟨d :: ds, ?_, by rw [h2, h4]; simp⟩
      unfold FromSections
      rw [List.filter_cons_of_pos (by simp)]
      exact .cons ⟨s2, h3⟩ h1
    · refine ⟨ds, ?_, by rw [h2, h4]⟩
      unfold FromSections
      rw [List.filter_cons_of_neg (by simpa using hw)]
      exact h1

theorem rounds_of_full (cfg : Cfg) (k : Nat) : ∀ (spec : MshSpec) (s : Stream), s.rem.length ≤ k →
    s.good = true → ∀ spec' s', loadFull cfg spec s = .ok (spec', s') →
    ∃ ms, Rounds cfg (spec, s) ms (spec', s') ∧ s'.eof = true := by
  induction k using Nat.strongRecOn with
  | ind k ih =>
    intro spec s hk hg spec' s' h
    have he : s.eof = false := by simp [Stream.good] at hg; exact hg.1
    rw [loadFull_round he] at h
    obtain ⟨t, s1, h1, h⟩ := Rd.bind_eq_ok h
    obtain ⟨w, s0, hi⟩ : ∃ w s0, inString [] s = .ok (w, s0) := by
      unfold loadRound at h1
      obtain ⟨w, s0, hi, _⟩ := Rd.bind_eq_ok h1
      exact ⟨w, s0, hi⟩
    have hm : MainIter cfg (spec, s) (t, s1) := ⟨he, h1⟩
    cases he1 : s1.eof with
    | true =>
      rw [loadFull_eof he1] at h
      simp only [Outcome.ok.injEq, Prod.mk.injEq] at h
      obtain ⟨rfl, rfl⟩ := h
      exact ⟨_, .cons hi hm (.nil _), he1⟩
    | false =>
      have hp : s1.rem.length < s.rem.length := by
        rcases loadRound_progress hg h1 with hp | hp
        · rw [he1] at hp; cases hp
        · exact hp
      have hg1 : s1.good = true := by
        cases hf : s1.fail with
        | false => simp [Stream.good, he1, hf]
        | true => rw [loadFull_stuck hf he1] at h; cases h
      obtain ⟨ms, h2, h3⟩ := ih s1.rem.length (by omega) t s1 le_rfl hg1 spec' s' h
      exact ⟨_, .cons hi hm h2, h3⟩

theorem loadPostProcess_data {cfg : Cfg} {spec spec' : MshSpec} (h : loadPostProcess cfg spec = .ok spec') :
    spec'.nodeData = spec.nodeData ∧ spec'.elementData = spec.elementData ∧
      spec'.elementNodeData = spec.elementNodeData := by
  unfold loadPostProcess at h
  split at h
  · cases h1 : regroupNodes cfg spec.nodes spec.elements <;> rw [h1] at h <;> try (cases h; done)
    change (regroupElements cfg spec.elements >>= fun e => (pure { spec with nodes := _, elements := e } : Outcome MshSpec)) = _ at h
    cases h2 : regroupElements cfg spec.elements <;> rw [h2] at h <;> try (cases h; done)
    cases h
    exact ⟨rfl, rfl, rfl⟩
  · cases h
    exact ⟨rfl, rfl, rfl⟩

/-- **C40.** If a file loads, its run through the main loop consists of rounds up to the end of the file, and
the three lists of data sections hold, in file order, exactly one entry for each section of that name met:
what `load_data` reads right after the section's name. -/
theorem C40_data_order (cfg : Cfg) (file : Bytes) (spec : MshSpec) (h : loadMsh cfg file = .ok spec) :
    ∃ ms x, Rounds cfg ({}, Stream.ofBytes file) ms x ∧ x.2.eof = true ∧
      FromSections cfg false (b! "$NodeData") ms spec.nodeData ∧
      FromSections cfg false (b! "$ElementData") ms spec.elementData ∧
      FromSections cfg true (b! "$ElementNodeData") ms spec.elementNodeData := by
  unfold loadMsh at h
  rw [loadStream_eq] at h
  cases hf : loadFull cfg {} (Stream.ofBytes file) with
  | ok q =>
    obtain ⟨t, s⟩ := q
    rw [hf] at h
    obtain ⟨ms, h1, h2⟩ := rounds_of_full cfg _ _ _ le_rfl rfl _ _ hf
    obtain ⟨e1, e2, e3⟩ := loadPostProcess_data h
    obtain ⟨d1, f1, g1⟩ := rounds_nodeData h1
    obtain ⟨d2, f2, g2⟩ := rounds_elementData h1
    obtain ⟨d3, f3, g3⟩ := rounds_elementNodeData h1
    refine ⟨ms, _, h1, h2, ?_, ?_, ?_⟩
    · rw [e1, g1]; exact f1
    · rw [e2, g2]; exact f2
    · rw [e3, g3]; exact f3
  | throw e => rw [hf] at h; cases h
  | abort => rw [hf] at h; cases h
  | ub => rw [hf] at h; cases h
  | hang => rw [hf] at h; cases h

/-- **C40**, counting: `n` sections give `n` entries. -/
theorem C40_data_count (cfg : Cfg) (file : Bytes) (spec : MshSpec) (h : loadMsh cfg file = .ok spec) :
    ∃ ms x, Rounds cfg ({}, Stream.ofBytes file) ms x ∧ x.2.eof = true ∧
      spec.nodeData.length = (ms.map Meets.word).count (b! "$NodeData") ∧
      spec.elementData.length = (ms.map Meets.word).count (b! "$ElementData") ∧
      spec.elementNodeData.length = (ms.map Meets.word).count (b! "$ElementNodeData") := by
  have key : ∀ {isEN : Bool} {w : Bytes} {ms : List Meets} {ds : List Data},
      FromSections cfg isEN w ms ds → ds.length = (ms.map Meets.word).count w := by
    intro isEN w ms ds h
    rw [← List.Forall₂.length_eq h, List.count_eq_countP, List.countP_map, List.countP_eq_length_filter]
    congr 2
    funext m
    show decide (m.word = w) = (m.word == w)
    rw [Bool.eq_iff_iff]; simp
  obtain ⟨ms, x, h1, h2, h3, h4, h5⟩ := C40_data_order cfg file spec h
  exact ⟨ms, x, h1, h2, key h3, key h4, key h5⟩

/-! ## Concrete cases -/

/-- A v4.1 ASCII header. -/
def hdr41 : Bytes := b! "$MeshFormat\n4.1 0 8\n$EndMeshFormat\n"

/-- A boundary that is not the start of the file. -/
theorem boundary_hdr41 : Boundary demoCfg hdr41 {} :=
  ⟨b! "\n", by decide, .single ⟨rfl, by decide +kernel⟩⟩

example : loadMsh demoCfg (hdr41 ++ (b! "$" ++ b! "Comments" ++ Spaced (b! "\n") [(b! "$Nodes", b! " "), (b! "7", b! "\r\n")] ++
      b! "$End" ++ b! "Comments" ++ b! "\n$Nodes\n0 0 0 0\n$EndNodes\n")) =
    loadMsh demoCfg (hdr41 ++ b! "\n$Nodes\n0 0 0 0\n$EndNodes\n") :=
  C23_unknown_section demoCfg boundary_hdr41 (by decide) (by decide) ⟨(by unfold Blank; decide), by decide⟩
    (by simp only [List.mem_cons, List.not_mem_nil, or_false]
        rintro q (rfl | rfl)
        · exact ⟨⟨by decide, by decide⟩, by decide, by unfold Blank; decide, by decide⟩
        · exact ⟨⟨by decide, by decide⟩, by decide, by unfold Blank; decide, by decide⟩)
    (by decide)

example : loadMsh demoCfg (hdr41 ++ (Spaced (b! "\n\n") [(b! "some", b! " "), (b! "text", b! "\r\n")] ++ b! "$Nodes\n0 0 0 0\n$EndNodes\n")) =
    loadMsh demoCfg (hdr41 ++ b! "$Nodes\n0 0 0 0\n$EndNodes\n") :=
  C24_text_between demoCfg boundary_hdr41 (by unfold Blank; decide)
    (by simp only [List.mem_cons, List.not_mem_nil, or_false]
        rintro q (rfl | rfl)
        · exact ⟨⟨by decide, by decide⟩, by decide, by unfold Blank; decide, by decide⟩
        · exact ⟨⟨by decide, by decide⟩, by decide, by unfold Blank; decide, by decide⟩)

/-- Two sections and the specs they lead to. -/
def secPhys : Bytes := b! "$PhysicalNames\n1\n2 7 \"wall\"\n$EndPhysicalNames\n"
def secData : Bytes := b! "$NodeData\n1\n\"t\"\n1\n0.5\n3\n0\n1\n1\n4 2.5\n$EndNodeData\n"
def specPhys : MshSpec := { physicalGroups := [⟨2, 7, b! "wall"⟩] }
def specData : MshSpec :=
  { specPhys with nodeData := [⟨⟨[b! "t"], [⟨0x3FE0000000000000⟩], [0, 1, 1]⟩, [{ tag := 4, data := [⟨0x4004000000000000⟩] }]⟩] }

theorem demo_chain : Chain demoCfg {} [(b! "PhysicalNames", secPhys), (b! "NodeData", secData)] specData :=
  .cons (t := specPhys) ⟨⟨_, rfl, _, _, rfl, by decide⟩, by decide, b! "\n", by unfold Blank; decide, rfl, by decide +kernel⟩
    (.cons ⟨⟨_, rfl, _, _, rfl, by decide⟩, by decide, b! "\n", by unfold Blank; decide, rfl, by decide +kernel⟩ (.nil _))

example (b : Bytes) : loadMsh demoCfg (hdr41 ++ ((secPhys ++ (secData ++ [])) ++ b)) =
    loadMsh demoCfg (hdr41 ++ ((secData ++ (secPhys ++ [])) ++ b)) :=
  C25_permutation demoCfg boundary_hdr41 rfl demo_chain (by decide) (by decide) (List.Perm.swap _ _ _) b

example : loadMsh demoCfg (hdr41 ++ ((secData ++ (secPhys ++ [])) ++ [])) = .ok specData := by decide +kernel

example : loadMsh demoCfg ([] ++ (b! "$MeshFormat" ++ (b! "\n" ++ b! "4.10" ++ b! " 0 8\n$EndMeshFormat\n"))) =
    .throw .unsupportedFeature :=
  C26_version demoCfg (boundary_nil _) ⟨by unfold Blank; decide, by decide⟩ ⟨by decide, by decide⟩ (by decide)
    (by decide) (by decide)

example : loadMsh demoCfg ([] ++ (b! "$MeshFormat" ++ (b! "\n" ++ b! "4.1" ++ (b! " " ++ decI32 0 ++
      (b! " " ++ decI32 4 ++ b! "\n$EndMeshFormat\n"))))) = .throw .unsupportedFeature :=
  C27_data_size demoCfg (boundary_nil _) ⟨by unfold Blank; decide, by decide⟩ ⟨by unfold Blank; decide, by decide⟩
    ⟨by unfold Blank; decide, by decide⟩ (by decide) ⟨_, _, rfl, by decide⟩

/-- A big-endian file. -/
example (more : Bytes) (h : more.length < 2 ^ 60) : loadMsh demoCfg ([] ++ (b! "$MeshFormat" ++ (b! "\n" ++ b! "4.1" ++ (b! " " ++ decI32 1 ++
      (b! " " ++ decI32 8 ++ (10 :: 0 :: 0 :: 0 :: 1 :: more)))))) = .throw .unsupportedFeature :=
  C28_byte_order demoCfg (boundary_nil _) ⟨by unfold Blank; decide, by decide⟩ ⟨by unfold Blank; decide, by decide⟩
    ⟨by unfold Blank; decide, by decide⟩ (Or.inr rfl) (by decide) ⟨_, _, rfl, by decide⟩ (by simp; omega)
    (marker := [0, 0, 0, 1]) (rest' := more) rfl rfl (by decide)

/-- A v2.2 header with data size 4, then `$Entities`. -/
example (more : Bytes) : loadMsh demoCfg (([] ++ (b! "$MeshFormat" ++ (b! "\n" ++ b! "2.2" ++ (b! " " ++ b! "0" ++ (b! " " ++ decI32 4 ++
      (b! "\n" ++ b! "$EndMeshFormat" ++ b! "\n")))))) ++ (b! "$Entities" ++ (10 :: more))) = .throw .invalidFormat :=
  C29_entities_22 demoCfg (C27_data_size_22 demoCfg (boundary_nil _) ⟨by unfold Blank; decide, by decide⟩
      ⟨by unfold Blank; decide, by decide⟩ ⟨by unfold Blank; decide, by decide⟩ ⟨by unfold Blank; decide, by decide⟩
      ⟨by unfold Blank; decide, by decide⟩) rfl (by intro c hc; simp at hc; subst hc; decide)

example (more : Bytes) : loadMsh demoCfg (hdr41 ++ (b! "$" ++ b! "ElementData" ++ (Spaced (b! "\n")
      [(b! "1", b! "\n"), (b! "\"a b\"", b! "\n"), (b! "0", b! "\n"), (b! "2", b! "\n"), (b! "0", b! " "), (b! "-1", b! "\n")] ++
      more))) = .throw .invalidFormat :=
  C30_int_tags demoCfg boundary_hdr41 (Or.inr (Or.inl rfl)) (P := .general 6) (strs := [b! "a b"]) (reals := []) (ints := [0, -1])
    (by decide) (by simp) (by decide +kernel)
    (by simp only [List.mem_cons, List.not_mem_nil, or_false]
        rintro q (rfl | rfl | rfl | rfl | rfl | rfl) <;> exact ⟨by unfold Blank; decide, by decide⟩)
    ⟨by unfold Blank; decide, by decide⟩ (by decide)

/-- A file with two `$NodeData` sections loads with two entries. -/
example : (match loadMsh demoCfg (hdr41 ++ secData ++ secPhys ++ secData) with
    | .ok s => s.nodeData.length | _ => 0) = 2 := by decide +kernel

end MshIO
