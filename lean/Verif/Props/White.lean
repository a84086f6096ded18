import Verif.Spec.White
import Verif.Proofs.DataHazards
import Verif.Proofs.FormatWords
import Verif.Props.Robust
import Verif.Props.Undefined22b

/-!
# C57: white space before binary data

`Skipped` and `Kept` are in `Spec/White.lean`.  Where binary data follow text, `load_msh` skips exactly one line feed, carriage return, space or tab; which of them
it is does not matter.  Before the byte-order marker of the header it skips any number of them.
-/

namespace MshIO

theorem Kept.space {c : UInt8} (h : Kept c) : isSpace c = true := by rcases h with rfl | rfl <;> decide

theorem Kept.eat {c : UInt8} (h : Kept c) (d : Bytes) : eatWhiteSpace 1 (gs (c :: d)) = .ok ((), payload (c :: d)) := by
  have : isEatSpace c = false := by rcases h with rfl | rfl <;> decide
  simp [eatWhiteSpace, Stream.good, eatLoop, this, payload]

/-- Two files that agree up to the name of a section and whose section is read alike load alike. -/
theorem loadMsh_round_congr {cfg : Cfg} {a name r r' : Bytes} {s : MshSpec} (ha : Boundary cfg a s) (hn : ∀ c ∈ name, isSpace c = false)
    (hr : WsHead r) (hr' : WsHead r') (h : loadSection cfg (36 :: name) s (gs r) = loadSection cfg (36 :: name) s (gs r')) :
    loadMsh cfg (a ++ (36 :: name ++ r)) = loadMsh cfg (a ++ (36 :: name ++ r')) := by
  rw [loadMsh_ext ha, loadMsh_ext ha, loadFull_round rfl, loadFull_round rfl, Rd.bind_def, Rd.bind_def, loadRound_start cfg s hn hr,
    loadRound_start cfg s hn hr', Rd.bind_def, Rd.bind_def, h]

/-- The sections of a binary version 4.1 file whose data follow their name. -/
theorem section_eat {cfg : Cfg} {s : MshSpec} {name r r' : Bytes} (hv : s.meshFormat.version = b! "4.1") (ht : s.meshFormat.fileType ≠ 0)
    (hn : name = b! "Entities" ∨ name = b! "Nodes" ∨ name = b! "Elements") (h : eatWhiteSpace 1 (gs r) = eatWhiteSpace 1 (gs r')) :
    loadSection cfg (36 :: name) s (gs r) = loadSection cfg (36 :: name) s (gs r') := by
  have key : ∀ {α : Type} (f : Unit → Rd α), (eatWhiteSpace 1 >>= f) (gs r) = (eatWhiteSpace 1 >>= f) (gs r') := by
    intro α f; rw [Rd.bind_def, Rd.bind_def, h]
  have step : ∀ {α β : Type} {p : Rd α} (f : α → Rd β), p (gs r) = p (gs r') → (p >>= f) (gs r) = (p >>= f) (gs r') := by
    intro α β p f h; rw [Rd.bind_def, Rd.bind_def, h]
  rcases hn with rfl | rfl | rfl
  · rw [loadSection_entities]
    refine step _ ?_
    unfold loadEntities
    simp only [hv, if_neg ht, if_pos trivial]
    unfold loadEntitiesBinary41
    exact key _
  · rw [loadSection_nodes]
    refine step _ ?_
    unfold loadNodes
    simp only [hv, if_neg ht, if_pos trivial]
    unfold loadNodesBinary41
    exact key _
  · rw [loadSection_elements]
    refine step _ ?_
    unfold loadElements
    simp only [hv, if_neg ht, if_pos trivial]
    unfold loadElementsBinary41
    refine step _ ?_
    exact key _

/-- **C57.** In a binary version 4.1 file it does not matter which of the four characters follows `$Entities`, `$Nodes` or `$Elements`, whatever bytes come next. -/
theorem C57_after_name (cfg : Cfg) {a : Bytes} {s : MshSpec} (ha : Boundary cfg a s) (hv : s.meshFormat.version = b! "4.1")
    (ht : s.meshFormat.fileType ≠ 0) {tag : Bytes} (hn : tag = b! "$Entities" ∨ tag = b! "$Nodes" ∨ tag = b! "$Elements") {c c' : UInt8}
    (hc : Skipped c) (hc' : Skipped c') (d : Bytes) : loadMsh cfg (a ++ (tag ++ c :: d)) = loadMsh cfg (a ++ (tag ++ c' :: d)) := by
  have h : eatWhiteSpace 1 (gs (c :: d)) = eatWhiteSpace 1 (gs (c' :: d)) := by rw [eat_payload hc.eat, eat_payload hc'.eat]
  have w : WsHead (c :: d) := ⟨c, d, rfl, hc.space⟩
  have w' : WsHead (c' :: d) := ⟨c', d, rfl, hc'.space⟩
  rcases hn with rfl | rfl | rfl
  · exact loadMsh_round_congr (name := b! "Entities") ha (by decide) w w' (section_eat hv ht (Or.inl rfl) h)
  · exact loadMsh_round_congr (name := b! "Nodes") ha (by decide) w w' (section_eat hv ht (Or.inr (Or.inl rfl)) h)
  · exact loadMsh_round_congr (name := b! "Elements") ha (by decide) w w' (section_eat hv ht (Or.inr (Or.inr rfl)) h)

/-- **C57.** A vertical tab or form feed ends the name as well, but is not skipped: it is the first byte of the data. -/
theorem C57_kept (cfg : Cfg) {a : Bytes} {s : MshSpec} (ha : Boundary cfg a s) (hv : s.meshFormat.version = b! "4.1")
    (ht : s.meshFormat.fileType ≠ 0) {tag : Bytes} (hn : tag = b! "$Entities" ∨ tag = b! "$Nodes" ∨ tag = b! "$Elements") {c v : UInt8}
    (hc : Skipped c) (hk : Kept v) (d : Bytes) : loadMsh cfg (a ++ (tag ++ v :: d)) = loadMsh cfg (a ++ (tag ++ c :: v :: d)) := by
  have h : eatWhiteSpace 1 (gs (v :: d)) = eatWhiteSpace 1 (gs (c :: v :: d)) := by rw [eat_payload hc.eat, hk.eat]
  have w : WsHead (v :: d) := ⟨v, d, rfl, hk.space⟩
  have w' : WsHead (c :: v :: d) := ⟨c, _, rfl, hc.space⟩
  rcases hn with rfl | rfl | rfl
  · exact loadMsh_round_congr (name := b! "Entities") ha (by decide) w w' (section_eat hv ht (Or.inl rfl) h)
  · exact loadMsh_round_congr (name := b! "Nodes") ha (by decide) w w' (section_eat hv ht (Or.inr (Or.inl rfl)) h)
  · exact loadMsh_round_congr (name := b! "Elements") ha (by decide) w w' (section_eat hv ht (Or.inr (Or.inr rfl)) h)

/-- After a count. -/
theorem count_eat {cfg : Cfg} {s : MshSpec} {name w r r' : Bytes} {N : UInt64} (hv : s.meshFormat.version = b! "2.2") (ht : s.meshFormat.fileType ≠ 0)
    (hn : name = b! "Nodes" ∨ name = b! "Elements") (hw : Blank w) (hr : WsHead r) (hr' : WsHead r')
    (h : eatWhiteSpace 1 (gs r) = eatWhiteSpace 1 (gs r')) :
    loadSection cfg (36 :: name) s (gs (w ++ decU64 N ++ r)) = loadSection cfg (36 :: name) s (gs (w ++ decU64 N ++ r')) := by
  have step : ∀ {α β : Type} {p : Rd α} (f : α → Rd β) {x y}, p (gs x) = p (gs y) → (p >>= f) (gs x) = (p >>= f) (gs y) := by
    intro α β p f x y h; rw [Rd.bind_def, Rd.bind_def, h]
  have lift : ∀ {α β : Type} (p : Outcome α) (f : α → Rd β) {x y}, (∀ a, f a (gs x) = f a (gs y)) → (Rd.lift p >>= f) (gs x) = (Rd.lift p >>= f) (gs y) := by
    intro α β p f x y h
    cases p with
    | ok a => exact h a
    | _ => rfl
  have ag : ∀ {β : Type} (f : Unit → Rd β) {x y}, f () (gs x) = f () (gs y) → (assertGood cfg >>= f) (gs x) = (assertGood cfg >>= f) (gs y) := by
    intro β f x y h
    have g : ∀ x, assertGood cfg (gs x) = .ok ((), gs x) := by exact silent_assertGood cfg
    rw [Rd.bind_ok (g _), Rd.bind_ok (g _), h]
  rcases hn with rfl | rfl
  · rw [loadSection_nodes]
    refine step _ ?_
    unfold loadNodes
    simp only [hv, if_neg ht, if_pos trivial]
    rw [if_neg (by decide)]
    unfold loadNodesBinary22
    refine lift _ _ fun bl => ?_
    rw [Rd.bind_ok (inSize_tok 0 N w r hw hr), Rd.bind_ok (inSize_tok 0 N w r' hw hr')]
    refine ag _ (lift _ _ fun t => lift _ _ fun t' => step _ ?_)
    exact h
  · rw [loadSection_elements]
    refine step _ ?_
    unfold loadElements
    simp only [hv, if_neg ht, if_pos trivial]
    rw [if_neg (by decide)]
    unfold loadElementsBinary22
    rw [Rd.bind_ok (inSize_tok _ N w r hw hr), Rd.bind_ok (inSize_tok _ N w r' hw hr')]
    refine lift _ _ fun t => step _ ?_
    exact h

/-- The word before the data ends at one white space character. -/
theorem head_blank {w : Bytes} (hw : Blank w ∧ w ≠ []) (r : Bytes) : WsHead (w ++ r) := wsHead_append (Sep.head hw)

theorem count_congr (cfg : Cfg) {a : Bytes} {s : MshSpec} (ha : Boundary cfg a s) (hv : s.meshFormat.version = b! "2.2")
    (ht : s.meshFormat.fileType ≠ 0) {tag : Bytes} (hn : tag = b! "$Nodes" ∨ tag = b! "$Elements") {w : Bytes} (hw : Blank w ∧ w ≠ []) (N : UInt64)
    {r r' : Bytes} (hr : WsHead r) (hr' : WsHead r') (h : eatWhiteSpace 1 (gs r) = eatWhiteSpace 1 (gs r')) :
    loadMsh cfg (a ++ (tag ++ (w ++ natText N.toNat ++ r))) = loadMsh cfg (a ++ (tag ++ (w ++ natText N.toNat ++ r'))) := by
  rw [← decU64_eq]
  have q : ∀ r, WsHead (w ++ decU64 N ++ r) := fun r => by rw [List.append_assoc]; exact head_blank hw _
  rcases hn with rfl | rfl
  · exact loadMsh_round_congr (name := b! "Nodes") ha (by decide) (q r) (q r') (count_eat hv ht (Or.inl rfl) hw.1 hr hr' h)
  · exact loadMsh_round_congr (name := b! "Elements") ha (by decide) (q r) (q r') (count_eat hv ht (Or.inr rfl) hw.1 hr hr' h)

/-- **C57.** In a binary version 2.2 file it does not matter which of the four characters follows the number of nodes or elements, whatever bytes come next. -/
theorem C57_after_count (cfg : Cfg) {a : Bytes} {s : MshSpec} (ha : Boundary cfg a s) (hv : s.meshFormat.version = b! "2.2")
    (ht : s.meshFormat.fileType ≠ 0) {tag : Bytes} (hn : tag = b! "$Nodes" ∨ tag = b! "$Elements") {w : Bytes} (hw : Blank w ∧ w ≠ []) (N : UInt64)
    {c c' : UInt8} (hc : Skipped c) (hc' : Skipped c') (d : Bytes) :
    loadMsh cfg (a ++ (tag ++ (w ++ natText N.toNat ++ c :: d))) = loadMsh cfg (a ++ (tag ++ (w ++ natText N.toNat ++ c' :: d))) :=
  count_congr cfg ha hv ht hn hw N ⟨c, d, rfl, hc.space⟩ ⟨c', d, rfl, hc'.space⟩ (by rw [eat_payload hc.eat, eat_payload hc'.eat])

/-- **C57.** After the number, too, a vertical tab or form feed is the first byte of the data. -/
theorem C57_after_count_kept (cfg : Cfg) {a : Bytes} {s : MshSpec} (ha : Boundary cfg a s) (hv : s.meshFormat.version = b! "2.2")
    (ht : s.meshFormat.fileType ≠ 0) {tag : Bytes} (hn : tag = b! "$Nodes" ∨ tag = b! "$Elements") {w : Bytes} (hw : Blank w ∧ w ≠ []) (N : UInt64)
    {c v : UInt8} (hc : Skipped c) (hk : Kept v) (d : Bytes) :
    loadMsh cfg (a ++ (tag ++ (w ++ natText N.toNat ++ v :: d))) = loadMsh cfg (a ++ (tag ++ (w ++ natText N.toNat ++ c :: v :: d))) :=
  count_congr cfg ha hv ht hn hw N ⟨v, d, rfl, hk.space⟩ ⟨c, _, rfl, hc.space⟩ (by rw [eat_payload hc.eat, hk.eat])

/-! ## Data sections -/

theorem loadData_eat {cfg : Cfg} {f : MeshFormat} (ht : 0 < f.fileType) (isEN : Bool) {lead t : Bytes} {P : Fmt} {strs : List Bytes}
    {reals : List Double} {ints : List Int32} (hreals : ∀ d ∈ reals, Printable P d) {words : List (Bytes × Bytes)}
    (hwords : words.map Prod.fst ++ [t] = headerWords P strs reals ints) (hseps : ∀ q ∈ words, Blank q.2 ∧ q.2 ≠ []) (hlead : Blank lead)
    (hm : strs.length ≤ cfg.maxCount ∧ reals.length ≤ cfg.maxCount ∧ ints.length ≤ cfg.maxCount) {c : UInt8} (hc : isSpace c = true) (d : Bytes)
    {c' : UInt8} (hc' : isSpace c' = true) (d' : Bytes) (h : eatWhiteSpace 1 (gs (c :: d)) = eatWhiteSpace 1 (gs (c' :: d'))) :
    loadData cfg f isEN (gs (Spaced lead words ++ (t ++ c :: d))) = loadData cfg f isEN (gs (Spaced lead words ++ (t ++ c' :: d'))) := by
  obtain ⟨m4, m5, m6⟩ := hm
  have hlt := cfg.maxCount_lt
  have hk := loadDataHeader_reads cfg (P := P) (rd := reread P) ⟨strs, reals, ints⟩ (fun d hd => (hreals d hd).dtok) m4 m5 m6
  have key : ∀ {c : UInt8} (_ : isSpace c = true) (d : Bytes), loadDataHeader cfg {} (gs (Spaced lead words ++ (t ++ c :: d))) =
      .ok (⟨strs, reals.map (reread P), ints⟩, gs (c :: d)) := by
    intro c hc d
    have := hk (words ++ [(t, [c])]) (by
      rw [List.map_append, List.map_cons, List.map_nil, hwords]; simp [headerWords, quoted_eq', headerToks, decU64, sizeU_toNat (v := strs) (by omega),
        sizeU_toNat (v := reals) (by omega), sizeU_toNat (v := ints) (by omega)]) (by
      intro q hq
      rcases List.mem_append.mp hq with hq | hq
      · exact hseps q hq
      · rw [List.mem_singleton] at hq
        subst hq
        exact ⟨by intro x hx; rw [List.mem_singleton] at hx; subst hx; exact hc, by simp⟩) lead d hlead
    rw [lastSep_append] at this
    have e : Spaced lead words ++ (t ++ c :: d) = lead ++ flat (words ++ [(t, [c])]) ++ d := by simp [Spaced, flat, List.flatMap_def]
    rw [e, this]
    rfl
  unfold loadData
  rw [Rd.bind_ok (key hc d), Rd.bind_ok (key hc' d')]
  match ints with
  | [] => rfl
  | [_] => rfl
  | [_, _] => rfl
  | _ :: fieldsTag :: numTag :: _ =>
    simp only [if_pos ht]
    have lift : ∀ {α β : Type} (p : Outcome α) (f : α → Rd β) {x y}, (∀ a, f a (gs x) = f a (gs y)) → (Rd.lift p >>= f) (gs x) = (Rd.lift p >>= f) (gs y) := by
      intro α β p f x y h
      cases p with
      | ok a => exact h a
      | _ => rfl
    refine lift _ _ fun a => ?_
    rw [Rd.bind_def, Rd.bind_def, h]

theorem data_congr (cfg : Cfg) {a : Bytes} {s : MshSpec} (ha : Boundary cfg a s) (ht : 0 < s.meshFormat.fileType) {tag : Bytes}
    (hn : tag = b! "$NodeData" ∨ tag = b! "$ElementData" ∨ tag = b! "$ElementNodeData") {lead t : Bytes} {P : Fmt} {strs : List Bytes}
    {reals : List Double} {ints : List Int32} (hreals : ∀ d ∈ reals, Printable P d) {words : List (Bytes × Bytes)}
    (hwords : words.map Prod.fst ++ [t] = headerWords P strs reals ints) (hseps : ∀ q ∈ words, Blank q.2 ∧ q.2 ≠ [])
    (hlead : Blank lead ∧ lead ≠ []) (hm : strs.length ≤ cfg.maxCount ∧ reals.length ≤ cfg.maxCount ∧ ints.length ≤ cfg.maxCount)
    {c : UInt8} (hc : isSpace c = true) (d : Bytes) {c' : UInt8} (hc' : isSpace c' = true) (d' : Bytes)
    (h : eatWhiteSpace 1 (gs (c :: d)) = eatWhiteSpace 1 (gs (c' :: d'))) :
    loadMsh cfg (a ++ (tag ++ (Spaced lead words ++ (t ++ c :: d)))) = loadMsh cfg (a ++ (tag ++ (Spaced lead words ++ (t ++ c' :: d')))) := by
  have q : ∀ r, WsHead (Spaced lead words ++ r) := fun r => by unfold Spaced; rw [List.append_assoc]; exact head_blank hlead _
  have lift : ∀ {α β : Type} (p : Outcome α) (f : α → Rd β) {x y}, (∀ a, f a (gs x) = f a (gs y)) → (Rd.lift p >>= f) (gs x) = (Rd.lift p >>= f) (gs y) := by
    intro α β p f x y h
    cases p with
    | ok a => exact h a
    | _ => rfl
  have hs : ∀ isEN (ds : List Data), loadDataSection cfg s.meshFormat isEN ds (gs (Spaced lead words ++ (t ++ c :: d))) =
      loadDataSection cfg s.meshFormat isEN ds (gs (Spaced lead words ++ (t ++ c' :: d'))) := by
    intro isEN ds
    unfold loadDataSection
    refine lift _ _ fun a => ?_
    rw [Rd.bind_def, Rd.bind_def, loadData_eat ht isEN hreals hwords hseps hlead.1 hm hc d hc' d' h]
  have step : ∀ {α β : Type} {p : Rd α} (f : α → Rd β) {x y}, p (gs x) = p (gs y) → (p >>= f) (gs x) = (p >>= f) (gs y) := by
    intro α β p f x y h; rw [Rd.bind_def, Rd.bind_def, h]
  rcases hn with rfl | rfl | rfl
  · exact loadMsh_round_congr (name := b! "NodeData") ha (by decide) (q _) (q _) (step (fun (x : List Data) => (pure { s with nodeData := x } : Rd MshSpec)) (hs false s.nodeData))
  · exact loadMsh_round_congr (name := b! "ElementData") ha (by decide) (q _) (q _) (step (fun (x : List Data) => (pure { s with elementData := x } : Rd MshSpec)) (hs false s.elementData))
  · exact loadMsh_round_congr (name := b! "ElementNodeData") ha (by decide) (q _) (q _) (step (fun (x : List Data) => (pure { s with elementNodeData := x } : Rd MshSpec)) (hs true s.elementNodeData))

/-- **C57.** In binary files of both versions it does not matter which of the four characters follows the last word `t` of the head of a data section, whatever
bytes come next. -/
theorem C57_data (cfg : Cfg) {a : Bytes} {s : MshSpec} (ha : Boundary cfg a s) (ht : 0 < s.meshFormat.fileType) {tag : Bytes}
    (hn : tag = b! "$NodeData" ∨ tag = b! "$ElementData" ∨ tag = b! "$ElementNodeData") {lead t : Bytes} {P : Fmt} {strs : List Bytes}
    {reals : List Double} {ints : List Int32} (hreals : ∀ d ∈ reals, Printable P d) {words : List (Bytes × Bytes)}
    (hwords : words.map Prod.fst ++ [t] = headerWords P strs reals ints) (hseps : ∀ q ∈ words, Blank q.2 ∧ q.2 ≠ [])
    (hlead : Blank lead ∧ lead ≠ []) (hm : strs.length ≤ cfg.maxCount ∧ reals.length ≤ cfg.maxCount ∧ ints.length ≤ cfg.maxCount)
    {c c' : UInt8} (hc : Skipped c) (hc' : Skipped c') (d : Bytes) :
    loadMsh cfg (a ++ (tag ++ (Spaced lead words ++ (t ++ c :: d)))) = loadMsh cfg (a ++ (tag ++ (Spaced lead words ++ (t ++ c' :: d)))) :=
  data_congr cfg ha ht hn hreals hwords hseps hlead hm hc.space d hc'.space d (by rw [eat_payload hc.eat, eat_payload hc'.eat])

/-- **C57.** After the head of a data section, too, a vertical tab or form feed is the first byte of the data. -/
theorem C57_data_kept (cfg : Cfg) {a : Bytes} {s : MshSpec} (ha : Boundary cfg a s) (ht : 0 < s.meshFormat.fileType) {tag : Bytes}
    (hn : tag = b! "$NodeData" ∨ tag = b! "$ElementData" ∨ tag = b! "$ElementNodeData") {lead t : Bytes} {P : Fmt} {strs : List Bytes}
    {reals : List Double} {ints : List Int32} (hreals : ∀ d ∈ reals, Printable P d) {words : List (Bytes × Bytes)}
    (hwords : words.map Prod.fst ++ [t] = headerWords P strs reals ints) (hseps : ∀ q ∈ words, Blank q.2 ∧ q.2 ≠ [])
    (hlead : Blank lead ∧ lead ≠ []) (hm : strs.length ≤ cfg.maxCount ∧ reals.length ≤ cfg.maxCount ∧ ints.length ≤ cfg.maxCount)
    {c v : UInt8} (hc : Skipped c) (hk : Kept v) (d : Bytes) :
    loadMsh cfg (a ++ (tag ++ (Spaced lead words ++ (t ++ v :: d)))) = loadMsh cfg (a ++ (tag ++ (Spaced lead words ++ (t ++ c :: v :: d)))) :=
  data_congr cfg ha ht hn hreals hwords hseps hlead hm hk.space d hc.space (v :: d) (by rw [eat_payload hc.eat, hk.eat])

/-! ## The byte-order marker -/

theorem eatLoop_skipped {w : Bytes} (hw : ∀ c ∈ w, Skipped c) (d : Bytes) : ∀ n, eatLoop (w.length + n) (w ++ d) = eatLoop n d := by
  induction w with
  | nil => intro n; simp
  | cons c w ih =>
    intro n
    rw [List.length_cons, show w.length + 1 + n = (w.length + n) + 1 by omega, List.cons_append, eatLoop, if_pos (hw c (by simp)).eat,
      ih (fun c h => hw c (by simp [h]))]

theorem eatLoop_enough (d : Bytes) : ∀ n m, d.length ≤ n → d.length ≤ m → eatLoop n d = eatLoop m d := by
  induction d with
  | nil => intro n m _ _; simp [eatLoop]
  | cons c d ih =>
    intro n m h1 h2
    rw [List.length_cons] at h1 h2
    obtain ⟨n, rfl⟩ : ∃ k, n = k + 1 := ⟨n - 1, by omega⟩
    obtain ⟨m, rfl⟩ : ∃ k, m = k + 1 := ⟨m - 1, by omega⟩
    rw [eatLoop, eatLoop, ih n m (by omega) (by omega)]

/-- **C57.** Between the header of a binary file and its byte-order marker any number of the four characters is skipped: which and how many there are does not
matter, whatever bytes come next. -/
theorem C57_marker (cfg : Cfg) {a : Bytes} {s : MshSpec} (ha : Boundary cfg a s) {w1 w2 w3 v : Bytes} {t n : Int32} (hw1 : Blank w1 ∧ w1 ≠ [])
    (hw2 : Blank w2 ∧ w2 ≠ []) (hw3 : Blank w3 ∧ w3 ≠ []) (hv : v = b! "2.2" ∨ v = b! "4.1") (ht : t ≠ 0) {w w' : Bytes}
    (hw : w ≠ [] ∧ ∀ c ∈ w, Skipped c) (hw' : w' ≠ [] ∧ ∀ c ∈ w', Skipped c) (d : Bytes) (hl : (w ++ d).length < 2 ^ 64)
    (hl' : (w' ++ d).length < 2 ^ 64) :
    loadMsh cfg (a ++ (b! "$MeshFormat" ++ (w1 ++ v ++ (w2 ++ intText t.toInt ++ (w3 ++ intText n.toInt ++ (w ++ d)))))) =
      loadMsh cfg (a ++ (b! "$MeshFormat" ++ (w1 ++ v ++ (w2 ++ intText t.toInt ++ (w3 ++ intText n.toInt ++ (w' ++ d)))))) := by
  rw [← decI32_eq, ← decI32_eq]
  have q : ∀ r, WsHead (w1 ++ v ++ r) := fun r => by rw [List.append_assoc]; exact head_blank hw1 _
  have b : ∀ {w : Bytes}, (w ≠ [] ∧ ∀ c ∈ w, Skipped c) → Blank w ∧ w ≠ [] := fun h => ⟨fun c hc => (h.2 c hc).space, h.1⟩
  refine loadMsh_round_congr (name := b! "MeshFormat") ha (by decide) (q _) (q _) ?_
  rw [loadSection_meshFormat, Rd.bind_def, Rd.bind_def, loadMeshFormat_three _ hw1.1 hw2 hw3 hv (head_blank (b hw) d),
    loadMeshFormat_three _ hw1.1 hw2 hw3 hv (head_blank (b hw') d)]
  have e : eatWhiteSpace (2 ^ 64 - 1) (gs (w ++ d)) = eatWhiteSpace (2 ^ 64 - 1) (gs (w' ++ d)) := by
    have k : ∀ {w : Bytes}, (∀ c ∈ w, Skipped c) → (w ++ d).length < 2 ^ 64 → eatLoop (2 ^ 64 - 1) (w ++ d) = eatLoop d.length d := by
      intro w hw hl
      have : (w ++ d).length = w.length + d.length := by simp
      rw [← eatLoop_skipped hw d d.length]
      exact eatLoop_enough _ _ _ (by omega) (by omega)
    unfold eatWhiteSpace
    rw [if_pos (by rfl), if_pos (by rfl), k hw.2 hl, k hw'.2 hl']
  by_cases h1 : v = b! "4.1" ∧ sizeOfInt n ≠ 8
  · rw [if_pos h1]; rfl
  · rw [if_neg h1, if_pos ht, Rd.bind_def, Rd.bind_def, e]

/-! ## Exactly one character is skipped, and the cases above occur -/

/-- A binary `$Nodes` section without nodes, after the character that follows its name. -/
def blankNodes : Bytes := [0, 0, 0, 0].flatMap encU64 ++ b! "\n$EndNodes\n"

/-- A line feed, a tab, a space or a carriage return after the name: the file loads. -/
example : loadMsh demoCfg (hdr41b ++ (b! "$Nodes" ++ 10 :: blankNodes)) = .ok { meshFormat := ⟨b! "4.1", 1, 8⟩ } := by decide +kernel

example {c : UInt8} (hc : Skipped c) : loadMsh demoCfg (hdr41b ++ (b! "$Nodes" ++ c :: blankNodes)) = .ok { meshFormat := ⟨b! "4.1", 1, 8⟩ } :=
  (C57_after_name demoCfg boundary_hdr41b rfl (by decide) (Or.inr (Or.inl rfl)) hc (Or.inl rfl) _).trans (by decide +kernel)

/-- **C57**, only one character is skipped: with carriage return and line feed after the name, as written by a program that ends lines with both, the line feed
counts as data.  In builds without assertions the file without nodes loads, without any error, as ten blocks of nodes; in builds with assertions the program stops. -/
theorem C57_crlf : (∃ s, loadMsh demoCfg (hdr41b ++ (b! "$Nodes" ++ 13 :: 10 :: blankNodes)) = .ok s ∧ s.nodes.entityBlocks.length = 10) ∧
    loadMsh demoCfg (hdr41b ++ (b! "$Nodes" ++ 10 :: blankNodes)) = .ok { meshFormat := ⟨b! "4.1", 1, 8⟩ } ∧
    loadMsh demoDebug (hdr41b ++ (b! "$Nodes" ++ 13 :: 10 :: blankNodes)) = .abort ∧
    loadMsh demoDebug (hdr41b ++ (b! "$Nodes" ++ 10 :: blankNodes)) = .ok { meshFormat := ⟨b! "4.1", 1, 8⟩ } := by
  refine ⟨?_, by decide +kernel, by decide +kernel, by decide +kernel⟩
  have h : (match loadMsh demoCfg (hdr41b ++ (b! "$Nodes" ++ 13 :: 10 :: blankNodes)) with
      | .ok s => s.nodes.entityBlocks.length == 10
      | _ => false) = true := by decide +kernel
  cases e : loadMsh demoCfg (hdr41b ++ (b! "$Nodes" ++ 13 :: 10 :: blankNodes)) with
  | ok s => rw [e] at h; exact ⟨s, rfl, by simpa using h⟩
  | _ => rw [e] at h; simp at h

/-- A vertical tab counts as data as well. -/
example : loadMsh demoDebug (hdr41b ++ (b! "$Nodes" ++ 11 :: blankNodes)) = loadMsh demoDebug (hdr41b ++ (b! "$Nodes" ++ 32 :: 11 :: blankNodes)) :=
  C57_kept demoDebug (s := { meshFormat := ⟨b! "4.1", 1, 8⟩ }) ⟨b! "\n", by decide, .single ⟨rfl, rfl⟩⟩ rfl (by decide) (Or.inr (Or.inl rfl))
    (Or.inr (Or.inr (Or.inl rfl))) (Or.inl rfl) _

/-- A node of a binary version 2.2 file, its number followed by any of the characters. -/
example {c : UInt8} (hc : Skipped c) :
    loadMsh demoCfg (hdr22b ++ (b! "$Nodes" ++ (b! "\n" ++ natText (1 : UInt64).toNat ++ c :: (encI32 7 ++ [0, 0, 0].flatMap encU64 ++ b! "\n$EndNodes\n")))) =
      loadMsh demoCfg (hdr22b ++ (b! "$Nodes" ++ (b! "\n" ++ natText (1 : UInt64).toNat ++ 10 :: (encI32 7 ++ [0, 0, 0].flatMap encU64 ++ b! "\n$EndNodes\n")))) :=
  C57_after_count demoCfg (boundary_binary22 _) rfl (by decide) (Or.inl rfl) ⟨by unfold Blank; decide, by decide⟩ 1 hc (Or.inl rfl) _

/-- It loads with node 7. -/
example : (match loadMsh demoCfg (hdr22b ++ (b! "$Nodes" ++ (b! "\n" ++ natText (1 : UInt64).toNat ++
      9 :: (encI32 7 ++ [0, 0, 0].flatMap encU64 ++ b! "\n$EndNodes\n")))) with
    | .ok s => s.nodes.entityBlocks.map (·.tags) == [[7]]
    | _ => false) = true := by decide +kernel

/-- The head of a data section with a tab after its last word. -/
example (d : Bytes) : loadMsh demoCfg (hdr22b ++ (b! "$NodeData" ++ (Spaced (b! "\n") [(b! "1", b! "\n"), (b! "\"v\"", b! " "), (b! "0", b! "\n"), (b! "3", b! " "),
      (b! "0", b! "\n"), (b! "1", b! "\n")] ++ (b! "1" ++ 9 :: d)))) =
    loadMsh demoCfg (hdr22b ++ (b! "$NodeData" ++ (Spaced (b! "\n") [(b! "1", b! "\n"), (b! "\"v\"", b! " "), (b! "0", b! "\n"), (b! "3", b! " "),
      (b! "0", b! "\n"), (b! "1", b! "\n")] ++ (b! "1" ++ 10 :: d)))) :=
  C57_data demoCfg (boundary_binary22 _) (by decide) (Or.inl rfl) (P := demoCfg.fmt) (strs := [b! "v"]) (reals := []) (ints := [0, 1, 1]) (by simp)
    (by decide) (by unfold Blank; decide) ⟨by unfold Blank; decide, by decide⟩ (by decide) (Or.inr (Or.inr (Or.inr rfl))) (Or.inl rfl) d

/-- Three line ends before the byte-order marker. -/
example (d : Bytes) (h : d.length < 2 ^ 32) :
    loadMsh demoCfg (b! "$MeshFormat" ++ (b! "\n" ++ b! "4.1" ++ (b! " " ++ intText (1 : Int32).toInt ++ (b! " " ++ intText (8 : Int32).toInt ++ (b! "\r\n\r\n\r\n" ++ d))))) =
      loadMsh demoCfg (b! "$MeshFormat" ++ (b! "\n" ++ b! "4.1" ++ (b! " " ++ intText (1 : Int32).toInt ++ (b! " " ++ intText (8 : Int32).toInt ++ (b! "\n" ++ d))))) :=
  C57_marker demoCfg (a := []) (boundary_nil _) ⟨by unfold Blank; decide, by decide⟩ ⟨by unfold Blank; decide, by decide⟩ ⟨by unfold Blank; decide, by decide⟩
    (Or.inr rfl) (by decide) ⟨by decide, by unfold Skipped; decide⟩ ⟨by decide, by unfold Skipped; decide⟩ d (by simp; omega) (by simp; omega)

end MshIO
