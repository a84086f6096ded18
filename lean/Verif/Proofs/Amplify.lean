import Verif.Proofs.VolumeAll
import Verif.Proofs.Basic41
import Verif.Proofs.FormatWords
import Verif.Props.Reject

/-! # Files read past their end, at any size -/

namespace MshIO

/-- The stream at the end of the file. -/
def dead : Stream := ⟨[], true, true⟩

/-- Nothing but white space is left. -/
structure Dry (s : Stream) : Prop where
  of ::
  sentry : sentry s = (false, dead)

theorem dry_dead : Dry dead := ⟨rfl⟩
theorem dry_newline : Dry (gs [10]) := ⟨rfl⟩

theorem dry_inInt {s : Stream} (h : Dry s) (old : Int32) : inInt old s = .ok (old, dead) := by
  have : extractInt s = .ok (none, dead) := by unfold extractInt; rw [h.sentry]
  unfold inInt
  rw [Rd.bind_ok this]
  rfl

theorem dry_inIntVar {s : Stream} (h : Dry s) (old : Option Int32) : inIntVar old s = .ok (old, dead) := by
  have : extractInt s = .ok (none, dead) := by unfold extractInt; rw [h.sentry]
  unfold inIntVar
  rw [Rd.bind_ok this]
  rfl

theorem dry_inQuoted {s : Stream} (h : Dry s) (old : Bytes) : inQuoted old s = .ok (old, dead) := by
  unfold inQuoted
  rw [h.sentry]

/-! ## Physical groups -/

theorem dry_group {s : Stream} (h : Dry s) (g : PhysicalGroup) : loadPhysicalGroup g s = .ok (g, dead) := by
  unfold loadPhysicalGroup
  rw [Rd.bind_ok (dry_inInt h _), Rd.bind_ok (dry_inInt dry_dead _), Rd.bind_ok (dry_inQuoted dry_dead _)]
  rfl

theorem dry_groups (l : List PhysicalGroup) : ∀ s, Dry s → forEach loadPhysicalGroup l s = .ok (l, if l = [] then s else dead) := by
  induction l with
  | nil => intro s h; rfl
  | cons g l ih =>
    intro s h
    unfold forEach
    rw [Rd.bind_ok (dry_group h g), Rd.bind_ok (ih dead dry_dead), ite_self]
    rfl

/-- A main loop that ends after the section read last. -/
theorem load_last {cfg : Cfg} {file : Bytes} {s s' : MshSpec} {w name body : Bytes} (ha : Arrives cfg (Stream.ofBytes file) (s, gs (w ++ (36 :: name) ++ body))) (hw : Ws w)
    (hn : ∀ c ∈ name, isSpace c = false) (hb : WsHead body) (hs : loadSection cfg (36 :: name) s (gs body) = .ok (s', dead)) : loadMsh cfg file = loadPostProcess cfg s' := by
  have hr : loadRound cfg s (gs (w ++ (36 :: name) ++ body)) = .ok (s', dead) := by
    unfold loadRound
    rw [Rd.bind_ok (inString_tok [] _ (tag_word hn) w _ hw hb)]
    show (loadSection cfg (36 :: name) s >>= fun spec => _) _ = _
    rw [Rd.bind_ok hs]
    rfl
  have h := loadFull_reach (ha.tail ⟨rfl, hr⟩)
  simp only at h
  unfold loadMsh
  rw [loadStream_eq, h, loadFull_eof rfl]

theorem group_count {n : Nat} (h : n < 2 ^ 31) : (sizeOfInt (Int32.ofNat n)).toNat = n := by
  have := toNat_sizeOfInt (Int32.ofNat n)
  rw [Int32.toInt_ofNat_of_lt h] at this
  split at this <;> omega

/-- `n` physical groups are announced, and none follow. -/
def groupsFile (n : Nat) : Bytes := b! "$PhysicalNames\n" ++ natText n ++ [10]

theorem groups_load {cfg : Cfg} (ha : cfg.asserts = false) {n : Nat} (h0 : 0 < n) (hn : n ≤ cfg.maxCount) (h31 : n < 2 ^ 31) :
    loadMsh cfg (groupsFile n) = .ok { physicalGroups := List.replicate n {} } := by
  have hm := cfg.maxCount_lt
  refine (load_last (s := {}) (s' := { physicalGroups := List.replicate n {} }) (w := []) (name := b! "PhysicalNames") (body := [10] ++ natText n ++ [10]) ?_ (by unfold Ws; simp) (by decide) ?_ ?_).trans rfl
  · have : groupsFile n = [] ++ b! "$PhysicalNames" ++ ([10] ++ natText n ++ [10]) := by unfold groupsFile; simp
    rw [this]
    exact .refl
  · exact ⟨10, _, rfl, by decide⟩
  · show (loadPhysicalGroups cfg [] >>= fun g => pure _) _ = _
    have hr : loadPhysicalGroups cfg [] (gs ([10] ++ natText n ++ [10])) = .ok (List.replicate n {}, dead) := by
      unfold loadPhysicalGroups
      have ht := extractInt_size_tok n h31 [10] [10] (by unfold Ws; decide) ⟨10, [], rfl, by decide⟩
      have he : decU64 (UInt64.ofNat n) = natText n := by
        rw [natText_eq]; unfold decU64; rw [ofNat_toNat_lt (by omega)]
      rw [he] at ht
      rw [Rd.bind_ok ht]
      have e := dry_groups (List.replicate n {}) _ dry_newline
      rw [if_neg (by simp; omega)] at e
      have h1 : resize cfg ([] : List PhysicalGroup) (sizeOfInt (Int32.ofNat n)) {} (gs [10]) = .ok (List.replicate n {}, gs [10]) := by
        unfold resize Rd.lift vecResize
        rw [group_count h31, if_pos hn]
        simp
      show (resize cfg ([] : List PhysicalGroup) (sizeOfInt (Int32.ofNat n)) {} >>= fun g => _) _ = _
      rw [Rd.bind_ok h1, Rd.bind_ok e]
      have h2 : assertGood cfg dead = .ok ((), dead) := by unfold assertGood; simp [ha]
      rw [Rd.bind_ok h2]
      rfl
    rw [Rd.bind_ok hr]
    rfl

/-! ## Elements of version 2.2 -/

/-- A point element at node 0. -/
def pointBlock : ElementBlock := { entityDim := 0, entityTag := 1, elementType := 15, numElementsInBlock := 1, data := [1, 0] }

/-- After `k` elements. -/
def after22 (k : Nat) : Ascii22 :=
  { elementNum := some 1, elementType := some 15, numTags := some 0, tags := [], nodeIds := [0], lo := 1, hi := 1, blocks := List.replicate k pointBlock, maps := [[], [], [], []] }

theorem makePoint {cfg : Cfg} {k : Nat} (hk : k < cfg.maxCount) (h2 : 2 ≤ cfg.maxCount) (maps : List PhysMap) :
    makeElement22 cfg 1 15 [] [0] (List.replicate k pointBlock) maps = .ok (List.replicate (k + 1) pointBlock, maps) := by
  unfold makeElement22
  have h1 : vecPush cfg (List.replicate k pointBlock) ({} : ElementBlock) = .ok (List.replicate k pointBlock ++ [({} : ElementBlock)]) := if_pos (by rw [List.length_replicate]; exact hk)
  have h3 : vecResize cfg ([] : List UInt64) (UInt64.ofNat (([0] : List Int32).length + 1)) 0 = .ok [0, 0] := if_pos h2
  have hd : getElementDim 15 = .ok 0 := by decide
  rw [h1, hd]
  show (vecResize cfg ([] : List UInt64) (UInt64.ofNat (([0] : List Int32).length + 1)) 0 >>= fun _ => _) = _
  rw [h3, List.replicate_succ']
  rfl

theorem dry_ids {s : Stream} (h : Dry s) : forEach inInt [0] s = .ok ([0], dead) := by
  unfold forEach
  rw [Rd.bind_ok (dry_inInt h _)]
  rfl

theorem resizeTo {α : Type} {cfg : Cfg} {n : UInt64} {v : List α} {d : α} {s : Stream} (h : v.length = n.toNat) (hn : n.toNat ≤ cfg.maxCount) : resize cfg v n d s = .ok (v, s) := by
  unfold resize Rd.lift vecResize
  rw [if_pos hn]
  rw [List.take_of_length_le (by omega), h, Nat.sub_self, List.replicate_zero, List.append_nil]

theorem use_some {α : Type} (a : α) (s : Stream) : useVar (some a) s = .ok (a, s) := rfl

theorem lift_ok {α : Type} {m : Outcome α} {a : α} (h : m = .ok a) (s : Stream) : Rd.lift m s = .ok (a, s) := by rw [h]; rfl

theorem dry_element {cfg : Cfg} {k : Nat} (hk : k < cfg.maxCount) (h2 : 2 ≤ cfg.maxCount) {s : Stream} (h : Dry s) :
    loadElementAscii22 cfg (after22 k) s = .ok (after22 (k + 1), dead) := by
  unfold loadElementAscii22 after22
  dsimp only
  rw [Rd.bind_ok (dry_inIntVar h _), Rd.bind_ok (dry_inIntVar dry_dead _), Rd.bind_ok (dry_inIntVar dry_dead _), Rd.bind_ok (use_some _ _),
    Rd.bind_ok (resizeTo rfl (Nat.zero_le _)), Rd.bind_ok (show forEach inInt [] dead = .ok ([], dead) from rfl), Rd.bind_ok (use_some _ _),
    Rd.bind_ok (lift_ok (show nodesPerElement 15 = .ok 1 by decide) _), Rd.bind_ok (resizeTo (cfg := cfg) (n := 1) rfl (show 1 ≤ cfg.maxCount by omega)), Rd.bind_ok (dry_ids dry_dead), Rd.bind_ok (use_some _ _),
    Rd.bind_ok (lift_ok (makePoint hk h2 _) _)]
  rfl

theorem first_element {cfg : Cfg} (h2 : 2 ≤ cfg.maxCount) :
    loadElementAscii22 cfg { lo := sizeMax, hi := 0, blocks := [] } (gs (b! " 1 15 0 0\n")) = .ok (after22 1, gs [10]) := by
  unfold loadElementAscii22
  dsimp only
  have h1 : resize cfg ([] : List Int32) 1 0 (gs (b! " 0\n")) = .ok ([0], gs (b! " 0\n")) := by
    unfold resize Rd.lift vecResize
    rw [if_pos (show (1 : UInt64).toNat ≤ cfg.maxCount from (show 1 ≤ cfg.maxCount by omega))]
    rfl
  have hp := makePoint (cfg := cfg) (k := 0) (by omega) h2 [[], [], [], []]
  rw [List.replicate_zero] at hp
  rw [Rd.bind_ok (show inIntVar none (gs (b! " 1 15 0 0\n")) = .ok (some 1, gs (b! " 15 0 0\n")) from rfl),
    Rd.bind_ok (show inIntVar none (gs (b! " 15 0 0\n")) = .ok (some 15, gs (b! " 0 0\n")) from rfl),
    Rd.bind_ok (show inIntVar none (gs (b! " 0 0\n")) = .ok (some 0, gs (b! " 0\n")) from rfl), Rd.bind_ok (use_some _ _),
    Rd.bind_ok (resizeTo rfl (Nat.zero_le _)), Rd.bind_ok (show forEach inInt [] (gs (b! " 0\n")) = .ok ([], gs (b! " 0\n")) from rfl), Rd.bind_ok (use_some _ _),
    Rd.bind_ok (lift_ok (show nodesPerElement 15 = .ok 1 by decide) _), Rd.bind_ok h1, Rd.bind_ok (show forEach inInt [0] (gs (b! " 0\n")) = .ok ([0], gs [10]) from rfl), Rd.bind_ok (use_some _ _),
    Rd.bind_ok (lift_ok hp _)]
  rfl

theorem dry_loop {cfg : Cfg} (h2 : 2 ≤ cfg.maxCount) (n : Nat) : ∀ i k s, k + n ≤ cfg.maxCount → Dry s →
    ∃ s', (s' = s ∧ n = 0 ∨ s' = dead) ∧ loopN (fun _ st => loadElementAscii22 cfg st) n i (after22 k) s = .ok (after22 (k + n), s') := by
  induction n with
  | zero => intro i k s _ _; exact ⟨s, Or.inl ⟨rfl, rfl⟩, rfl⟩
  | succ n ih =>
    intro i k s hk h
    obtain ⟨s', h', e⟩ := ih (i + 1) (k + 1) dead (by omega) dry_dead
    refine ⟨s', Or.inr (h'.elim (·.1) id), ?_⟩
    unfold loopN
    rw [Rd.bind_ok (dry_element (by omega) h2 h), e]
    rw [show k + 1 + n = k + (n + 1) by omega]

/-- `n` elements are announced, and one follows. -/
def elementsFile (n : Nat) : Bytes := hdr22 ++ b! "$Elements\n" ++ natText n ++ b! " 1 15 0 0\n"

theorem foldO_same {α σ : Type} {f : α → σ → Outcome σ} {a : α} {st : σ} (h : f a st = .ok st) (n : Nat) : foldO f (List.replicate n a) st = .ok st := by
  induction n with
  | zero => rfl
  | succ n ih => rw [List.replicate_succ]; unfold foldO; rw [h]; exact ih

/-- What the regrouping of point elements has made after `k` of them. -/
def regrouped (k : Nat) : RegroupE :=
  { blocks := [{ pointBlock with numElementsInBlock := UInt64.ofNat k, data := (List.replicate k ([1, 0] : List UInt64)).flatten }], dim := 0, tag := 1, type := 15 }

theorem regroup_first {cfg : Cfg} (h2 : 2 ≤ cfg.maxCount) : regroupElement cfg pointBlock {} = .ok (regrouped 1) := by
  unfold regroupElement
  have h1 : vecPush cfg ([] : List ElementBlock) { entityDim := 0, entityTag := 1, elementType := 15 } = .ok [{ entityDim := 0, entityTag := 1, elementType := 15 }] :=
    if_pos (show 0 < cfg.maxCount by omega)
  show (vecPush cfg ([] : List ElementBlock) { entityDim := 0, entityTag := 1, elementType := 15 } >>= fun bs => _) = _
  rw [h1]
  show (vecModifyBack [({ entityDim := 0, entityTag := 1, elementType := 15 } : ElementBlock)] _ >>= _) = _
  unfold vecModifyBack
  show ((if 2 ≤ cfg.maxCount then _ else _) >>= _) >>= _ = _
  rw [if_pos h2]
  rfl

theorem regroup_next {cfg : Cfg} {k : Nat} (hk : 2 * (k + 1) ≤ cfg.maxCount) : regroupElement cfg pointBlock (regrouped k) = .ok (regrouped (k + 1)) := by
  unfold regroupElement
  show (vecModifyBack (regrouped k).blocks _ >>= _) = _
  unfold vecModifyBack
  have hl : ((List.replicate k ([1, 0] : List UInt64)).flatten).length = 2 * k := by simp [Nat.mul_comm]
  show ((if ((List.replicate k ([1, 0] : List UInt64)).flatten).length + 2 ≤ cfg.maxCount then _ else _) >>= _) >>= _ = _
  rw [if_pos (by omega)]
  have h1 : UInt64.ofNat k + 1 = UInt64.ofNat (k + 1) := by
    refine UInt64.toNat_inj.mp ?_
    rw [UInt64.toNat_add, UInt64.toNat_ofNat', UInt64.toNat_ofNat']
    show (k % 2 ^ 64 + 1) % 2 ^ 64 = _
    omega
  have h2 : (List.replicate (k + 1) ([1, 0] : List UInt64)).flatten = (List.replicate k ([1, 0] : List UInt64)).flatten ++ [1, 0] := by
    rw [List.replicate_succ', List.flatten_append]
    rfl
  unfold regrouped
  rw [← h1, h2]
  rfl

theorem regroup_all {cfg : Cfg} (n : Nat) : ∀ k, 2 * (k + n) ≤ cfg.maxCount → foldO (regroupElement cfg) (List.replicate n pointBlock) (regrouped k) = .ok (regrouped (k + n)) := by
  induction n with
  | zero => intro k _; rfl
  | succ n ih =>
    intro k hk
    rw [List.replicate_succ]
    unfold foldO
    rw [regroup_next (by omega)]
    show foldO _ _ _ = _
    rw [ih (k + 1) (by omega)]
    rw [show k + 1 + n = k + (n + 1) by omega]

/-- What is loaded from `elementsFile n`. -/
def elementsLoaded (n : Nat) : MshSpec :=
  { meshFormat := ⟨b! "2.2", 0, 8⟩, elements := { numEntityBlocks := 1, numElements := UInt64.ofNat n, minElementTag := 1, maxElementTag := 1, entityBlocks := (regrouped n).blocks } }

theorem elements_load {cfg : Cfg} {n : Nat} (h0 : 2 ≤ n) (hn : 2 * n ≤ cfg.maxCount) : loadMsh cfg (elementsFile n) = .ok (elementsLoaded n) := by
  have hm := cfg.maxCount_lt
  have hN : (UInt64.ofNat n).toNat = n := ofNat_toNat_lt (by omega)
  refine (load_last (cfg := cfg) (s := { meshFormat := ⟨b! "2.2", 0, 8⟩ })
    (s' := { meshFormat := ⟨b! "2.2", 0, 8⟩, elements := { numEntityBlocks := UInt64.ofNat n, numElements := UInt64.ofNat n, minElementTag := 1, maxElementTag := 1, entityBlocks := List.replicate n pointBlock } })
    (w := [10]) (name := b! "Elements") (body := [10] ++ natText n ++ b! " 1 15 0 0\n") ?_ (by unfold Ws; decide) (by decide) ?_ ?_).trans ?_
  · have hb : Boundary cfg hdr22 { meshFormat := ⟨b! "2.2", 0, 8⟩ } := ⟨b! "\n", by decide, .single ⟨rfl, rfl⟩⟩
    have h1 : MainIter cfg ({}, Stream.ofBytes hdr22) ({ meshFormat := ⟨b! "2.2", 0, 8⟩ }, gs [10]) := ⟨rfl, rfl⟩
    have := arrives_ext (.single h1) _ [10] rfl (b! "$Elements\n" ++ natText n ++ b! " 1 15 0 0\n")
    have e : elementsFile n = hdr22 ++ (b! "$Elements\n" ++ natText n ++ b! " 1 15 0 0\n") := by unfold elementsFile; simp only [List.append_assoc]
    rw [e]
    have e2 : gs ([10] ++ b! "$Elements" ++ ([10] ++ natText n ++ b! " 1 15 0 0\n")) = gs ([10] ++ (b! "$Elements\n" ++ natText n ++ b! " 1 15 0 0\n")) := by simp
    rw [e2]
    exact this
  · exact ⟨10, _, rfl, by decide⟩
  · show (loadElements cfg ⟨b! "2.2", 0, 8⟩ {} {} >>= fun p => pure _) _ = _
    have hr : loadElements cfg ⟨b! "2.2", 0, 8⟩ {} {} (gs ([10] ++ natText n ++ b! " 1 15 0 0\n")) =
        .ok (({ numEntityBlocks := UInt64.ofNat n, numElements := UInt64.ofNat n, minElementTag := 1, maxElementTag := 1, entityBlocks := List.replicate n pointBlock }, {}), dead) := by
      show loadElementsAscii22 cfg { minElementTag := sizeMax, maxElementTag := 0 } {} _ = _
      unfold loadElementsAscii22
      have ht := extractSize_tok (UInt64.ofNat n) [10] (b! " 1 15 0 0\n") (by unfold Ws; decide) ⟨32, _, rfl, by decide⟩
      have he : decU64 (UInt64.ofNat n) = natText n := by rw [natText_eq]; unfold decU64; rw [hN]
      rw [he] at ht
      rw [Rd.bind_ok ht]
      show (loopN (fun _ st => loadElementAscii22 cfg st) (UInt64.ofNat n).toNat 0 { lo := sizeMax, hi := 0, blocks := [] } >>= fun st => _) _ = _
      have hl : loopN (fun _ st => loadElementAscii22 cfg st) (UInt64.ofNat n).toNat 0 { lo := sizeMax, hi := 0, blocks := [] } (gs (b! " 1 15 0 0\n")) = .ok (after22 n, dead) := by
        rw [hN]
        obtain ⟨m, rfl⟩ : ∃ m, n = m + 1 := ⟨n - 1, by omega⟩
        obtain ⟨s', h', e⟩ := dry_loop (cfg := cfg) (by omega) m 1 1 (gs [10]) (by omega) dry_newline
        have : s' = dead := h'.elim (fun h => by omega) id
        rw [this] at e
        unfold loopN
        rw [Rd.bind_ok (first_element (by omega)), e]
        rw [Nat.add_comm]
      rw [Rd.bind_ok hl]
      show Outcome.ok _ = Outcome.ok _
      simp only [after22, UInt64.zero_add]
    rw [Rd.bind_ok hr]
    rfl
  · unfold loadPostProcess
    rw [if_pos rfl]
    have h1 : regroupNodes cfg {} { numEntityBlocks := UInt64.ofNat n, numElements := UInt64.ofNat n, minElementTag := 1, maxElementTag := 1, entityBlocks := List.replicate n pointBlock } = .ok {} := by
      unfold regroupNodes
      have hz : vecResize cfg ([] : List UInt64) 1 0 = .ok [0] := if_pos (show 1 ≤ cfg.maxCount by omega)
      show (vecResize cfg ([] : List UInt64) 1 0 >>= fun d => vecResize cfg ([] : List UInt64) 1 0 >>= fun t => _) = _
      rw [hz]
      show (foldO (markBlock 0) (List.replicate n pointBlock) ([0], [0]) >>= fun p => _) = _
      obtain ⟨m, rfl⟩ : ∃ m, n = m + 1 := ⟨n - 1, by omega⟩
      rw [List.replicate_succ]
      unfold foldO
      rw [show markBlock 0 pointBlock ([0], [0]) = .ok ([0], [1]) from by decide +kernel]
      show ((foldO (markBlock 0) (List.replicate m pointBlock) ([0], [1])) >>= fun p => _) = _
      rw [foldO_same (show markBlock 0 pointBlock ([0], [1]) = .ok ([0], [1]) from by decide +kernel) m]
      rfl
    show (regroupNodes cfg {} _ >>= fun nodes => regroupElements cfg _ >>= fun e => _) = _
    rw [h1]
    show (regroupElements cfg _ >>= fun e => _) = _
    unfold regroupElements
    have h3 : vecReserve cfg (UInt64.ofNat n) = .ok () := if_pos (by rw [hN]; omega)
    show (vecReserve cfg (UInt64.ofNat n) >>= fun _ => foldO (regroupElement cfg) (List.replicate n pointBlock) {} >>= fun st => _) >>= _ = _
    rw [h3]
    show (foldO (regroupElement cfg) (List.replicate n pointBlock) {} >>= fun st => _) >>= _ = _
    have h4 : foldO (regroupElement cfg) (List.replicate n pointBlock) {} = .ok (regrouped n) := by
      obtain ⟨m, rfl⟩ : ∃ m, n = m + 1 := ⟨n - 1, by omega⟩
      rw [List.replicate_succ]
      unfold foldO
      rw [regroup_first (by omega)]
      show foldO _ _ _ = _
      rw [regroup_all m 1 (by omega), Nat.add_comm]
    rw [h4]
    rfl

theorem elementsLoaded_sizes (n : Nat) : 2 * n ≤ (elementsLoaded n).sizes.sum := by
  have : ((List.replicate n ([1, 0] : List UInt64)).flatten).length = 2 * n := by simp [Nat.mul_comm]
  simp only [elementsLoaded, regrouped, pointBlock, MshSpec.sizes, List.map_cons, List.sum_append, List.sum_cons, this]
  omega

end MshIO
