import Verif.Proofs.EndingsSections
import Verif.Proofs.Throws
import Verif.Proofs.SectionUndefined
import Verif.Props.Stuck

/-!
From sections to files: where `load_msh` fails an assertion, and where it never returns.
-/

namespace MshIO

/-! ## What follows reading fails no assertion -/

/-- No failed assertion, and `Q` if it ends well. -/
def OFine (x : Outcome α) (Q : α → Prop) : Prop := x ≠ .abort ∧ OPost x Q

theorem OFine.ok {a : α} {Q : α → Prop} (h : Q a) : OFine (.ok a) Q := ⟨by simp, OPost.ok h⟩
theorem OFine.pure {a : α} {Q : α → Prop} (h : Q a) : OFine (pure a) Q := OFine.ok h

theorem OFine.bind {m : Outcome α} {f : α → Outcome β} {P : α → Prop} {Q : β → Prop} (hm : OFine m P) (hf : ∀ a, P a → OFine (f a) Q) : OFine (m >>= f) Q := by
  cases m with
  | ok a => exact hf a (hm.2 a rfl)
  | throw e => exact ⟨by simp [Bind.bind, Outcome.bind], OPost.throw⟩
  | abort => exact absurd rfl hm.1
  | ub => exact ⟨by simp [Bind.bind, Outcome.bind], fun a h => by cases h⟩
  | hang => exact ⟨by simp [Bind.bind, Outcome.bind], fun a h => by cases h⟩

theorem OFine.ite {c : Prop} [Decidable c] {m n : Outcome α} {Q : α → Prop} (h1 : c → OFine m Q) (h2 : ¬ c → OFine n Q) : OFine (if c then m else n) Q := by
  split
  · exact h1 ‹_›
  · exact h2 ‹_›

theorem OFine.throw {e : Exc} {Q : α → Prop} : OFine (.throw e) Q := ⟨by simp, OPost.throw⟩
theorem OFine.ub {Q : α → Prop} : OFine .ub Q := ⟨by simp, fun a h => by cases h⟩

theorem OFine.mono {m : Outcome α} {P Q : α → Prop} (h : OFine m P) (hq : ∀ a, P a → Q a) : OFine m Q := ⟨h.1, h.2.mono hq⟩

theorem OFine.loopO {f : Nat → σ → Outcome σ} {P : σ → Prop} (hf : ∀ j st, P st → OFine (f j st) P) (n : Nat) : ∀ i st, P st → OFine (loopO f n i st) P := by
  induction n with
  | zero => intro i st h; exact OFine.ok h
  | succ n ih =>
    intro i st h
    unfold MshIO.loopO
    exact OFine.bind (hf i st h) fun st' h' => ih (i + 1) st' h'

theorem OFine.foldO {f : α → σ → Outcome σ} {P : σ → Prop} (l : List α) (hf : ∀ a ∈ l, ∀ st, P st → OFine (f a st) P) : ∀ st, P st → OFine (foldO f l st) P := by
  induction l with
  | nil => intro st h; exact OFine.ok h
  | cons a l ih =>
    intro st h
    unfold MshIO.foldO
    exact OFine.bind (hf a List.mem_cons_self st h) fun st' h' => ih (fun a ha => hf a (List.mem_cons_of_mem _ ha)) st' h'

theorem OFine.vecGet {v : List α} {i : UInt64} : OFine (vecGet v i) fun a => a ∈ v := by
  unfold MshIO.vecGet
  split
  · exact OFine.ok (List.mem_of_getElem? ‹_›)
  · exact OFine.ub

theorem OFine.vecSet {v : List α} {i : UInt64} {x : α} : OFine (vecSet v i x) fun l => l = v.set i.toNat x := by
  unfold MshIO.vecSet
  exact OFine.ite (fun _ => OFine.ok rfl) fun _ => OFine.ub

theorem OFine.vecPush (cfg : Cfg) (v : List α) (x : α) : OFine (vecPush cfg v x) fun l => l = v ++ [x] := by
  unfold MshIO.vecPush
  exact OFine.ite (fun _ => OFine.ok rfl) fun _ => OFine.throw

theorem OFine.vecReserve (cfg : Cfg) (n : UInt64) : OFine (vecReserve cfg n) fun _ => True := by
  unfold MshIO.vecReserve
  exact OFine.ite (fun _ => OFine.ok trivial) fun _ => OFine.throw

theorem OFine.vecModifyBack {v : List α} {f : α → Outcome α} (h : ∀ a, OFine (f a) fun _ => True) : OFine (vecModifyBack v f) fun l => l ≠ [] := by
  unfold MshIO.vecModifyBack
  split
  · exact OFine.ub
  · exact OFine.bind (h _) fun b _ => OFine.pure (by simp)

theorem fine_resize (cfg : Cfg) (v : List α) (n : UInt64) (x : α) : OFine (vecResize cfg v n x) fun l => ∀ a ∈ l, a ∈ v ∨ a = x := by
  unfold vecResize
  refine OFine.ite (fun _ => OFine.ok ?_) fun _ => OFine.throw
  intro a ha
  rcases List.mem_append.mp ha with h | h
  · exact Or.inl (List.mem_of_mem_take h)
  · exact Or.inr (List.eq_of_mem_replicate h)

theorem fine_mark (lo : UInt64) {b : ElementBlock} (hb : b.Raw) {st : List UInt64 × List UInt64} (hst : ∀ d ∈ st.1, d ≠ sizeMax) :
    OFine (markBlock lo b st) fun st => ∀ d ∈ st.1, d ≠ sizeMax := by
  obtain ⟨-, ⟨n, hn, -⟩, hd⟩ := hb
  unfold markBlock
  rw [(nodesPerElement_of_mshNodes hn).1, okBind]
  refine OFine.loopO (P := fun st : List UInt64 × List UInt64 => ∀ d ∈ st.1, d ≠ sizeMax) (fun i st h => OFine.loopO (fun j st h => ?_) _ _ _ h) _ _ _ hst
  refine OFine.bind OFine.vecGet fun t _ => OFine.bind OFine.vecSet fun ds hds => OFine.bind OFine.vecSet fun ts _ => OFine.pure ?_
  intro d hd'
  simp only [hds] at hd'
  rcases List.mem_or_eq_of_mem_set hd' with h' | h'
  · exact h d h'
  · rw [h']; exact dim_valid hd

theorem fine_node (cfg : Cfg) {lo : UInt64} {dims tags : List UInt64} (ht : ∀ d ∈ dims, d ≠ sizeMax) (b : NodeBlock) (i : Nat) {st : Regroup} (hst : st.Ready) :
    OFine (regroupNode cfg lo dims tags b i st) Regroup.Ready := by
  unfold regroupNode
  refine OFine.bind OFine.vecGet fun t _ => OFine.bind OFine.vecGet fun dim hdim => OFine.bind OFine.vecGet fun tag _ => ?_
  have tail : ∀ st' : Regroup, st'.blocks ≠ [] → OFine (if cfg.asserts && st'.blocks.isEmpty then .abort
      else do
        let blocks ← vecModifyBack st'.blocks (fun c => do
          let ts ← vecPush cfg c.tags t
          let d ← vecPush cfg c.data (← vecGet b.data (UInt64.ofNat i * 3))
          let d ← vecPush cfg d (← vecGet b.data (UInt64.ofNat i * 3 + 1))
          let d ← vecPush cfg d (← vecGet b.data (UInt64.ofNat i * 3 + 2))
          return { c with tags := ts, data := d })
        return { st' with blocks }) Regroup.Ready := by
    intro st' hst'
    refine OFine.ite (fun h => ?_) fun _ => OFine.bind (OFine.vecModifyBack fun c => ?_) fun bs hbs => OFine.pure (Or.inl hbs)
    · simp only [Bool.and_eq_true, List.isEmpty_iff] at h
      exact absurd h.2 hst'
    · exact OFine.bind (OFine.vecPush cfg _ _) fun _ _ => OFine.bind OFine.vecGet fun _ _ =>
        OFine.bind (OFine.vecPush cfg _ _) fun _ _ => OFine.bind OFine.vecGet fun _ _ =>
        OFine.bind (OFine.vecPush cfg _ _) fun _ _ => OFine.bind OFine.vecGet fun _ _ =>
        OFine.bind (OFine.vecPush cfg _ _) fun _ _ => OFine.pure trivial
  dsimp only
  split
  · refine OFine.bind (OFine.vecReserve cfg _) fun _ _ => OFine.bind (OFine.vecReserve cfg _) fun _ _ => OFine.bind (OFine.vecPush cfg _ _) fun bs hbs => ?_
    exact OFine.bind (P := fun st' : Regroup => st'.blocks ≠ []) (OFine.pure (by simp [hbs])) fun st' h' => tail st' h'
  · rename_i hne
    refine OFine.bind (P := fun st' : Regroup => st'.blocks ≠ []) (OFine.pure ?_) fun st' h' => tail st' h'
    rcases hst with h | h
    · exact h
    · exact absurd (Or.inl (h ▸ ht dim hdim)) hne

/-- What follows reading elements of version 2.2 fails no assertion: every node gets a block, since no dimension of an element is `size_t(-1)`. -/
theorem post_not_abort (cfg : Cfg) (s : MshSpec) (hs : s.meshFormat.version = b! "2.2" → s.elements.Raw) : loadPostProcess cfg s ≠ .abort := by
  unfold loadPostProcess
  split
  · rename_i hv
    refine (OFine.bind (P := fun _ => True) (Q := fun _ => True) ?_ fun _ _ => OFine.bind (P := fun _ => True) ?_ fun _ _ => OFine.pure trivial).1
    · unfold regroupNodes
      refine OFine.bind (fine_resize cfg _ _ _) fun dims hdims => OFine.bind (fine_resize cfg _ _ _) fun tags _ => ?_
      refine OFine.bind (P := fun st : List UInt64 × List UInt64 => ∀ d ∈ st.1, d ≠ sizeMax) (OFine.foldO _ (fun b hb st h => fine_mark _ (hs hv b hb) h) _ ?_) fun st hst => ?_
      · intro d hd
        rcases hdims d hd with h | h
        · exact absurd h List.not_mem_nil
        · rw [h]; decide
      · refine OFine.bind (OFine.foldO (P := Regroup.Ready) _ (fun b _ st' h => OFine.loopO (fun j st' h => fine_node cfg hst b j h) _ _ _ h) _ (Or.inr rfl)) fun _ _ => OFine.pure trivial
    · unfold regroupElements
      refine OFine.bind (OFine.vecReserve cfg _) fun _ _ => OFine.bind (OFine.foldO (P := fun _ => True) _ (fun b _ st _ => ?_) _ trivial) fun _ _ => OFine.pure trivial
      unfold regroupElement
      have tail : ∀ st : RegroupE, OFine (do
          let blocks ← vecModifyBack st.blocks (fun c =>
            if c.data.length + b.data.length ≤ cfg.maxCount then
              Outcome.ok { c with numElementsInBlock := c.numElementsInBlock + b.numElementsInBlock, data := c.data ++ b.data }
            else .throw .alloc)
          return { st with blocks }) fun _ => True := fun st =>
        OFine.bind (OFine.vecModifyBack fun c => OFine.ite (fun _ => OFine.ok trivial) fun _ => OFine.throw) fun _ _ => OFine.pure trivial
      dsimp only
      split
      · exact OFine.bind (OFine.vecPush cfg _ _) fun _ _ => OFine.bind (P := fun _ => True) (OFine.pure trivial) fun st' _ => tail st'
      · exact OFine.bind (P := fun _ => True) (OFine.pure trivial) fun st' _ => tail st'
  · simp

/-! ## Files -/

/-- A failed assertion in a round happens in its section. -/
theorem round_stops (cfg : Cfg) {s : MshSpec} {st : Stream} (h : loadRound cfg s st = .abort) :
    ∃ w n r, Blank w ∧ (∀ c ∈ n, isSpace c = false) ∧ st = gs (w ++ 36 :: n ++ r) ∧ WsNext r ∧ loadSection cfg (36 :: n) s (payload r) = .abort := by
  unfold loadRound at h
  rw [Rd.bind_def] at h
  cases hi : inString [] st with
  | ok p =>
    obtain ⟨buf, s'⟩ := p
    rw [hi] at h
    simp only at h
    split at h
    · rename_i rest
      obtain ⟨w, hw, hst, hs', hn⟩ := inString_at hi (by simp)
      refine ⟨w, rest, s'.rem, hw, fun c hc => inString_chars hi c (by simp [hc]), hst, hn, ?_⟩
      rw [Rd.bind_def] at h
      have e1 : payload s'.rem = s' := hs'.symm
      rw [e1]
      cases hs : loadSection cfg (36 :: rest) s s' with
      | ok q =>
        rw [hs] at h
        have := (WithinR.bind (within_forwardTo (T := []) (ab := false) (endMarker (36 :: rest))) fun _ => WithinR.pure q.1).all q.2
        simp only at h
        rw [h] at this
        cases this
      | abort => rfl
      | throw x => rw [hs] at h; cases h
      | ub => rw [hs] at h; cases h
      | hang => rw [hs] at h; cases h
    · cases h
  | abort => have := (withinR_inString (T := []) (ab := false) []).all st; rw [hi] at this; cases this
  | throw x => rw [hi] at h; cases h
  | hang => rw [hi] at h; cases h
  | ub => rw [hi] at h; cases h

/-- Failed assertions of `load_msh`: in a section, or after reading. -/
theorem loadMsh_abort_iff (cfg : Cfg) (file : Bytes) : loadMsh cfg file = .abort ↔
    (∃ s name r, (∃ n, name = 36 :: n ∧ ∀ c ∈ n, isSpace c = false) ∧ ArrivesAt cfg file s name r ∧ loadSection cfg name s (payload r) = .abort) ∨
    ∃ s st, Arrives cfg (Stream.ofBytes file) (s, st) ∧ st.eof = true ∧ loadPostProcess cfg s = .abort := by
  unfold loadMsh
  rw [loadStream_eq]
  constructor
  · intro h
    cases hf : loadFull cfg {} (Stream.ofBytes file) with
    | ok x =>
      rw [hf] at h
      obtain ⟨h1, h2⟩ := loadFull_ok cfg _ _ _ x le_rfl hf
      exact Or.inr ⟨x.1, x.2, h1, h2, h⟩
    | abort =>
      obtain ⟨x, h1, h2, h3⟩ := loadFull_stops cfg (by simp) (by simp) _ _ _ le_rfl hf
      obtain ⟨w, n, r, hw, hn, hst, hr, hs⟩ := round_stops cfg h3
      refine Or.inl ⟨x.1, 36 :: n, r, ⟨n, rfl, hn⟩, ⟨hr, w, hw, ?_⟩, hs⟩
      have : x = (x.1, gs (w ++ 36 :: n ++ r)) := Prod.ext rfl hst
      rw [this] at h1
      exact h1
    | ub => rw [hf] at h; cases h
    | throw e => rw [hf] at h; cases h
    | hang => rw [hf] at h; cases h
  · rintro (⟨s, name, r, ⟨n, rfl, hn⟩, ⟨hr, w, hw, ha⟩, hs⟩ | ⟨s, st, ha, he, hr⟩)
    · have h1 := loadFull_reach ha
      simp only at h1
      rw [h1, loadFull_round rfl, Rd.bind_def]
      have : loadRound cfg s ⟨w ++ 36 :: n ++ r, false, false⟩ = .abort := by
        unfold loadRound
        have := inString_end (b := r) [] (tag_word hn) ?_ hw
        · rw [Rd.bind_ok this]
          exact Rd.bind_abort hs
        · cases r with
          | nil => exact Or.inl rfl
          | cons c r => exact Or.inr ⟨c, r, rfl, hr c rfl⟩
      rw [this]
    · have h1 := loadFull_reach ha
      simp only at h1
      rw [h1, loadFull_eof he]
      exact hr

end MshIO
