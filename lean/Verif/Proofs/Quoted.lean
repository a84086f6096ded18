import Verif.Proofs.Basic41
import Verif.Proofs.Read22
import Verif.Proofs.Boundary
import Verif.Spec.Quoted

/-!
# Quoted strings: the writer and the reader against the specification
-/

namespace MshIO

theorem escaped_eq (s : Bytes) : escaped s = escChars s := by
  induction s with
  | nil => rfl
  | cons c s ih =>
    rw [escaped, escChars_cons, ih]
    by_cases h : c = 34 ∨ c = 92
    · rw [if_pos (by simpa using h), if_pos (by simpa using h)]; rfl
    · rw [if_neg (by simpa using h), if_neg (by simpa using h)]; rfl

/-- The writer quotes as specified. -/
theorem quoted_eq (s : Bytes) : quoted s = quoteText s := by
  rw [quoted, escaped_eq]; rfl

theorem quoted_eq' : quoted = quoteText := funext quoted_eq

theorem quotedBody_spells {t s : Bytes} (h : Spells t s) (rest : Bytes) :
    quotedBody (t ++ 34 :: rest) = (s, gs rest) := by
  induction h with
  | nil => rfl
  | @plain c t s h1 h2 _ ih =>
    rw [List.cons_append, quotedBody_other (by simpa using h1) (by simpa using h2), ih]
  | @escape c t s _ ih =>
    show quotedBody (92 :: c :: (t ++ 34 :: rest)) = _
    rw [quotedBody_esc, ih]

theorem spells_escaped (s : Bytes) : Spells (escaped s) s := by
  induction s with
  | nil => exact .nil
  | cons c s ih =>
    rw [escaped]
    split
    · exact .escape ih
    · rename_i h; rw [not_or] at h; exact .plain h.1 h.2 ih

/-- The reader stops after a spelling and the closing quote, or runs to the end. -/
theorem quotedBody_cases (b : Bytes) :
    (∃ t s rest, Spells t s ∧ b = t ++ 34 :: rest) ∨ (quotedBody b).2 = ⟨[], true, true⟩ := by
  fun_induction quotedBody b with
  | case1 => exact .inr rfl
  | case2 r => exact .inl ⟨[], [], r, .nil, rfl⟩
  | case3 => exact .inr rfl
  | case4 c r t s e ih =>
    rcases ih with ⟨t', s', rest, h, rfl⟩ | ih
    · exact .inl ⟨92 :: c :: t', c :: s', rest, .escape h, rfl⟩
    · right; rw [e] at ih; exact ih
  | case5 c r h1 h2 h3 t s e ih =>
    have hc : c ≠ 92 := by
      intro h
      cases r with
      | nil => exact h2 h rfl
      | cons d r => exact h3 d r h rfl
    rcases ih with ⟨t', s', rest, h, rfl⟩ | ih
    · exact .inl ⟨c :: t', c :: s', rest, .plain (by simpa using h1) (by simpa using hc) h, rfl⟩
    · right; rw [e] at ih; exact ih

/-- What a name looks like in a file is read as the name. -/
theorem inQuoted_nameText (old : Bytes) {text name : Bytes} (h : NameText text name) : Tok (inQuoted old) text name := by
  intro w rest hw hr
  rcases h with ⟨t, ht, rfl⟩ | ⟨rfl, h1, h2, h3⟩
  · have e : w ++ (b! "\"" ++ t ++ b! "\"") ++ rest = w ++ 34 :: (t ++ 34 :: rest) := by simp
    unfold inQuoted
    rw [e, sentry_gs hw (by decide)]
    simp only [quotedBody_spells ht]
  · have hs := inString_tok old text ⟨h1, h2⟩ [] rest Ws.nil hr
    obtain ⟨c, r, rfl⟩ := List.exists_cons_of_ne_nil h1
    unfold inQuoted
    rw [List.append_assoc, List.cons_append, sentry_gs hw (h2 c (by simp))]
    have hc : c ≠ 34 := by
      rintro rfl
      exact h3 ⟨r, rfl⟩
    simp only
    rw [List.nil_append, List.cons_append] at hs
    split
    · rename_i r' e
      simp only [gs, List.cons.injEq] at e
      exact absurd e.1 hc
    · exact hs

/-- Words of a physical group whose name is written as `t`. -/
def groupToksAs (g : PhysicalGroup × Bytes) : List Bytes := [decI32 g.1.dim, decI32 g.1.tag, g.2]

theorem loadPhysicalGroup_as (old : PhysicalGroup) (g : PhysicalGroup × Bytes) (h : NameText g.2 g.1.name) :
    ReadsT (loadPhysicalGroup old) (groupToksAs g) g.1 := by
  unfold loadPhysicalGroup
  exact ReadsT.cons (inInt_tok _ _) (ReadsT.cons (inInt_tok _ _) (ReadsT.map (inQuoted_nameText _ h).readsT rfl))

theorem loadGroups_as (gs : List (PhysicalGroup × Bytes)) (h : ∀ g ∈ gs, NameText g.2 g.1.name) :
    ∀ old : List PhysicalGroup, old.length = gs.length →
      ReadsT (forEach loadPhysicalGroup old) (gs.flatMap groupToksAs) (gs.map Prod.fst) := by
  induction gs with
  | nil =>
    intro old ho
    obtain rfl := List.length_eq_zero_iff.mp ho
    exact ReadsT.pure _
  | cons g gs ih =>
    intro old ho
    cases old with
    | nil => simp at ho
    | cons o old =>
      rw [List.flatMap_cons]
      exact ReadsT.bind (loadPhysicalGroup_as o g (h g (by simp)))
        (ReadsT.map (ih (fun x hx => h x (by simp [hx])) old (by simpa using ho)) rfl)

theorem loadPhysicalGroups_as (cfg : Cfg) (old : List PhysicalGroup) (gs : List (PhysicalGroup × Bytes))
    (h : ∀ g ∈ gs, NameText g.2 g.1.name) (hl : gs.length < 2 ^ 31) (hc : gs.length ≤ cfg.maxCount) :
    ReadsT (loadPhysicalGroups cfg old) (decU64 (sizeU gs) :: gs.flatMap groupToksAs) (gs.map Prod.fst) := by
  unfold loadPhysicalGroups
  obtain ⟨v, hv, hn⟩ := silent_resize cfg old (sizeOfInt (Int32.ofNat gs.length)) {} (by rw [sizeOfInt_ofNat hl]; exact hc)
  refine ReadsT.cons (extractInt_size_tok gs.length hl) (ReadsT.silent (silent_useVar _) (ReadsT.silent hv ?_))
  exact ReadsT.last (loadGroups_as gs h v (by rw [hn, sizeOfInt_ofNat hl]))
    (ReadsT.silent (silent_assertGood cfg) (ReadsT.pure _))

/-! ## A quote that is never closed -/

/-- Reading the tokens and then running into the end of the file within `tail`. -/
def Drains {α : Type} (p : Rd α) (ts : List Bytes) (tail : Bytes) (v : α) : Prop :=
  ∀ ps : List (Bytes × Bytes), ps.map Prod.fst = ts → (∀ q ∈ ps, Sep q.2) →
    ∀ w, Ws w → p (gs (w ++ flat ps ++ tail)) = .ok (v, ⟨[], true, true⟩)

theorem Drains.bind {α β : Type} {p : Rd α} {f : α → Rd β} {t1 t2 : List Bytes} {tail : Bytes} {a : α} {b : β}
    (h1 : ReadsT p t1 a) (h2 : Drains (f a) t2 tail b) : Drains (p >>= f) (t1 ++ t2) tail b := by
  intro ps hps hs w hw
  obtain ⟨p1, p2, rfl, e1, e2⟩ := List.map_eq_append_iff.mp hps
  have r1 := h1 p1 e1 (fun q hq => hs q (by simp [hq])) w (flat p2 ++ tail) hw
  rw [flat_append, ← List.append_assoc, List.append_assoc, Rd.bind_ok r1]
  rw [← List.append_assoc]
  exact h2 p2 e2 (fun q hq => hs q (by simp [hq])) _ (lastSep_of (P := Ws) hw fun q hq => (hs q (by simp [hq])).1)

theorem Drains.last {α β : Type} {p : Rd α} {f : α → Rd β} {ts : List Bytes} {tail : Bytes} {a : α} {b : β}
    (h1 : Drains p ts tail a) (h2 : f a ⟨[], true, true⟩ = .ok (b, ⟨[], true, true⟩)) : Drains (p >>= f) ts tail b := by
  intro ps hps hs w hw
  rw [Rd.bind_ok (h1 ps hps hs w hw), h2]

theorem quotedBody_open {t s : Bytes} (h : Spells t s) : quotedBody t = (s, ⟨[], true, true⟩) := by
  induction h with
  | nil => rfl
  | @plain c t s h1 h2 _ ih => rw [quotedBody_other (by simpa using h1) (by simpa using h2), ih]
  | @escape c t s _ ih =>
    show quotedBody (92 :: c :: t) = _
    rw [quotedBody_esc, ih]

theorem inQuoted_open (old : Bytes) {t s : Bytes} (h : Spells t s) : Drains (inQuoted old) [] (34 :: t) s := by
  intro ps hps _ w hw
  rw [List.map_eq_nil_iff] at hps; subst hps
  unfold inQuoted
  rw [show w ++ flat [] ++ 34 :: t = w ++ 34 :: t by simp [flat], sentry_gs hw (by decide)]
  simp only [quotedBody_open h]

theorem loadGroups_open (gs : List (PhysicalGroup × Bytes)) (h : ∀ g ∈ gs, NameText g.2 g.1.name)
    (dim tag : Int32) {t name : Bytes} (ht : Spells t name) :
    ∀ old : List PhysicalGroup, old.length = gs.length + 1 →
      Drains (forEach loadPhysicalGroup old) (gs.flatMap groupToksAs ++ [decI32 dim, decI32 tag]) (34 :: t)
        (gs.map Prod.fst ++ [⟨dim, tag, name⟩]) := by
  induction gs with
  | nil =>
    intro old ho
    match old, ho with
    | [o], _ =>
      have h1 : Drains (loadPhysicalGroup o) [decI32 dim, decI32 tag] (34 :: t) ⟨dim, tag, name⟩ := by
        unfold loadPhysicalGroup
        exact Drains.bind (t1 := [_]) (inInt_tok _ _).readsT (Drains.bind (t1 := [_]) (t2 := []) (inInt_tok _ _).readsT
          ((inQuoted_open _ ht).last rfl))
      exact h1.last rfl
  | cons g gs ih =>
    intro old ho
    cases old with
    | nil => simp at ho
    | cons o old =>
      rw [List.flatMap_cons, List.append_assoc]
      exact Drains.bind (loadPhysicalGroup_as o g (h g (by simp)))
        ((ih (fun x hx => h x (by simp [hx])) old (by simpa using ho)).last rfl)

theorem loadPhysicalGroups_open (cfg : Cfg) (ha : cfg.asserts = false) (old : List PhysicalGroup) (gs : List (PhysicalGroup × Bytes))
    (h : ∀ g ∈ gs, NameText g.2 g.1.name) (dim tag : Int32) {t name : Bytes} (ht : Spells t name)
    (hl : gs.length + 1 < 2 ^ 31) (hc : gs.length + 1 ≤ cfg.maxCount) :
    Drains (loadPhysicalGroups cfg old)
      (decU64 (UInt64.ofNat (gs.length + 1)) :: (gs.flatMap groupToksAs ++ [decI32 dim, decI32 tag])) (34 :: t)
      (gs.map Prod.fst ++ [⟨dim, tag, name⟩]) := by
  unfold loadPhysicalGroups
  obtain ⟨v, hv, hn⟩ := silent_resize cfg old (sizeOfInt (Int32.ofNat (gs.length + 1))) {} (by rw [sizeOfInt_ofNat hl]; exact hc)
  refine Drains.bind (t1 := [_]) (extractInt_size_tok (gs.length + 1) hl).readsT ?_
  intro ps hps hs w hw
  rw [Rd.bind_ok (silent_useVar _ _), Rd.bind_ok (hv _)]
  refine Drains.last (loadGroups_open gs h dim tag ht v (by rw [hn, sizeOfInt_ofNat hl])) ?_ ps hps hs w hw
  have : assertGood cfg ⟨[], true, true⟩ = .ok ((), ⟨[], true, true⟩) := by simp [assertGood, ha]
  rw [Rd.bind_ok this]; rfl

theorem loadPhysicalGroups_open_abort (cfg : Cfg) (ha : cfg.asserts = true) (old : List PhysicalGroup) (gs' : List (PhysicalGroup × Bytes))
    (h : ∀ g ∈ gs', NameText g.2 g.1.name) (dim tag : Int32) {t name : Bytes} (ht : Spells t name)
    (hl : gs'.length + 1 < 2 ^ 31) (hc : gs'.length + 1 ≤ cfg.maxCount)
    (ps : List (Bytes × Bytes)) (hps : ps.map Prod.fst =
      decU64 (UInt64.ofNat (gs'.length + 1)) :: (gs'.flatMap groupToksAs ++ [decI32 dim, decI32 tag]))
    (hs : ∀ q ∈ ps, Sep q.2) {w : Bytes} (hw : Ws w) :
    loadPhysicalGroups cfg old (gs (w ++ flat ps ++ 34 :: t)) = .abort := by
  unfold loadPhysicalGroups
  obtain ⟨v, hv, hn⟩ := silent_resize cfg old (sizeOfInt (Int32.ofNat (gs'.length + 1))) {} (by rw [sizeOfInt_ofNat hl]; exact hc)
  cases ps with
  | nil => simp at hps
  | cons q ps =>
    simp only [List.map_cons, List.cons.injEq] at hps
    have r1 := (extractInt_size_tok (gs'.length + 1) hl) w (q.2 ++ (flat ps ++ 34 :: t)) hw (wsHead_append (hs q (by simp)).head)
    have e : w ++ flat (q :: ps) ++ 34 :: t = w ++ decU64 (UInt64.ofNat (gs'.length + 1)) ++ (q.2 ++ (flat ps ++ 34 :: t)) := by
      rw [← hps.1]; simp [flat]
    rw [e, Rd.bind_ok r1, Rd.bind_ok (silent_useVar _ _), Rd.bind_ok (hv _)]
    have r2 := loadGroups_open gs' h dim tag ht v (by rw [hn, sizeOfInt_ofNat hl]) ps hps.2 (fun q hq => hs q (by simp [hq])) q.2 (hs q (by simp)).1
    rw [← List.append_assoc, Rd.bind_ok r2, Rd.bind_def]
    simp [assertGood, ha, Stream.good]

end MshIO
