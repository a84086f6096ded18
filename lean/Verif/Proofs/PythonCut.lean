import Verif.Proofs.Python

/-! # What can be read back from a `repr` -/

namespace MshIO

theorem decNat_inj {a b : Nat} (h : decNat a = decNat b) : a = b := by
  rw [← natOfDigits_decNat a, h, natOfDigits_decNat]

theorem decU64_inj {a b : UInt64} (h : decU64 a = decU64 b) : a = b := UInt64.toNat_inj.mp (decNat_inj h)

theorem decI32_inj {a b : Int32} (h : decI32 a = decI32 b) : a = b := by
  have minus : ∀ n m : Nat, decNat n ≠ 45 :: decNat m := by
    intro n m e
    have := decNat_digits n 45 (by rw [e]; exact List.mem_cons_self)
    revert this; decide
  apply Int32.toInt_inj.mp
  unfold decI32 at h
  split at h <;> split at h
  · have := decNat_inj (List.cons.inj h).2; omega
  · exact absurd h.symm (minus _ _)
  · exact absurd h (minus _ _)
  · have := decNat_inj h; omega

/-- A character of a printed integer. -/
def numChar (c : UInt8) : Bool := isDigit c || c == 45

theorem numChar_decU64 (n : UInt64) : ∀ c ∈ decU64 n, numChar c = true := fun c hc => by
  unfold numChar; rw [decNat_digits _ c hc]; rfl

theorem numChar_decI32 (n : Int32) : ∀ c ∈ decI32 n, numChar c = true := by
  have d : ∀ n, ∀ c ∈ decNat n, numChar c = true := fun n c hc => by unfold numChar; rw [decNat_digits _ c hc]; rfl
  unfold decI32
  split
  · intro c hc
    rcases List.mem_cons.mp hc with rfl | hc
    · decide
    · exact d _ c hc
  · exact d _

/-- Two texts of a kind, each followed by the same character of another kind, are the same. -/
theorem span_cut {p : UInt8 → Bool} {c : UInt8} (hc : p c = false) : ∀ {u v r r' : Bytes}, (∀ x ∈ u, p x = true) →
    (∀ x ∈ v, p x = true) → u ++ (c :: r) = v ++ (c :: r') → u = v ∧ r = r'
  | [], [], r, r', _, _, h => ⟨rfl, (List.cons.inj h).2⟩
  | a :: u, [], r, r', hu, _, h => by
    have := hu a List.mem_cons_self
    rw [(List.cons.inj h).1, hc] at this; cases this
  | [], b :: v, r, r', _, hv, h => by
    have := hv b List.mem_cons_self
    rw [← (List.cons.inj h).1, hc] at this; cases this
  | a :: u, b :: v, r, r', hu, hv, h => by
    obtain ⟨e, h'⟩ := List.cons.inj h
    obtain ⟨e', hr⟩ := span_cut hc (fun x hx => hu x (List.mem_cons_of_mem _ hx))
      (fun x hx => hv x (List.mem_cons_of_mem _ hx)) h'
    exact ⟨by rw [e, e'], hr⟩

theorem u64_cut {x y : UInt64} {c : UInt8} {l r r' : Bytes}
    (h : decU64 x ++ ((c :: l) ++ r) = decU64 y ++ ((c :: l) ++ r')) (hc : numChar c = false := by decide) :
    x = y ∧ r = r' := by
  obtain ⟨e, h'⟩ := span_cut hc (numChar_decU64 x) (numChar_decU64 y) h
  exact ⟨decU64_inj e, List.append_cancel_left h'⟩

theorem i32_cut {x y : Int32} {c : UInt8} {l r r' : Bytes}
    (h : decI32 x ++ ((c :: l) ++ r) = decI32 y ++ ((c :: l) ++ r')) (hc : numChar c = false := by decide) :
    x = y ∧ r = r' := by
  obtain ⟨e, h'⟩ := span_cut hc (numChar_decI32 x) (numChar_decI32 y) h
  exact ⟨decI32_inj e, List.append_cancel_left h'⟩

theorem text_cut {k : UInt8} {u v l r r' : Bytes} (hu : k ∉ u) (hv : k ∉ v)
    (h : u ++ ((k :: l) ++ r) = v ++ ((k :: l) ++ r')) : u = v ∧ r = r' := by
  have np : ∀ {w : Bytes}, k ∉ w → ∀ x ∈ w, (x != k) = true := fun hw x hx => by
    have : x ≠ k := fun e => hw (e ▸ hx)
    simpa using this
  obtain ⟨e, h'⟩ := span_cut (p := fun x => x != k) (c := k) (by simp) (np hu) (np hv) h
  exact ⟨e, List.append_cancel_left h'⟩

theorem sizeU_inj {α β : Type} {v : List α} {w : List β} (hv : v.length < 2 ^ 64) (hw : w.length < 2 ^ 64)
    (h : sizeU v = sizeU w) : v.length = w.length := by
  have := congrArg UInt64.toNat h
  unfold sizeU at this
  rwa [UInt64.toNat_ofNat', UInt64.toNat_ofNat', Nat.mod_eq_of_lt hv, Nat.mod_eq_of_lt hw] at this

/-- Where a `repr` ends, and what it shows, can be told from the text. -/
def ReprCuts {α β : Type} (f : α → Option Bytes) (P : α → Prop) (g : α → β) : Prop :=
  ∀ {x y : α} {t t' r r' : Bytes}, P x → P y → f x = some t → f y = some t' → t ++ r = t' ++ r' → g x = g y ∧ r = r'

/-- Both `repr`s spelt out. -/
theorem spelt {b b' t t' r r' : Bytes} (h : pyStr b = some t) (h' : pyStr b' = some t') (e : t ++ r = t' ++ r') :
    b ++ r = b' ++ r' := by
  obtain ⟨rfl, _⟩ := pyStr_some.mp h
  obtain ⟨rfl, _⟩ := pyStr_some.mp h'
  exact e

theorem cuts_format : ReprCuts MeshFormat.pyRepr (fun m => (44 : UInt8) ∉ m.version) id := by
  intro x y t t' r r' px py hx hy h
  replace h := spelt hx hy h
  simp only [List.append_assoc] at h
  obtain ⟨e1, h⟩ := text_cut px py (List.append_cancel_left h)
  obtain ⟨e2, h⟩ := i32_cut h
  obtain ⟨e3, hr⟩ := i32_cut h
  refine ⟨?_, hr⟩
  cases x; cases y; cases e1; cases e2; cases e3; rfl

theorem cuts_group : ReprCuts PhysicalGroup.pyRepr (fun g => (41 : UInt8) ∉ g.name) id := by
  intro x y t t' r r' px py hx hy h
  replace h := spelt hx hy h
  simp only [List.append_assoc] at h
  obtain ⟨e1, h⟩ := i32_cut (List.append_cancel_left h)
  obtain ⟨e2, h⟩ := i32_cut h
  obtain ⟨e3, hr⟩ := text_cut px py h
  refine ⟨?_, hr⟩
  cases x; cases y; cases e1; cases e2; cases e3; rfl

theorem cuts_nodes : ReprCuts Nodes.pyRepr (fun _ => True) fun n => (n.numEntityBlocks, n.numNodes, n.minNodeTag, n.maxNodeTag) := by
  intro x y t t' r r' _ _ hx hy h
  replace h := spelt hx hy h
  simp only [List.append_assoc] at h
  obtain ⟨e1, h⟩ := u64_cut (List.append_cancel_left h)
  obtain ⟨e2, h⟩ := u64_cut h
  obtain ⟨e3, h⟩ := u64_cut h
  obtain ⟨e4, h⟩ := u64_cut h
  exact ⟨by simp only [e1, e2, e3, e4], h⟩

theorem cuts_elements : ReprCuts Elements.pyRepr (fun _ => True)
    fun n => (n.numEntityBlocks, n.numElements, n.minElementTag, n.maxElementTag) := by
  intro x y t t' r r' _ _ hx hy h
  replace h := spelt hx hy h
  simp only [List.append_assoc] at h
  obtain ⟨e1, h⟩ := u64_cut (List.append_cancel_left h)
  obtain ⟨e2, h⟩ := u64_cut h
  obtain ⟨e3, h⟩ := u64_cut h
  obtain ⟨e4, h⟩ := u64_cut h
  exact ⟨by simp only [e1, e2, e3, e4], h⟩

theorem cuts_entities : ReprCuts Entities.pyRepr (fun e => e.points.length < 2 ^ 64 ∧ e.curves.length < 2 ^ 64 ∧
      e.surfaces.length < 2 ^ 64 ∧ e.volumes.length < 2 ^ 64)
    fun e => (e.points.length, e.curves.length, e.surfaces.length, e.volumes.length) := by
  intro x y t t' r r' px py hx hy h
  replace h := spelt hx hy h
  simp only [List.append_assoc] at h
  obtain ⟨e1, h⟩ := u64_cut (List.append_cancel_left h)
  obtain ⟨e2, h⟩ := u64_cut h
  obtain ⟨e3, h⟩ := u64_cut h
  obtain ⟨e4, h⟩ := u64_cut h
  exact ⟨by simp only [sizeU_inj px.1 py.1 e1, sizeU_inj px.2.1 py.2.1 e2, sizeU_inj px.2.2.1 py.2.2.1 e3,
    sizeU_inj px.2.2.2 py.2.2.2 e4], h⟩

theorem cuts_entry : ReprCuts DataEntry.pyRepr (fun e => e.data.length < 2 ^ 64) DataEntry.shown := by
  intro x y t t' r r' px py hx hy h
  replace h := spelt hx hy h
  simp only [List.append_assoc] at h
  obtain ⟨e1, h⟩ := u64_cut (List.append_cancel_left h)
  obtain ⟨e2, h⟩ := i32_cut h
  obtain ⟨e3, h⟩ := u64_cut h
  exact ⟨by unfold DataEntry.shown; rw [e1, e2, sizeU_inj px py e3], h⟩

theorem cuts_header : ReprCuts DataHeader.pyRepr
    (fun e => e.stringTags.length < 2 ^ 64 ∧ e.realTags.length < 2 ^ 64 ∧ e.intTags.length < 2 ^ 64)
    fun e => (e.stringTags.length, e.realTags.length, e.intTags.length) := by
  intro x y t t' r r' px py hx hy h
  replace h := spelt hx hy h
  simp only [List.append_assoc] at h
  obtain ⟨e1, h⟩ := u64_cut (List.append_cancel_left h)
  obtain ⟨e2, h⟩ := u64_cut h
  obtain ⟨e3, h⟩ := u64_cut h
  exact ⟨by simp only [sizeU_inj px.1 py.1 e1, sizeU_inj px.2.1 py.2.1 e2, sizeU_inj px.2.2 py.2.2 e3], h⟩

/-! ## Lists -/

section
variable {α β : Type} {f : α → Option Bytes} {P : α → Prop} {g : α → β}

theorem ReprCuts.tail (hf : ReprCuts f P g) {xs ys : List α} {ts ts' : List Bytes}
    (hx : List.Forall₂ (fun x t => f x = some t) xs ts) (hy : List.Forall₂ (fun x t => f x = some t) ys ts') {r r' : Bytes}
    (px : ∀ x ∈ xs, P x) (py : ∀ y ∈ ys, P y) (h : pyListTail ts ++ r = pyListTail ts' ++ r') :
    xs.map g = ys.map g ∧ r = r' := by
  induction hx generalizing ys ts' with
  | nil =>
    cases hy with
    | nil => exact ⟨rfl, (List.cons.inj h).2⟩
    | cons => exact absurd (List.cons.inj h).1 (by decide)
  | cons hx _ ih =>
    cases hy with
    | nil => exact absurd (List.cons.inj h).1 (by decide)
    | cons hy hys =>
      simp only [pyListTail, List.append_assoc] at h
      obtain ⟨e, h'⟩ := hf (px _ List.mem_cons_self) (py _ List.mem_cons_self) hx hy (List.append_cancel_left h)
      obtain ⟨e', h'⟩ := ih hys (fun x hx => px x (List.mem_cons_of_mem _ hx)) (fun x hx => py x (List.mem_cons_of_mem _ hx)) h'
      exact ⟨by rw [List.map_cons, List.map_cons, e, e'], h'⟩

theorem ReprCuts.list (hf : ReprCuts f P g) (hd : ∀ x t, f x = some t → ∃ c u, t = c :: u ∧ c ≠ 93) {xs ys : List α} {ts ts' : List Bytes}
    (hx : xs.mapM f = some ts) (hy : ys.mapM f = some ts') {r r' : Bytes}
    (px : ∀ x ∈ xs, P x) (py : ∀ y ∈ ys, P y) (h : pyList ts ++ r = pyList ts' ++ r') :
    xs.map g = ys.map g ∧ r = r' := by
  replace hx := mapM_some hx
  replace hy := mapM_some hy
  cases hx with
  | nil =>
    cases hy with
    | nil => exact ⟨rfl, (List.cons.inj (List.cons.inj h).2).2⟩
    | cons hy _ =>
      obtain ⟨c, u, rfl, hc⟩ := hd _ _ hy
      exact absurd (List.cons.inj (List.cons.inj h).2).1.symm hc
  | cons hx hxs =>
    cases hy with
    | nil =>
      obtain ⟨c, u, rfl, hc⟩ := hd _ _ hx
      exact absurd (List.cons.inj (List.cons.inj h).2).1 hc
    | cons hy hys =>
      simp only [pyList, List.append_assoc] at h
      obtain ⟨e, h'⟩ := hf (px _ List.mem_cons_self) (py _ List.mem_cons_self) hx hy (List.append_cancel_left h)
      obtain ⟨e', h'⟩ := hf.tail hxs hys (fun x hx => px x (List.mem_cons_of_mem _ hx))
        (fun x hx => py x (List.mem_cons_of_mem _ hx)) h'
      exact ⟨by rw [List.map_cons, List.map_cons, e, e'], h'⟩
end

theorem Shows.head {o : Option Bytes} (h : Shows o) {t : Bytes} (e : o = some t) : ∃ c u, t = c :: u ∧ c ≠ 93 := by
  obtain ⟨c, u, rfl, _, hc⟩ := h
  cases e; exact ⟨c, u, rfl, hc⟩

def Data.Sized (d : Data) : Prop :=
  d.header.stringTags.length < 2 ^ 64 ∧ d.header.realTags.length < 2 ^ 64 ∧ d.header.intTags.length < 2 ^ 64 ∧
    ∀ e ∈ d.entries, e.data.length < 2 ^ 64

theorem cuts_data : ReprCuts Data.pyRepr Data.Sized Data.shown := by
  intro x y t t' r r' px py hx hy h
  obtain ⟨a, es, ha, hes, hx⟩ := data_some.mp hx
  obtain ⟨a', es', ha', hes', hy⟩ := data_some.mp hy
  replace h := spelt hx hy h
  simp only [List.append_assoc] at h
  obtain ⟨e1, h⟩ := cuts_header ⟨px.1, px.2.1, px.2.2.1⟩ ⟨py.1, py.2.1, py.2.2.1⟩ ha ha' (List.append_cancel_left h)
  obtain ⟨e2, h⟩ := cuts_entry.list (fun e t ht => (shows_entry e).head ht) hes hes' px.2.2.2 py.2.2.2 (List.append_cancel_left h)
  refine ⟨?_, List.append_cancel_left h⟩
  simp only [Prod.mk.injEq] at e1
  unfold Data.shown
  rw [e1.1, e1.2.1, e1.2.2, e2]

theorem group_repr_head (g : PhysicalGroup) (t : Bytes) (h : g.pyRepr = some t) : ∃ c u, t = c :: u ∧ c ≠ 93 := by
  obtain ⟨rfl, _⟩ := pyStr_some.mp h
  exact ⟨80, _, rfl, by decide⟩

theorem cuts_spec : ReprCuts MshSpec.pyRepr (fun s => s.Sized ∧ s.Delimited) MshSpec.shown := by
  intro x y t t' r r' px py hx hy h
  obtain ⟨f, n, e, i, g, a, b, c, p, hx⟩ := spec_some.mp hx
  obtain ⟨f', n', e', i', g', a', b', c', p', hy⟩ := spec_some.mp hy
  replace h := spelt hx hy h
  simp only [specText, List.append_assoc] at h
  obtain ⟨px, dx⟩ := px
  obtain ⟨py, dy⟩ := py
  have data : ∀ {l l' : List Data} {ts ts' : List Bytes} {r r' : Bytes}, (∀ d ∈ l, d.Sized) → (∀ d ∈ l', d.Sized) →
      l.mapM Data.pyRepr = some ts → l'.mapM Data.pyRepr = some ts' → pyList ts ++ r = pyList ts' ++ r' →
      l.map Data.shown = l'.map Data.shown ∧ r = r' := fun hl hl' h1 h2 h =>
    cuts_data.list (fun d t ht => (shows_data d).head ht) h1 h2 hl hl' h
  obtain ⟨e1, h⟩ := cuts_format dx.version dy.version p.format p'.format (List.append_cancel_left h)
  obtain ⟨e2, h⟩ := cuts_nodes trivial trivial p.nodes p'.nodes (List.append_cancel_left h)
  obtain ⟨e3, h⟩ := cuts_elements trivial trivial p.elements p'.elements (List.append_cancel_left h)
  obtain ⟨e4, h⟩ := cuts_entities ⟨px.points, px.curves, px.surfaces, px.volumes⟩ ⟨py.points, py.curves, py.surfaces, py.volumes⟩
    p.entities p'.entities (List.append_cancel_left h)
  obtain ⟨e5, h⟩ := cuts_group.list group_repr_head p.groups p'.groups dx.names dy.names (List.append_cancel_left h)
  obtain ⟨e6, h⟩ := data (fun d hd => px.data d (by simp [hd])) (fun d hd => py.data d (by simp [hd])) p.nodeData p'.nodeData
    (List.append_cancel_left h)
  obtain ⟨e7, h⟩ := data (fun d hd => px.data d (by simp [hd])) (fun d hd => py.data d (by simp [hd])) p.elementData p'.elementData
    (List.append_cancel_left h)
  obtain ⟨e8, h⟩ := data (fun d hd => px.data d (by simp [hd])) (fun d hd => py.data d (by simp [hd])) p.elementNodeData
    p'.elementNodeData (List.append_cancel_left h)
  refine ⟨?_, List.append_cancel_left h⟩
  rw [List.map_id, List.map_id] at e5
  unfold MshSpec.shown
  simp only [Prod.mk.injEq] at e2 e3 e4
  simp only [id] at e1
  rw [e1, e2.1, e2.2.1, e2.2.2.1, e2.2.2.2, e3.1, e3.2.1, e3.2.2.1, e3.2.2.2, e4.1, e4.2.1, e4.2.2.1, e4.2.2.2, e5, e6, e7, e8]

/-! ## The other way round: what is shown determines the `repr` -/

theorem sizeU_congr {α β : Type} {v : List α} {w : List β} (h : v.length = w.length) : sizeU v = sizeU w := by
  unfold sizeU; rw [h]

theorem entry_repr_congr {x y : DataEntry} (h : x.shown = y.shown) : x.pyRepr = y.pyRepr := by
  obtain ⟨h1, h2, h3⟩ := EntryShown.mk.inj h
  unfold DataEntry.pyRepr
  rw [h1, h2, sizeU_congr h3]

theorem mapM_congr_map {α β : Type} {f : α → Option Bytes} {g : α → β} (hf : ∀ {x y}, g x = g y → f x = f y) :
    ∀ {xs ys : List α}, xs.map g = ys.map g → xs.mapM f = ys.mapM f
  | [], [], _ => rfl
  | [], _ :: _, h => by cases h
  | _ :: _, [], h => by cases h
  | x :: xs, y :: ys, h => by
    obtain ⟨h1, h2⟩ := List.cons.inj h
    rw [List.mapM_cons, List.mapM_cons, hf h1, mapM_congr_map hf h2]

theorem data_repr_congr {x y : Data} (h : x.shown = y.shown) : x.pyRepr = y.pyRepr := by
  obtain ⟨h1, h2, h3, h4⟩ := DataShown.mk.inj h
  unfold Data.pyRepr DataHeader.pyRepr
  rw [sizeU_congr h1, sizeU_congr h2, sizeU_congr h3, mapM_congr_map entry_repr_congr h4]

theorem spec_repr_congr {x y : MshSpec} (h : x.shown = y.shown) : x.pyRepr = y.pyRepr := by
  obtain ⟨h1, h2, h3, h4, h5, h6, h7, h8⟩ := SpecShown.mk.inj h
  simp only [Prod.mk.injEq] at h2 h3 h4
  unfold MshSpec.pyRepr Nodes.pyRepr Elements.pyRepr Entities.pyRepr
  rw [h1, h2.1, h2.2.1, h2.2.2.1, h2.2.2.2, h3.1, h3.2.1, h3.2.2.1, h3.2.2.2, sizeU_congr h4.1, sizeU_congr h4.2.1,
    sizeU_congr h4.2.2.1, sizeU_congr h4.2.2.2, h5, mapM_congr_map data_repr_congr h6, mapM_congr_map data_repr_congr h7,
    mapM_congr_map data_repr_congr h8]

end MshIO
