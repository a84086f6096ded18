import Verif.Proofs.Utf8
import Verif.Proofs.Num
import Verif.Proofs.NumeralChars

/-! # `repr` in the Python binding -/

namespace MshIO

/-! ## ASCII text -/

def Ascii (b : Bytes) : Prop := ∀ c ∈ b, c.toNat ≤ 0x7F

instance (b : Bytes) : Decidable (Ascii b) := inferInstanceAs (Decidable (∀ c ∈ b, _))

theorem Ascii.append {a b : Bytes} (ha : Ascii a) (hb : Ascii b) : Ascii (a ++ b) := fun c hc =>
  (List.mem_append.mp hc).elim (ha c) (hb c)

theorem isDigit_ascii {c : UInt8} (h : isDigit c = true) : c.toNat ≤ 0x7F := by
  unfold isDigit at h
  have := (u8range c 48 57).mp h
  have e : (57 : UInt8).toNat = 57 := rfl
  omega

theorem ascii_decNat (n : Nat) : Ascii (decNat n) := fun c hc => isDigit_ascii (decNat_digits n c hc)
theorem ascii_decU64 (n : UInt64) : Ascii (decU64 n) := ascii_decNat _
theorem ascii_decI32 (n : Int32) : Ascii (decI32 n) := by
  unfold decI32
  split
  · intro c hc
    rcases List.mem_cons.mp hc with rfl | hc
    · decide
    · exact ascii_decNat _ c hc
  · exact ascii_decNat _

theorem ascii_signText (o : Option Bool) : Ascii (signText o) := by
  cases o with
  | none => intro c hc; cases hc
  | some b => cases b <;> decide

theorem ascii_digitsText (l : List (Fin 10)) : Ascii (digitsText l) := by
  intro c hc
  unfold digitsText at hc
  obtain ⟨d, _, rfl⟩ := List.mem_map.mp hc
  clear hc
  exact (by decide : ∀ d : Fin 10, (UInt8.ofNat (48 + d.val)).toNat ≤ 0x7F) d

theorem ascii_numeral (n : Numeral) : Ascii n.text := by
  unfold Numeral.text
  refine Ascii.append (Ascii.append (Ascii.append (ascii_signText _) (ascii_digitsText _)) ?_) ?_
  · split
    · intro c hc; cases hc
    · exact Ascii.append (by decide) (ascii_digitsText _)
  · split
    · intro c hc; cases hc
    · unfold Exponent.text
      refine Ascii.append (Ascii.append ?_ (ascii_signText _)) (ascii_digitsText _)
      split <;> decide

theorem ascii_toStringD (d : Double) : Ascii (toStringD d) := by
  unfold toStringD
  by_cases hd : d.isFinite = true
  · obtain ⟨n, _, e⟩ := fmtDouble_numeral (.fixed 6) hd
    rw [e]; exact ascii_numeral n
  · unfold fmtDouble
    rw [if_neg hd]
    refine Ascii.append ?_ ?_ <;> split <;> decide

theorem Ascii.ok {b : Bytes} (h : Ascii b) : utf8Ok b = true := by
  have := utf8Ok_ascii b [] h
  rwa [List.append_nil] at this

theorem utf8Ok_ascii_right {r : Bytes} (h : Ascii r) (b : Bytes) : utf8Ok (b ++ r) = utf8Ok b := by
  cases r with
  | nil => rw [List.append_nil]
  | cons c r => rw [utf8Ok_append _ _ (h c List.mem_cons_self), h.ok, Bool.and_true]

theorem utf8Ok_both {a b : Bytes} (ha : utf8Ok a = true) (hb : utf8Ok b = true) : utf8Ok (a ++ b) = true := by
  rw [utf8Ok_iff] at *
  obtain ⟨x, rfl⟩ := ha
  obtain ⟨y, rfl⟩ := hb
  exact ⟨x ++ y, List.flatMap_append.symm⟩

theorem pyStr_some {b t : Bytes} : pyStr b = some t ↔ b = t ∧ utf8Ok b = true := by
  unfold pyStr
  split
  · rename_i h; simp [h]
  · rename_i h; simp [h]

theorem pyStr_ok {b : Bytes} (h : utf8Ok b = true) : pyStr b = some b := pyStr_some.mpr ⟨rfl, h⟩

/-- Text made of literals and numbers. -/
macro "ascii" : tactic => `(tactic| repeat' first
  | with_reducible exact ascii_decI32 _ | with_reducible exact ascii_decU64 _ | with_reducible exact ascii_toStringD _
  | with_reducible refine Ascii.append ?_ ?_ | decide)

/-- The `repr` is there, ASCII text that does not begin with a bracket. -/
def Shows (o : Option Bytes) : Prop := ∃ c t, o = some (c :: t) ∧ Ascii (c :: t) ∧ c ≠ 93

theorem shows_pyStr {b : Bytes} (h : Ascii b) {c : UInt8} {t : Bytes} (e : b = c :: t) (hc : c ≠ 93) : Shows (pyStr b) := by
  subst e
  exact ⟨c, t, pyStr_ok h.ok, h, hc⟩

theorem shows_nodeBlock (n : NodeBlock) : Shows n.pyRepr :=
  shows_pyStr (by ascii) rfl (by decide)
theorem shows_nodes (n : Nodes) : Shows n.pyRepr := shows_pyStr (by ascii) rfl (by decide)
theorem shows_elementBlock (n : ElementBlock) : Shows n.pyRepr := shows_pyStr (by ascii) rfl (by decide)
theorem shows_elements (n : Elements) : Shows n.pyRepr := shows_pyStr (by ascii) rfl (by decide)
theorem shows_header (n : DataHeader) : Shows n.pyRepr := shows_pyStr (by ascii) rfl (by decide)
theorem shows_entry (n : DataEntry) : Shows n.pyRepr := shows_pyStr (by ascii) rfl (by decide)
theorem shows_point (n : PointEntity) : Shows n.pyRepr := shows_pyStr (by ascii) rfl (by decide)
theorem shows_curve (n : BoxEntity) : Shows n.pyReprCurve := shows_pyStr (by ascii) rfl (by decide)
theorem shows_surface (n : BoxEntity) : Shows n.pyReprSurface := shows_pyStr (by ascii) rfl (by decide)
theorem shows_volume (n : BoxEntity) : Shows n.pyReprVolume := shows_pyStr (by ascii) rfl (by decide)
theorem shows_entities (n : Entities) : Shows n.pyRepr := shows_pyStr (by ascii) rfl (by decide)

theorem Shows.ascii {o : Option Bytes} (h : Shows o) {t : Bytes} (e : o = some t) : Ascii t := by
  obtain ⟨c, u, rfl, ha, _⟩ := h
  cases e; exact ha

theorem Shows.get {o : Option Bytes} (h : Shows o) : ∃ t, o = some t := let ⟨_, _, e, _⟩ := h; ⟨_, e⟩

/-! ## Lists -/

theorem mapM_some {α : Type} {f : α → Option Bytes} : ∀ {xs : List α} {ts : List Bytes}, xs.mapM f = some ts →
    List.Forall₂ (fun x t => f x = some t) xs ts
  | [], ts, h => by
    rw [List.mapM_nil] at h; cases h; exact .nil
  | x :: xs, ts, h => by
    rw [List.mapM_cons] at h
    cases hx : f x with
    | none => rw [hx] at h; cases h
    | some t =>
      cases hxs : xs.mapM f with
      | none => rw [hx, hxs] at h; cases h
      | some us => rw [hx, hxs] at h; cases h; exact .cons hx (mapM_some hxs)

theorem mapM_none {α : Type} {f : α → Option Bytes} : ∀ {xs : List α}, xs.mapM f = none ↔ ∃ x ∈ xs, f x = none
  | [] => by rw [List.mapM_nil]; simp
  | x :: xs => by
    rw [List.mapM_cons]
    have ih := mapM_none (f := f) (xs := xs)
    cases hx : f x with
    | none => exact ⟨fun _ => ⟨x, List.mem_cons_self, hx⟩, fun _ => rfl⟩
    | some t =>
      cases hxs : xs.mapM f with
      | none =>
        obtain ⟨y, hy, e⟩ := ih.mp hxs
        exact ⟨fun _ => ⟨y, List.mem_cons_of_mem _ hy, e⟩, fun _ => rfl⟩
      | some us =>
        refine ⟨fun h => (by cases h), ?_⟩
        rintro ⟨y, hy, e⟩
        rcases List.mem_cons.mp hy with rfl | hy
        · rw [hx] at e; cases e
        · have := ih.mpr ⟨y, hy, e⟩
          rw [hxs] at this; cases this

theorem mapM_get {α : Type} {f : α → Option Bytes} {xs : List α} (h : ∀ x ∈ xs, ∃ t, f x = some t) :
    ∃ ts, xs.mapM f = some ts := by
  cases e : xs.mapM f with
  | none =>
    obtain ⟨x, hx, he⟩ := mapM_none.mp e
    obtain ⟨t, ht⟩ := h x hx
    rw [ht] at he; cases he
  | some ts => exact ⟨ts, rfl⟩

theorem pyListTail_ok {ts : List Bytes} (h : ∀ t ∈ ts, utf8Ok t = true) : utf8Ok (pyListTail ts) = true := by
  induction ts with
  | nil => decide
  | cons t ts ih =>
    exact utf8Ok_both (by decide) (utf8Ok_both (h t List.mem_cons_self) (ih fun u hu => h u (List.mem_cons_of_mem _ hu)))

theorem pyList_ok {ts : List Bytes} (h : ∀ t ∈ ts, utf8Ok t = true) : utf8Ok (pyList ts) = true := by
  cases ts with
  | nil => decide
  | cons t ts =>
    exact utf8Ok_both (by decide)
      (utf8Ok_both (h t List.mem_cons_self) (pyListTail_ok fun u hu => h u (List.mem_cons_of_mem _ hu)))

theorem forall₂_right {α : Type} {R : α → Bytes → Prop} {P : Bytes → Prop} {xs : List α} {ts : List Bytes}
    (h : List.Forall₂ R xs ts) (hp : ∀ x t, R x t → P t) : ∀ t ∈ ts, P t := by
  induction h with
  | nil => intro t ht; cases ht
  | cons h _ ih =>
    intro t ht
    rcases List.mem_cons.mp ht with rfl | ht
    · exact hp _ _ h
    · exact ih t ht

/-! ## `repr(data)` and `repr(spec)` succeed -/

theorem data_some {d : Data} {t : Bytes} : d.pyRepr = some t ↔ ∃ h es, d.header.pyRepr = some h ∧
    d.entries.mapM DataEntry.pyRepr = some es ∧
    pyStr (b! "Data(header=" ++ (h ++ (b! ", entries=" ++ (pyList es ++ b! ")")))) = some t := by
  unfold Data.pyRepr
  simp only [Option.bind_eq_bind, Option.bind_eq_some_iff]
  exact ⟨fun ⟨h, e1, es, e2, e3⟩ => ⟨h, es, e1, e2, e3⟩, fun ⟨h, es, e1, e2, e3⟩ => ⟨h, e1, es, e2, e3⟩⟩

theorem shows_data (d : Data) : Shows d.pyRepr := by
  obtain ⟨h, eh⟩ := (shows_header d.header).get
  obtain ⟨es, ee⟩ := mapM_get fun e (_ : e ∈ d.entries) => (shows_entry e).get
  have he := forall₂_right (P := Ascii) (mapM_some ee) fun e t ht => (shows_entry e).ascii ht
  have hl : Ascii (pyList es) := by
    have tail : ∀ ts : List Bytes, (∀ t ∈ ts, Ascii t) → Ascii (pyListTail ts) := by
      intro ts
      induction ts with
      | nil => intro _; decide
      | cons t ts ih =>
        intro hh
        exact Ascii.append (by decide) (Ascii.append (hh t List.mem_cons_self) (ih fun u hu => hh u (List.mem_cons_of_mem _ hu)))
    cases es with
    | nil => decide
    | cons t ts =>
      exact Ascii.append (by decide) (Ascii.append (he t List.mem_cons_self) (tail ts fun u hu => he u (List.mem_cons_of_mem _ hu)))
  have ha : Ascii (b! "Data(header=" ++ (h ++ (b! ", entries=" ++ (pyList es ++ b! ")")))) :=
    Ascii.append (by decide) (Ascii.append ((shows_header _).ascii eh) (Ascii.append (by decide) (Ascii.append hl (by decide))))
  have : d.pyRepr = pyStr (b! "Data(header=" ++ (h ++ (b! ", entries=" ++ (pyList es ++ b! ")")))) := by
    rw [pyStr_ok ha.ok]; exact data_some.mpr ⟨h, es, eh, ee, pyStr_ok ha.ok⟩
  rw [this]
  exact shows_pyStr ha rfl (by decide)

theorem format_ok (m : MeshFormat) : (∃ t, m.pyRepr = some t) ↔ utf8Ok m.version = true := by
  unfold MeshFormat.pyRepr
  simp only [pyStr_some]
  rw [utf8Ok_ascii _ _ (by decide), utf8Ok_ascii_right (by ascii)]
  exact ⟨fun ⟨_, _, h⟩ => h, fun h => ⟨_, rfl, h⟩⟩

theorem group_ok (g : PhysicalGroup) : (∃ t, g.pyRepr = some t) ↔ utf8Ok g.name = true := by
  unfold PhysicalGroup.pyRepr
  simp only [pyStr_some]
  rw [utf8Ok_ascii _ _ (by decide), utf8Ok_ascii _ _ (ascii_decI32 _), utf8Ok_ascii _ _ (by decide),
    utf8Ok_ascii _ _ (ascii_decI32 _), utf8Ok_ascii _ _ (by decide), utf8Ok_ascii_right (by decide)]
  exact ⟨fun ⟨_, _, h⟩ => h, fun h => ⟨_, rfl, h⟩⟩

/-- The text of `repr(spec)` from the texts of its parts. -/
def specText (f n e i : Bytes) (g a b c : List Bytes) : Bytes :=
  b! "MshSpec(mesh_format=" ++ (f ++ (b! ", nodes=" ++ (n ++ (b! ", elements=" ++ (e ++
    (b! ", entities=" ++ (i ++ (b! ", physical_groups=" ++ (pyList g ++ (b! ", node_data=" ++
    (pyList a ++ (b! ", element_data=" ++ (pyList b ++ (b! ", element_node_data=" ++
    (pyList c ++ b! ")")))))))))))))))

/-- The `repr`s of the parts of a spec. -/
structure SpecParts (s : MshSpec) (f n e i : Bytes) (g a b c : List Bytes) : Prop where
  format : s.meshFormat.pyRepr = some f
  nodes : s.nodes.pyRepr = some n
  elements : s.elements.pyRepr = some e
  entities : s.entities.pyRepr = some i
  groups : s.physicalGroups.mapM PhysicalGroup.pyRepr = some g
  nodeData : s.nodeData.mapM Data.pyRepr = some a
  elementData : s.elementData.mapM Data.pyRepr = some b
  elementNodeData : s.elementNodeData.mapM Data.pyRepr = some c

theorem spec_some {s : MshSpec} {t : Bytes} : s.pyRepr = some t ↔ ∃ f n e i g a b c, SpecParts s f n e i g a b c ∧
    pyStr (specText f n e i g a b c) = some t := by
  unfold MshSpec.pyRepr
  simp only [Option.bind_eq_bind, Option.bind_eq_some_iff]
  constructor
  · rintro ⟨f, h1, n, h2, e, h3, i, h4, g, h5, a, h6, b, h7, c, h8, h9⟩
    exact ⟨f, n, e, i, g, a, b, c, ⟨h1, h2, h3, h4, h5, h6, h7, h8⟩, h9⟩
  · rintro ⟨f, n, e, i, g, a, b, c, ⟨h1, h2, h3, h4, h5, h6, h7, h8⟩, h9⟩
    exact ⟨f, h1, n, h2, e, h3, i, h4, g, h5, a, h6, b, h7, c, h8, h9⟩

theorem pyStr_valid {b t : Bytes} (h : pyStr b = some t) : utf8Ok t = true := by
  obtain ⟨rfl, h'⟩ := pyStr_some.mp h; exact h'

theorem spec_ok (s : MshSpec) : (∃ t, s.pyRepr = some t) ↔
    utf8Ok s.meshFormat.version = true ∧ ∀ g ∈ s.physicalGroups, utf8Ok g.name = true := by
  constructor
  · rintro ⟨t, h⟩
    obtain ⟨f, n, e, i, g, a, b, c, p, _⟩ := spec_some.mp h
    refine ⟨(format_ok _).mp ⟨_, p.format⟩, fun x hx => (group_ok x).mp ?_⟩
    cases e : x.pyRepr with
    | some t => exact ⟨t, rfl⟩
    | none => have := mapM_none.mpr ⟨x, hx, e⟩; rw [p.groups] at this; cases this
  · rintro ⟨hv, hg⟩
    obtain ⟨f, h1⟩ := (format_ok _).mpr hv
    obtain ⟨n, h2⟩ := (shows_nodes s.nodes).get
    obtain ⟨e, h3⟩ := (shows_elements s.elements).get
    obtain ⟨i, h4⟩ := (shows_entities s.entities).get
    obtain ⟨g, h5⟩ := mapM_get fun x hx => (group_ok x).mpr (hg x hx)
    obtain ⟨a, h6⟩ := mapM_get fun x (_ : x ∈ s.nodeData) => (shows_data x).get
    obtain ⟨b, h7⟩ := mapM_get fun x (_ : x ∈ s.elementData) => (shows_data x).get
    obtain ⟨c, h8⟩ := mapM_get fun x (_ : x ∈ s.elementNodeData) => (shows_data x).get
    have hd : ∀ {l : List Data} {ts}, l.mapM Data.pyRepr = some ts → utf8Ok (pyList ts) = true := fun h =>
      pyList_ok (forall₂_right (mapM_some h) fun d t ht => ((shows_data d).ascii ht).ok)
    have hgs : utf8Ok (pyList g) = true := pyList_ok (forall₂_right (mapM_some h5) fun x t ht => pyStr_valid ht)
    refine ⟨specText f n e i g a b c, spec_some.mpr ⟨f, n, e, i, g, a, b, c, ⟨h1, h2, h3, h4, h5, h6, h7, h8⟩, pyStr_ok ?_⟩⟩
    unfold specText
    have lit : ∀ {l r : Bytes}, Ascii l → utf8Ok r = true → utf8Ok (l ++ r) = true := fun h => utf8Ok_both h.ok
    refine lit (by decide) (utf8Ok_both (pyStr_valid h1) (lit (by decide) (lit ((shows_nodes _).ascii h2)
      (lit (by decide) (lit ((shows_elements _).ascii h3) (lit (by decide) (lit ((shows_entities _).ascii h4)
      (lit (by decide) (utf8Ok_both hgs (lit (by decide) (utf8Ok_both (hd h6) (lit (by decide) (utf8Ok_both (hd h7)
      (lit (by decide) (utf8Ok_both (hd h8) (Ascii.ok (by decide)))))))))))))))))

end MshIO
