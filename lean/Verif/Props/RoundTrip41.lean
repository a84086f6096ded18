import Verif.Proofs.File41
import Verif.Proofs.DblVal
import Verif.Proofs.Quoted
import Verif.Props.Termination

/-!
# C01, C02, C07, C09, C16, C41, C44 for v4.1 files

`MshSpec.Ok` (counters agree with vectors), `MshSpec.Fits` (vectors can be allocated),
`MshSpec.convert` (what a file stands for) and `Printable`/`reread` (text of doubles) are explained in
`Spec/Consistent.lean` and `Spec/Decimal.lean`.
-/

namespace MshIO

/-! ## Helper lemmas -/

theorem map_id_of {α : Type} {f : α → α} {l : List α} (h : ∀ a ∈ l, f a = a) : l.map f = l := by
  induction l with
  | nil => rfl
  | cons a l ih =>
    rw [List.map_cons, h a (by simp), ih fun b hb => h b (by simp [hb])]

theorem map_congr_of {α β : Type} {f g : α → β} {l : List α} (h : ∀ a ∈ l, f a = g a) :
    l.map f = l.map g := List.map_congr_left h

theorem Data.convert_congr {isEN : Bool} {t t' : UInt64 → UInt64} {f f' g g' : Double → Double} {d : Data}
    (ht : ∀ e ∈ d.entries, t e.tag = t' e.tag) (hf : ∀ x ∈ d.header.realTags, f x = f' x)
    (hg : ∀ e ∈ d.entries, ∀ x ∈ e.data, g x = g' x) :
    d.convert isEN t f g = d.convert isEN t' f' g' := by
  unfold Data.convert
  rw [map_congr_of hf]
  congr 1
  refine map_congr_of fun e he => ?_
  rw [ht e he, map_congr_of (hg e he)]

theorem Data.convert_self {isEN : Bool} {d : Data}
    (h : isEN = false → ∀ e ∈ d.entries, e.numNodesPerElement = 0) : d.convert isEN id id id = d := by
  obtain ⟨hd, es⟩ := d
  have h1 : (es.map fun e => ({ tag := id e.tag
                                numNodesPerElement := if isEN then e.numNodesPerElement else 0
                                data := e.data.map id } : DataEntry)) = es := by
    refine map_id_of fun e he => ?_
    cases isEN with
    | true => simp
    | false => have := h rfl e he; cases e; simp_all
  unfold Data.convert
  simp only [List.map_id] at h1 ⊢
  rw [h1]

/-- Changing the functions applied by `convert` outside the values that occur does nothing. -/
theorem MshSpec.convert_congr {ext : Bool} {t t' : UInt64 → UInt64} {f f' g g' : Double → Double}
    {s : MshSpec} (ht : ∀ x ∈ s.dataTags, t x = t' x) (hf : ∀ x ∈ s.realTags, f x = f' x)
    (hg : ∀ x ∈ s.doubles, g x = g' x) : s.convert ext t f g = s.convert ext t' f' g' := by
  have hd : ∀ isEN, ∀ d ∈ s.nodeData ++ s.elementData ++ s.elementNodeData,
      d.convert isEN t f g = d.convert isEN t' f' g' := by
    intro isEN d hd
    refine Data.convert_congr (fun e he => ht _ ?_) (fun x hx => hf _ ?_) (fun e he x hx => hg _ ?_)
    · exact List.mem_flatMap.mpr ⟨d, hd, List.mem_map.mpr ⟨e, he, rfl⟩⟩
    · exact List.mem_flatMap.mpr ⟨d, hd, hx⟩
    · exact mem_doubles.mpr (Or.inr (Or.inr (Or.inr (Or.inl (List.mem_flatMap.mpr
        ⟨d, hd, List.mem_flatMap.mpr ⟨e, he, hx⟩⟩)))))
  have he : ∀ x ∈ s.entities.doubles, g x = g' x := fun x hx => hg x (mem_doubles.mpr (Or.inl hx))
  have hpt : ∀ p ∈ s.entities.points, p.convert g = p.convert g' := by
    intro p hp
    have : ∀ x ∈ [p.x, p.y, p.z], g x = g' x := fun x hx =>
      he x (List.mem_append.mpr (Or.inl (List.mem_flatMap.mpr ⟨p, hp, hx⟩)))
    unfold PointEntity.convert
    rw [this p.x (by simp), this p.y (by simp), this p.z (by simp)]
  have hbx : ∀ p ∈ s.entities.curves ++ s.entities.surfaces ++ s.entities.volumes,
      p.convert g = p.convert g' := by
    intro p hp
    have : ∀ x ∈ [p.minX, p.minY, p.minZ, p.maxX, p.maxY, p.maxZ], g x = g' x := fun x hx =>
      he x (List.mem_append.mpr (Or.inr (List.mem_flatMap.mpr ⟨p, hp, hx⟩)))
    unfold BoxEntity.convert
    rw [this p.minX (by simp), this p.minY (by simp), this p.minZ (by simp), this p.maxX (by simp),
      this p.maxY (by simp), this p.maxZ (by simp)]
  have hnb : ∀ b ∈ s.nodes.entityBlocks, b.convert g = b.convert g' := fun b hb => by
    unfold NodeBlock.convert
    rw [map_congr_of (l := b.data) fun x hx => hg x (mem_doubles.mpr (Or.inr (Or.inl (List.mem_flatMap.mpr ⟨b, hb, hx⟩))))]
  have hcs : ∀ c ∈ s.curves, c.convert g = c.convert g' := fun b hb => by
    unfold Curve.convert
    rw [map_congr_of (l := b.data) fun x hx => hg x (mem_doubles.mpr (Or.inr (Or.inr (Or.inr (Or.inr (Or.inl
      (List.mem_flatMap.mpr ⟨b, hb, hx⟩)))))))]
  have hps : ∀ c ∈ s.patches, c.convert g = c.convert g' := fun b hb => by
    unfold Patch.convert
    rw [map_congr_of (l := b.data) fun x hx => hg x (mem_doubles.mpr (Or.inr (Or.inr (Or.inr (Or.inr (Or.inr
      (List.mem_flatMap.mpr ⟨b, hb, hx⟩)))))))]
  rw [MshSpec.convert_eq, MshSpec.convert_eq]
  unfold MshSpec.withTail MshSpec.mid41 Entities.convert Nodes.convert
  rw [map_congr_of fun d hd' => hd false d (by simp [hd']),
    map_congr_of (l := s.elementData) fun d hd' => hd false d (by simp [hd']),
    map_congr_of (l := s.elementNodeData) fun d hd' => hd true d (by simp [hd']),
    map_congr_of hpt, map_congr_of (l := s.entities.curves) fun p hp => hbx p (by simp [hp]),
    map_congr_of (l := s.entities.surfaces) fun p hp => hbx p (by simp [hp]),
    map_congr_of (l := s.entities.volumes) fun p hp => hbx p (by simp [hp]),
    map_congr_of hnb, map_congr_of hcs, map_congr_of hps]

theorem MshSpec.Plain.convert_self {ext : Bool} {s : MshSpec} (h : s.Plain ext) :
    s.convert ext id id id = s := by
  have hd : ∀ d ∈ s.nodeData ++ s.elementData, d.convert false id id id = d := fun d hd =>
    Data.convert_self fun _ => h.entries d hd
  rw [MshSpec.convert_eq]
  unfold MshSpec.withTail MshSpec.mid41
  rw [Entities.convert_id, Nodes.convert_id, map_id_of fun d hd' => hd d (by simp [hd']),
    map_id_of (l := s.elementData) fun d hd' => hd d (by simp [hd']),
    map_id_of (l := s.elementNodeData) fun d _ => Data.convert_self (by simp),
    map_id_of (l := s.curves) fun d _ => d.convert_id, map_id_of (l := s.patches) fun d _ => d.convert_id]
  have hn : (if s.nodes.numNodes = 0 then ({} : Nodes) else s.nodes) = s.nodes := by
    split
    · rename_i e; exact (h.nodes e).symm
    · rfl
  have he : (if s.elements.numElements = 0 then ({} : Elements) else s.elements) = s.elements := by
    split
    · rename_i e; exact (h.elements e).symm
    · rfl
  rw [hn, he]
  cases ext with
  | true => simp
  | false =>
    obtain ⟨h1, h2, h3⟩ := h.noExt rfl
    cases s
    simp_all

/-! ## C01 -/

/-- **C01** (general form, also **C16** for v4.1 binary).  A consistent v4.1 binary spec is saved, and
loading the file gives the same spec, except that data entry tags have passed through 32 bits
(`wrap32`) and the real tags of data headers through decimal text (`reread`).  Coordinates and all other
doubles are bit-identical, NaN included. -/
theorem C01_binary41 (cfg : Cfg) (s : MshSpec) (hfmt : s.meshFormat = ⟨b! "4.1", 1, 8⟩) (hs : s.Ok)
    (hf : s.Fits cfg) (hreal : ∀ x ∈ s.realTags, Printable cfg.fmt x)
    (hw : cfg.nanospline = true → Word s.nanosplineVersion) :
    ∃ file, saveMsh cfg s = (file, .ok ()) ∧
      loadMsh cfg file = .ok (s.convert cfg.nanospline wrap32 (reread cfg.fmt) id) := by
  refine (sls_msh41 cfg s (by rw [hfmt]) (by rw [hfmt]) (by rw [hfmt]) hs hf hw
    fun x hx => (hreal x hx).dtok).sl.load41 ?_
  show s.meshFormat.version = _
  rw [hfmt]

/-- **C01** With data entry tags below `2^31` nothing but the header reals can change. -/
theorem C01_binary41_tags (cfg : Cfg) (s : MshSpec) (hfmt : s.meshFormat = ⟨b! "4.1", 1, 8⟩) (hs : s.Ok)
    (hf : s.Fits cfg) (htag : ∀ t ∈ s.dataTags, t.toNat < 2 ^ 31)
    (hreal : ∀ x ∈ s.realTags, Printable cfg.fmt x)
    (hw : cfg.nanospline = true → Word s.nanosplineVersion) :
    ∃ file, saveMsh cfg s = (file, .ok ()) ∧
      loadMsh cfg file = .ok (s.convert cfg.nanospline id (reread cfg.fmt) id) := by
  obtain ⟨file, h1, h2⟩ := C01_binary41 cfg s hfmt hs hf hreal hw
  refine ⟨file, h1, h2.trans ?_⟩
  rw [MshSpec.convert_congr (fun t ht => wrap32_small (htag t ht)) (fun _ _ => rfl) (fun _ _ => rfl)]
  rfl

/-- **C01** Exact round trip: if moreover the header reals survive as text (for instance because they
are short decimals, C08, or the precision is 17, C07), the loaded spec is the saved spec. -/
theorem C01_binary41_exact (cfg : Cfg) (s : MshSpec) (hfmt : s.meshFormat = ⟨b! "4.1", 1, 8⟩) (hs : s.Ok)
    (hf : s.Fits cfg) (hp : s.Plain cfg.nanospline) (htag : ∀ t ∈ s.dataTags, t.toNat < 2 ^ 31)
    (hreal : ∀ x ∈ s.realTags, Printable cfg.fmt x ∧ reread cfg.fmt x = x)
    (hw : cfg.nanospline = true → Word s.nanosplineVersion) :
    ∃ file, saveMsh cfg s = (file, .ok ()) ∧ loadMsh cfg file = .ok s := by
  obtain ⟨file, h1, h2⟩ := C01_binary41_tags cfg s hfmt hs hf htag (fun x hx => (hreal x hx).1) hw
  refine ⟨file, h1, h2.trans ?_⟩
  rw [MshSpec.convert_congr (t' := id) (f' := id) (g' := id) (fun _ _ => rfl)
    (fun x hx => (hreal x hx).2) (fun _ _ => rfl), hp.convert_self]

/-! ## C02 -/

/-- **C02** A consistent v4.1 ASCII spec whose doubles have readable text is saved, and loading the file
gives the same spec with every double replaced by its reread value.  (Debug builds additionally assert
`0 <= parametric <= 3` while loading, `src/load_msh_nodes.cpp`.) -/
theorem C02_ascii41 (cfg : Cfg) (s : MshSpec) (hfmt : s.meshFormat = ⟨b! "4.1", 0, 8⟩) (hs : s.Ok)
    (hf : s.Fits cfg) (hd : ∀ x ∈ s.doubles, Printable cfg.fmt x)
    (hpar : cfg.asserts = true → ∀ b ∈ s.nodes.entityBlocks, 0 ≤ b.parametric.toInt ∧ b.parametric.toInt ≤ 3)
    (hw : cfg.nanospline = true → Word s.nanosplineVersion) :
    ∃ file, saveMsh cfg s = (file, .ok ()) ∧
      loadMsh cfg file =
        .ok (s.convert cfg.nanospline id (reread cfg.fmt) (reread cfg.fmt)) := by
  refine (slt_msh41 cfg s (by rw [hfmt]) (by rw [hfmt]) (by rw [hfmt]) hs hf hpar hw
    fun x hx => (hd x hx).dtok).sl.load41 ?_
  show s.meshFormat.version = _
  rw [hfmt]

/-- **C02** Exact round trip of specs whose doubles survive as text. -/
theorem C02_ascii41_exact (cfg : Cfg) (s : MshSpec) (hfmt : s.meshFormat = ⟨b! "4.1", 0, 8⟩) (hs : s.Ok)
    (hf : s.Fits cfg) (hp : s.Plain cfg.nanospline)
    (hd : ∀ x ∈ s.doubles, Printable cfg.fmt x ∧ reread cfg.fmt x = x)
    (hpar : cfg.asserts = true → ∀ b ∈ s.nodes.entityBlocks, 0 ≤ b.parametric.toInt ∧ b.parametric.toInt ≤ 3)
    (hw : cfg.nanospline = true → Word s.nanosplineVersion) :
    ∃ file, saveMsh cfg s = (file, .ok ()) ∧ loadMsh cfg file = .ok s := by
  obtain ⟨file, h1, h2⟩ := C02_ascii41 cfg s hfmt hs hf (fun x hx => (hd x hx).1) hpar hw
  refine ⟨file, h1, h2.trans ?_⟩
  rw [MshSpec.convert_congr (t' := id) (f' := id) (g' := id) (fun _ _ => rfl)
    (fun x hx => (hd x (mem_doubles.mpr (Or.inr (Or.inr (Or.inl hx))))).2)
    (fun x hx => (hd x hx).2), hp.convert_self]

/-- **C07** for whole files: with a format that loses nothing (precision 17 and above) an ASCII v4.1 file of finite doubles loads to
exactly the saved spec. -/
theorem C07_ascii41_lossless (cfg : Cfg) (hP : cfg.fmt.Lossless) (s : MshSpec)
    (hfmt : s.meshFormat = ⟨b! "4.1", 0, 8⟩) (hs : s.Ok)
    (hf : s.Fits cfg) (hp : s.Plain cfg.nanospline) (hd : ∀ x ∈ s.doubles, x.isFinite = true)
    (hpar : cfg.asserts = true → ∀ b ∈ s.nodes.entityBlocks, 0 ≤ b.parametric.toInt ∧ b.parametric.toInt ≤ 3)
    (hw : cfg.nanospline = true → Word s.nanosplineVersion) :
    ∃ file, saveMsh cfg s = (file, .ok ()) ∧ loadMsh cfg file = .ok s :=
  C02_ascii41_exact cfg s hfmt hs hf hp (fun x hx => hP _ (hd x hx)) hpar hw

/-! ## C16 -/

/-- **C16** What happens to a tag that is stored as a 32-bit integer: it is replaced by the sign
extension of its low 32 bits, hence survives exactly below `2^31` and from `2^64 - 2^31` on. -/
theorem C16_wrap32 (t : UInt64) :
    (wrap32 t = t ↔ t.toNat < 2 ^ 31 ∨ 2 ^ 64 - 2 ^ 31 ≤ t.toNat) ∧
    (wrap32 t).toNat % 2 ^ 32 = t.toNat % 2 ^ 32 ∧
    ((wrap32 t).toNat < 2 ^ 31 ∨ 2 ^ 64 - 2 ^ 31 ≤ (wrap32 t).toNat) := by
  have h := t.toNat_lt
  have e : (wrap32 t).toNat = if t.toNat % 2 ^ 32 < 2 ^ 31 then t.toNat % 2 ^ 32
      else t.toNat % 2 ^ 32 + (2 ^ 64 - 2 ^ 32) := by
    unfold wrap32
    split <;> rw [ofNat_toNat_lt] <;> omega
  refine ⟨?_, ?_, ?_⟩
  · rw [← UInt64.toNat_inj, e]; split <;> omega
  · rw [e]; split <;> omega
  · rw [e]; split <;> omega

/-! ## C41 -/

/-- **C41** An ASCII v4.1 file consists of tokens (words without white space and quoted strings), each
followed by a single white space character; replacing each of these by any other non-empty white space does
not change what is loaded. -/
theorem C41_whitespace (cfg : Cfg) (s : MshSpec) (hfmt : s.meshFormat = ⟨b! "4.1", 0, 8⟩) (hs : s.Ok)
    (hf : s.Fits cfg) (hd : ∀ x ∈ s.doubles, Printable cfg.fmt x)
    (hpar : cfg.asserts = true → ∀ b ∈ s.nodes.entityBlocks, 0 ≤ b.parametric.toInt ∧ b.parametric.toInt ≤ 3)
    (hw : cfg.nanospline = true → Word s.nanosplineVersion) :
    ∃ pieces : List (Bytes × Bytes),
      saveMsh cfg s = ((pieces.map fun q => q.1 ++ q.2).flatten, .ok ()) ∧
      (∀ q ∈ pieces, (Word q.1 ∨ ∃ n, q.1 = quoted n) ∧ ∃ c, q.2 = [c] ∧ isSpace c = true) ∧
      ∀ pieces' : List (Bytes × Bytes), pieces'.map Prod.fst = pieces.map Prod.fst →
        (∀ q ∈ pieces', q.2 ≠ [] ∧ ∀ c ∈ q.2, isSpace c = true) →
        loadMsh cfg (pieces'.map fun q => q.1 ++ q.2).flatten =
          loadMsh cfg (pieces.map fun q => q.1 ++ q.2).flatten := by
  obtain ⟨⟨ps, h1, h2, h3⟩, hp, -⟩ := slt_msh41 cfg s (by rw [hfmt]) (by rw [hfmt]) (by rw [hfmt]) hs hf
    hpar hw fun x hx => (hd x hx).dtok
  have hfl : ∀ ps : List (Bytes × Bytes), (ps.map fun q => q.1 ++ q.2).flatten = flat ps := by
    intro ps; rw [flat, List.flatMap_def]
  refine ⟨ps, by rw [hfl]; exact h3, fun q hq => let ⟨c, e, hc⟩ := (h2 q hq).2; ⟨by simpa only [IsTok, quoted_eq] using (h2 q hq).1, c, e, isSpace_of_isEatSpace hc⟩, ?_⟩
  intro ps' hps' hs'
  rw [hfl, hfl, (hp ps' (hps'.trans h1) fun q hq => ⟨(hs' q hq).2, (hs' q hq).1⟩).load, (hp ps h1 fun q hq => (h2 q hq).2.sep).load]

end MshIO
