import Verif.Proofs.Sunk

/-!
# Files that cannot be read back: whole files
-/

namespace MshIO

/-- The load was lost: killed by an assertion, not terminating, or undefined. -/
def Lost {α : Type} (o : Outcome α) : Prop := o = .abort ∨ o = .hang ∨ o = .ub

/-- What comes of the main loop when the section reader ends with `o`, if that is no success. -/
def Breaks (cfg : Cfg) (spec : MshSpec) (b : Bytes) (Q : Outcome MshSpec → Prop) : Prop :=
  ∀ w rest, Ws w → ∃ o : Outcome MshSpec, Q o ∧
    ((o = .abort ∧ loadFull cfg spec (gs (w ++ b ++ rest)) = .abort) ∨
     (o = .hang ∧ loadFull cfg spec (gs (w ++ b ++ rest)) = .hang) ∨
     (o = .ub ∧ loadFull cfg spec (gs (w ++ b ++ rest)) = .ub))

section
variable {cfg : Cfg} {Q : Outcome MshSpec → Prop}

theorem Breaks.after {s1 s2 : MshSpec} {a b : Bytes} (h1 : Parses cfg s1 a s2) (h2 : Breaks cfg s2 b Q) :
    Breaks cfg s1 (a ++ b) Q := by
  intro w rest hw
  obtain ⟨w1, hw1, e1⟩ := h1 w (b ++ rest) hw
  have := h2 w1 rest hw1
  rw [List.append_assoc w1, ← e1] at this
  simpa using this

theorem Breaks.more {s1 : MshSpec} {a : Bytes} (h : Breaks cfg s1 a Q) (b : Bytes) : Breaks cfg s1 (a ++ b) Q := by
  intro w rest hw
  have := h w (b ++ rest) hw
  rw [← List.append_assoc, List.append_assoc w] at this
  exact this

theorem Breaks.load {b : Bytes} (h : Breaks cfg {} b Q) : Q (loadMsh cfg b) := by
  obtain ⟨o, hq, h⟩ := h [] [] Ws.nil
  simp only [List.nil_append, List.append_nil] at h
  unfold loadMsh
  rw [loadStream_eq]
  show Q (match loadFull cfg {} (gs b) with
      | .ok (spec, _) => loadPostProcess cfg spec
      | .throw e => .throw e
      | .abort => .abort
      | .ub => .ub
      | .hang => .hang)
  rcases h with ⟨rfl, e⟩ | ⟨rfl, e⟩ | ⟨rfl, e⟩ <;> rw [e] <;> exact hq

/-- The outcome of the whole load, given that of the section reader. -/
def Whole (Q : Outcome MshSpec → Prop) (o : Outcome (MshSpec × Stream)) : Prop :=
  (o = .abort ∧ Q .abort) ∨ (o = .ub ∧ Q .ub) ∨ (Jam o ∧ Q .hang)

theorem Sunk.whole {o : Outcome (MshSpec × Stream)} (h : Sunk o) : Whole Lost o := by
  rcases h with h | h | h
  · exact Or.inr (Or.inl ⟨h, Or.inr (Or.inr rfl)⟩)
  · exact Or.inl ⟨h, Or.inl rfl⟩
  · exact Or.inr (Or.inr ⟨h, Or.inr (Or.inl rfl)⟩)

/-- How a load ends after an unreadable number. -/
def deadEnd (cfg : Cfg) : Outcome MshSpec := if cfg.asserts then .abort else .hang

theorem Dead.whole {o : Outcome (MshSpec × Stream)} (h : Dead cfg o) : Whole (· = deadEnd cfg) o := by
  cases ha : cfg.asserts with
  | true => exact Or.inl ⟨h.1 ha, by simp [deadEnd, ha]⟩
  | false => exact Or.inr (Or.inr ⟨h.2 ha, by simp [deadEnd, ha]⟩)

theorem Breaks.section {spec : MshSpec} {name : Bytes} {ts : List Bytes} {ps : List (Bytes × Bytes)}
    (hn : ∀ c ∈ name, isSpace c = false) (hps : ps.map Prod.fst = ts) (hsep : ∀ q ∈ ps, Sep q.2)
    (h : EndsT (loadSection cfg (36 :: name) spec) ts (Whole Q)) :
    Breaks cfg spec ((36 :: name) ++ [10] ++ flat ps) Q := by
  intro w rest hw
  have e : w ++ ((36 :: name) ++ [10] ++ flat ps) ++ rest = w ++ (36 :: name) ++ ([10] ++ flat ps ++ rest) := by simp
  have hr := h ps hps hsep [10] rest one_nl.sep.1
  rw [e]
  have hround : loadRound cfg spec (gs (w ++ (36 :: name) ++ ([10] ++ flat ps ++ rest))) =
      (loadSection cfg (36 :: name) spec >>= fun spec => forwardTo (endMarker (36 :: name)) >>= fun _ => pure spec)
        (gs ([10] ++ flat ps ++ rest)) := by
    unfold loadRound
    rw [Rd.bind_ok (inString_tok [] _ (tag_word hn) w _ hw (by rw [List.append_assoc]; exact wsHead_append one_nl.sep.head))]
    rfl
  rcases hr with ⟨hr, hq⟩ | ⟨hr, hq⟩ | ⟨⟨a, s, hr, hs⟩, hq⟩
  · refine ⟨.abort, hq, Or.inl ⟨rfl, ?_⟩⟩
    rw [loadFull_round rfl]
    exact Rd.bind_abort (by rw [hround]; exact Rd.bind_abort hr)
  · refine ⟨.ub, hq, Or.inr (Or.inr ⟨rfl, ?_⟩)⟩
    rw [loadFull_round rfl]
    exact Rd.bind_ub (by rw [hround]; exact Rd.bind_ub hr)
  · refine ⟨.hang, hq, Or.inr (Or.inl ⟨rfl, ?_⟩)⟩
    rw [loadFull_round rfl]
    have hf : forwardTo (endMarker (36 :: name)) s = .hang := by
      rw [forwardTo_eq]
      exact fwd_stuck hs.1 hs.2 (by rw [endMarker_tag]; simp [endTag])
    have e2 : loadRound cfg spec (gs (w ++ (36 :: name) ++ ([10] ++ flat ps ++ rest))) = .hang := by
      rw [hround, Rd.bind_ok hr, Rd.bind_def, hf]
    rw [Rd.bind_def, e2]

/-! ## Writers -/

/-- Loading what this writer writes breaks the load. -/
def WB (cfg : Cfg) (w : Wr Unit) (spec : MshSpec) (Q : Outcome MshSpec → Prop) : Prop := Breaks cfg spec w.1 Q

theorem WB.after {w1 w2 : Wr Unit} {s1 s2 : MshSpec} (h1 : SL cfg w1 s1 s2) (h2 : WB cfg w2 s2 Q) :
    WB cfg (w1 >>= fun _ => w2) s1 Q := by
  obtain ⟨b, hw, hp⟩ := h1
  unfold Writes at hw
  subst hw
  exact Breaks.after hp h2

theorem Wr.fst_bind {α β : Type} (w : Wr α) (f : α → Wr β) : ∃ b, (w >>= f).1 = w.1 ++ b := by
  obtain ⟨b, o⟩ := w
  cases o with
  | ok a => exact ⟨(f a).1, rfl⟩
  | throw e => exact ⟨[], (List.append_nil _).symm⟩
  | abort => exact ⟨[], (List.append_nil _).symm⟩
  | ub => exact ⟨[], (List.append_nil _).symm⟩
  | hang => exact ⟨[], (List.append_nil _).symm⟩

theorem WB.first {w : Wr Unit} {f : Unit → Wr Unit} {s : MshSpec} (h : WB cfg w s Q) : WB cfg (w >>= f) s Q := by
  obtain ⟨b, e⟩ := Wr.fst_bind w f
  unfold WB
  rw [e]
  exact Breaks.more h b

theorem WB.when {c : Bool} {w : Wr Unit} {s : MshSpec} (hc : c = true) (h : WB cfg w s Q) : WB cfg (whenW c w) s Q := by
  subst hc; exact h

theorem WB.section {name : Bytes} {w : Wr Unit} {e : Wr Unit} {spec : MshSpec} {t : Bytes} {ts : List Bytes}
    (ht : t = (36 :: name) ++ endl) (hn : ∀ c ∈ name, isSpace c = false)
    (hw : ∃ ps more, ps.map Prod.fst = ts ∧ (∀ q ∈ ps, Sep q.2) ∧ w.1 = flat ps ++ more)
    (h : EndsT (loadSection cfg (36 :: name) spec) ts (Whole Q)) :
    WB cfg (emit t >>= fun _ => w >>= fun _ => e) spec Q := by
  obtain ⟨ps, more, hps, hs, hw⟩ := hw
  obtain ⟨b, he⟩ := Wr.fst_bind w (fun _ => e)
  have e1 : (emit t >>= fun _ => w >>= fun _ => e).1 = ((36 :: name) ++ [10] ++ flat ps) ++ (more ++ b) := by
    show t ++ (w >>= fun _ => e).1 = _
    rw [he, hw, ht]
    simp [endl]
  unfold WB
  rw [e1]
  exact Breaks.more (Breaks.section hn hps hs h) _

theorem WritesT.words {w : Wr Unit} {ts : List Bytes} (h : WritesT w ts) :
    ∃ ps more, ps.map Prod.fst = ts ∧ (∀ q ∈ ps, Sep q.2) ∧ w.1 = flat ps ++ more := by
  obtain ⟨ps, h1, h2, h3⟩ := h
  refine ⟨ps, [], h1, fun q hq => (h2 q hq).2.sep, ?_⟩
  unfold Writes at h3
  rw [h3]; simp

theorem WritesT.words_bind {w : Wr Unit} {f : Unit → Wr Unit} {ts : List Bytes} (h : WritesT w ts) :
    ∃ ps more, ps.map Prod.fst = ts ∧ (∀ q ∈ ps, Sep q.2) ∧ (w >>= f).1 = flat ps ++ more := by
  obtain ⟨ps, h1, h2, h3⟩ := h
  unfold Writes at h3
  subst h3
  exact ⟨ps, _, h1, fun q hq => (h2 q hq).2.sep, rfl⟩

/-- Reads back as `s2` under `good`, and otherwise breaks the load. -/
def SX (cfg : Cfg) (w : Wr Unit) (s1 : MshSpec) (good : Prop) (s2 : MshSpec) (Q : Outcome MshSpec → Prop) : Prop :=
  (good → SL cfg w s1 s2) ∧ (¬ good → WB cfg w s1 Q)

theorem SX.bind {w1 w2 : Wr Unit} {s1 s2 s3 : MshSpec} {g1 g2 : Prop} (h1 : SX cfg w1 s1 g1 s2 Q)
    (h2 : SX cfg w2 s2 g2 s3 Q) : SX cfg (w1 >>= fun _ => w2) s1 (g1 ∧ g2) s3 Q := by
  refine ⟨fun hg => (h1.1 hg.1).bind (h2.1 hg.2), fun hn => ?_⟩
  by_cases hg : g1
  · exact WB.after (h1.1 hg) (h2.2 fun h => hn ⟨hg, h⟩)
  · exact WB.first (h1.2 hg)

theorem SX.sl {w1 w2 : Wr Unit} {s1 s2 s3 : MshSpec} {g : Prop} (h1 : SL cfg w1 s1 s2)
    (h2 : SX cfg w2 s2 g s3 Q) : SX cfg (w1 >>= fun _ => w2) s1 g s3 Q :=
  ⟨fun hg => h1.bind (h2.1 hg), fun hg => WB.after h1 (h2.2 hg)⟩

theorem SX.when {c : Bool} {w : Wr Unit} {s1 s2 : MshSpec} {g : Prop} (h1 : c = true → SX cfg w s1 g s2 Q)
    (h2 : c = false → s1 = s2 ∧ g) : SX cfg (whenW c w) s1 g s2 Q := by
  unfold whenW
  cases c with
  | true => exact h1 rfl
  | false => obtain ⟨rfl, hg⟩ := h2 rfl; exact ⟨fun _ => SL.pure _ _, fun hn => absurd hg hn⟩

theorem SX.congr {w : Wr Unit} {s1 s2 : MshSpec} {g g' : Prop} (h : SX cfg w s1 g s2 Q) (e : g ↔ g') :
    SX cfg w s1 g' s2 Q := ⟨fun hg => h.1 (e.mpr hg), fun hn => h.2 fun hg => hn (e.mp hg)⟩

theorem SX.cast {w : Wr Unit} {s1 s2 s3 : MshSpec} {g : Prop} (h : SX cfg w s1 g s2 Q) (e : s2 = s3) :
    SX cfg w s1 g s3 Q := e ▸ h

end

/-! ## Sections -/

theorem not_all {α : Type} {l : List α} {p : α → Prop} (h : ¬ ∀ x ∈ l, p x) : ∃ x ∈ l, ¬ p x := by
  by_contra hn
  exact h fun x hx => by_contra fun hp => hn ⟨x, hx, hp⟩

theorem whole_bind {Q : Outcome MshSpec → Prop} {α : Type} {p : Rd α} {f : α → MshSpec} {ts : List Bytes}
    {R : Outcome (α × Stream) → Prop} (h : EndsT p ts R) (hR : ∀ s, R (p s) → Whole Q ((p >>= fun a => pure (f a)) s)) :
    EndsT (p >>= fun a => pure (f a)) ts (Whole Q) := EndsT.first h hR

theorem dead_whole {cfg : Cfg} {α : Type} {p : Rd α} {f : α → MshSpec} {s : Stream} (h : Dead cfg (p s)) :
    Whole (· = deadEnd cfg) ((p >>= fun a => pure (f a)) s) :=
  Dead.whole (Dead.bind h fun _ _ _ hs => hs.jam _)

theorem sunk_whole {α : Type} {p : Rd α} {f : α → MshSpec} {s : Stream} (h : Sunk (p s)) :
    Whole Lost ((p >>= fun a => pure (f a)) s) :=
  Sunk.whole (Sunk.bind h fun _ _ hs => hs.sunk _)

theorem ub_whole {α : Type} {p : Rd α} {f : α → MshSpec} {s : Stream} (h : p s = .ub) :
    Whole (· = .ub) ((p >>= fun a => pure (f a)) s) := Or.inr (Or.inl ⟨Rd.bind_ub h, rfl⟩)

theorem Breaks.mono {cfg : Cfg} {spec : MshSpec} {b : Bytes} {Q R : Outcome MshSpec → Prop} (h : Breaks cfg spec b Q)
    (hq : ∀ o, Q o → R o) : Breaks cfg spec b R := fun w rest hw => by
  obtain ⟨o, h1, h2⟩ := h w rest hw
  exact ⟨o, hq o h1, h2⟩

theorem WB.mono {cfg : Cfg} {spec : MshSpec} {w : Wr Unit} {Q R : Outcome MshSpec → Prop} (h : WB cfg w spec Q)
    (hq : ∀ o, Q o → R o) : WB cfg w spec R := Breaks.mono h hq

theorem deadEnd_lost (cfg : Cfg) {o : Outcome MshSpec} (h : o = deadEnd cfg) : Lost o := by
  subst h
  unfold deadEnd
  cases cfg.asserts with
  | true => exact Or.inl rfl
  | false => exact Or.inr (Or.inl rfl)

theorem ub_lost {o : Outcome MshSpec} (h : o = .ub) : Lost o := Or.inr (Or.inr h)

theorem wb_entities (cfg : Cfg) (spec : MshSpec) (e : Entities)
    (hv : spec.meshFormat.version = b! "4.1") (ht : spec.meshFormat.fileType = 0)
    (h0 : spec.entities = {}) (hc : ∀ n ∈ e.sizes, n ≤ cfg.maxCount)
    (hbad : ∃ d ∈ e.doubles, ¬ Printable cfg.fmt d) :
    WB cfg (saveEntities cfg spec.meshFormat e) spec (· = .ub) := by
  unfold saveEntities
  rw [if_neg (by rw [hv]; decide)]
  simp only [hv, if_true, if_pos ht]
  refine WB.section (name := b! "Entities") rfl (by decide) (saveEntitiesAscii41_writes cfg e).words ?_
  rw [loadSection_entities, h0]
  unfold loadEntities
  rw [if_pos hv, if_pos ht]
  exact whole_bind (loadEntitiesAscii41_ub cfg e hbad hc) fun s => ub_whole

theorem wb_nodes41 (cfg : Cfg) (spec : MshSpec) (n : Nodes)
    (hv : spec.meshFormat.version = b! "4.1") (ht : spec.meshFormat.fileType = 0)
    (h0 : spec.nodes.entityBlocks = []) (h : n.Good cfg)
    (hpar : cfg.asserts = true → ∀ b ∈ n.entityBlocks, 0 ≤ b.parametric.toInt ∧ b.parametric.toInt ≤ 3)
    (hbad : ∃ b ∈ n.entityBlocks, ∃ d ∈ b.data, ¬ Printable cfg.fmt d) :
    WB cfg (saveNodes cfg spec.meshFormat n) spec (· = deadEnd cfg) := by
  unfold saveNodes
  simp only [hv, if_true, if_pos ht]
  refine WB.section (name := b! "Nodes") rfl (by decide) (saveNodesAscii41_writes cfg n h).words ?_
  rw [loadSection_nodes]
  unfold loadNodes
  rw [h0]
  simp only [List.length_nil, if_true, if_pos hv, if_pos ht]
  exact whole_bind (loadNodesAscii41_dead cfg n _ h rfl hbad hpar) fun s => dead_whole

theorem wb_nodes22 (cfg : Cfg) (spec : MshSpec) (n : Nodes)
    (hv : spec.meshFormat.version = b! "2.2") (ht : spec.meshFormat.fileType = 0)
    (h0 : spec.nodes = {}) (h : n.Good cfg) (hn : n.numNodes.toNat = n.list.length)
    (h3 : 3 * n.list.length ≤ cfg.maxCount) (h1 : 1 ≤ cfg.maxCount)
    (hbad : ∃ m ∈ n.list, ∃ x ∈ [m.x, m.y, m.z], ¬ Printable cfg.fmt x) :
    WB cfg (saveNodes cfg spec.meshFormat n) spec (· = deadEnd cfg) := by
  unfold saveNodes
  rw [if_neg (by rw [hv]; decide), if_pos hv, if_pos ht]
  refine WB.section (name := b! "Nodes") rfl (by decide) (saveNodesAscii22_writes cfg n h hn).words ?_
  rw [loadSection_nodes]
  unfold loadNodes
  rw [h0]
  simp only [List.length_nil, if_true]
  rw [if_neg (by rw [hv]; decide), if_pos hv, if_pos ht]
  refine whole_bind (loadNodesAscii22_dead cfg cfg.fmt n.list ?_ h3 h1 _ rfl) fun s => dead_whole
  obtain ⟨m, hm, x, hx, hp⟩ := hbad
  refine ⟨m, hm, fun hg => hp ?_⟩
  simp only [List.mem_cons, List.not_mem_nil, or_false] at hx
  rcases hx with rfl | rfl | rfl
  · exact hg.1
  · exact hg.2.1
  · exact hg.2.2

/-- The doubles of a data section that are written as text. -/
def Data.Prints (P : Fmt) (ascii : Prop) (d : Data) : Prop :=
  (∀ x ∈ d.header.realTags, Printable P x) ∧ (ascii → ∀ e ∈ d.entries, ∀ x ∈ e.data, Printable P x)

theorem loadDataSection_ub (cfg : Cfg) (f : MeshFormat) (isEN : Bool) (ds : List Data) (d : Data) (hl : ds.length < cfg.maxCount)
    (hfit : d.Fits cfg) (hbad : ∃ x ∈ d.header.realTags, ¬ Printable cfg.fmt x) :
    EndsT (loadDataSection cfg f isEN ds) (headerToks cfg.fmt d.header) (· = .ub) := by
  obtain ⟨c1, c2, _⟩ := hfit.get
  unfold loadDataSection
  refine EndsT.silent (silent_pushBack cfg _ _ hl) (EndsT.first (Q := (· = .ub)) ?_ fun s hs => Rd.bind_ub hs)
  unfold loadData
  exact EndsT.first (loadDataHeader_ub cfg d.header hbad c1 c2) fun s hs => Rd.bind_ub hs

theorem wb_dataTags (cfg : Cfg) (F : DataField) (spec : MshSpec) (d : Data)
    (hl : (F.get spec).length < cfg.maxCount) (hfit : d.Fits cfg)
    (hbad : ∃ x ∈ d.header.realTags, ¬ Printable cfg.fmt x) :
    WB cfg (emit (b! "$" ++ F.name ++ endl) >>= fun _ => saveData cfg spec.meshFormat F.isEN d >>= fun _ =>
      emit (b! "$End" ++ F.name ++ endl)) spec (· = .ub) := by
  refine WB.section (name := F.name) (ts := headerToks cfg.fmt d.header) rfl F.word ?_ ?_
  · exact (saveDataHeader_writes cfg d.header).words_bind
  · rw [F.load]
    exact whole_bind (loadDataSection_ub cfg _ _ _ d hl hfit hbad) fun s => ub_whole

theorem wb_dataValues (cfg : Cfg) (F : DataField) (spec : MshSpec)
    (ht : spec.meshFormat.fileType = 0) (d : Data) (hl : (F.get spec).length < cfg.maxCount)
    (hok : d.Ok F.isEN) (hfit : d.Fits cfg)
    (hd1 : ∀ x ∈ d.header.realTags, Printable cfg.fmt x)
    (hbad : ∃ e ∈ d.entries, ∃ x ∈ e.data, ¬ Printable cfg.fmt x) :
    WB cfg (emit (b! "$" ++ F.name ++ endl) >>= fun _ => saveData cfg spec.meshFormat F.isEN d >>= fun _ =>
      emit (b! "$End" ++ F.name ++ endl)) spec (· = deadEnd cfg) := by
  refine WB.section (name := F.name) (ts := dataToks cfg.fmt F.isEN d) rfl F.word (WritesT.words ?_) ?_
  · unfold saveData
    rw [if_neg (by rw [ht]; decide)]
    exact WritesT.bind (saveDataHeader_writes cfg _) (WritesT.forW _ fun e _ => saveDataEntryAscii_writes cfg _ e)
  · rw [F.load]
    unfold loadDataSection
    refine whole_bind (R := Dead cfg) ?_ fun s => dead_whole
    exact EndsT.silent (silent_pushBack cfg _ _ hl) (EndsT.first (loadData_dead cfg _ ht F.isEN d hok hfit hd1 hbad)
      fun s hs => Dead.bind hs fun _ _ s' hs' => hs'.jam _)

theorem sx_dataAscii (cfg : Cfg) (F : DataField) (spec : MshSpec)
    (ht : spec.meshFormat.fileType = 0) (d : Data) (hl : (F.get spec).length < cfg.maxCount)
    (hok : d.Ok F.isEN) (hfit : d.Fits cfg) :
    SX cfg (emit (b! "$" ++ F.name ++ endl) >>= fun _ => saveData cfg spec.meshFormat F.isEN d >>= fun _ =>
      emit (b! "$End" ++ F.name ++ endl)) spec (d.Prints cfg.fmt True)
      (F.set spec (F.get spec ++ [d.convert F.isEN id (reread cfg.fmt) (reread cfg.fmt)])) Lost := by
  refine ⟨fun hg => (slt_dataOne cfg F spec ht d hl hok hfit (fun x hx => (hg.1 x hx).dtok)
    fun e he x hx => (hg.2 trivial e he x hx).dtok).sl, fun hn => ?_⟩
  by_cases h1 : ∀ x ∈ d.header.realTags, Printable cfg.fmt x
  · have h2 : ¬ ∀ e ∈ d.entries, ∀ x ∈ e.data, Printable cfg.fmt x := fun h => hn ⟨h1, fun _ => h⟩
    obtain ⟨e, he, h2⟩ := not_all h2
    exact (wb_dataValues cfg F spec ht d hl hok hfit h1 ⟨e, he, not_all h2⟩).mono fun o => deadEnd_lost cfg
  · exact (wb_dataTags cfg F spec d hl hfit (not_all h1)).mono fun o => ub_lost

theorem sx_dataBinary (cfg : Cfg) (F : DataField) (spec : MshSpec)
    (ht : 0 < spec.meshFormat.fileType) (hv : spec.meshFormat.version = b! "4.1" ∨ spec.meshFormat.version = b! "2.2")
    (d : Data) (hl : (F.get spec).length < cfg.maxCount) (hok : d.Ok F.isEN) (hfit : d.Fits cfg) :
    SX cfg (emit (b! "$" ++ F.name ++ endl) >>= fun _ => saveData cfg spec.meshFormat F.isEN d >>= fun _ =>
      emit (b! "$End" ++ F.name ++ endl)) spec (d.Prints cfg.fmt False)
      (F.set spec (F.get spec ++ [d.convert F.isEN wrap32 (reread cfg.fmt) id])) (· = .ub) := by
  refine ⟨fun hg => (sls_dataOne cfg F spec ht hv d hl hok hfit (fun x hx => (hg.1 x hx).dtok)).sl, fun hn => ?_⟩
  refine wb_dataTags cfg F spec d hl hfit (not_all fun h => hn ⟨h, fun hf => hf.elim⟩)

theorem sx_dataSections (cfg : Cfg) (F : DataField) {Q : Outcome MshSpec → Prop} (g : Data → Prop) (cv : Data → Data) (f : MeshFormat)
    (ok : Data → Prop) (h : ∀ spec : MshSpec, spec.meshFormat = f → ∀ d, (F.get spec).length < cfg.maxCount → ok d →
      SX cfg (emit (b! "$" ++ F.name ++ endl) >>= fun _ => saveData cfg spec.meshFormat F.isEN d >>= fun _ =>
        emit (b! "$End" ++ F.name ++ endl)) spec (g d) (F.set spec (F.get spec ++ [cv d])) Q) (ds : List Data) :
    ∀ spec : MshSpec, spec.meshFormat = f → (F.get spec).length + ds.length ≤ cfg.maxCount → (∀ d ∈ ds, ok d) →
    SX cfg (saveDataSections cfg spec.meshFormat F.name F.isEN ds) spec (∀ d ∈ ds, g d)
      (F.set spec (F.get spec ++ ds.map cv)) Q := by
  induction ds with
  | nil => intro spec _ _ _; exact ⟨fun _ => SL.cast (SL.pure _ _) (by simp [F.set_get]), fun hn => absurd (by simp) hn⟩
  | cons d ds ih =>
    intro spec hf hl hok
    simp only [List.length_cons] at hl
    have s1 := h spec hf d (by omega) (hok d (by simp))
    have s2 := ih (F.set spec (F.get spec ++ [cv d])) (by rw [F.format]; exact hf)
      (by rw [F.get_set]; simp; omega) (fun x hx => hok x (by simp [hx]))
    rw [F.format, F.get_set, F.set_set] at s2
    refine SX.congr (SX.cast (SX.bind s1 s2) (by simp)) (by simp)

theorem wb_curves (cfg : Cfg) (hn : cfg.nanospline = true) (spec : MshSpec)
    (ht : spec.meshFormat.fileType = 0) (h0 : spec.curves = []) (cs : List Curve)
    (hc : cs.length ≤ cfg.maxCount) (hok : ∀ c ∈ cs, c.Ok ∧ c.data.length ≤ cfg.maxCount)
    (hbad : ∃ c ∈ cs, ¬ ∀ x ∈ c.data, Printable cfg.fmt x) :
    WB cfg (saveCurves cfg spec.meshFormat cs) spec (· = .hang) := by
  have hlt := cfg.maxCount_lt
  have l1 : (sizeU cs).toNat = cs.length := sizeU_toNat (by omega)
  unfold saveCurves
  simp only [if_pos ht]
  rw [← Wr.bind_assoc (emit (decU64 (sizeU cs) ++ endl))]
  refine WB.section (name := b! "Curves") rfl (by decide) (WritesT.words (WritesT.bind (x := [_])
    (WritesT.emit [(decU64 (sizeU cs), [10])] (by simp [one_nl]) (by simp [flat, endl]))
    (WritesT.forW _ fun c hm => saveCurveAscii_writes cfg c (hok c hm).1 (by have := (hok c hm).2; omega)))) ?_
  rw [loadSection_curves]
  unfold loadCurves
  rw [h0, if_pos hn]
  simp only [if_pos ht]
  refine whole_bind (R := Jam) ?_ fun s hs => Or.inr (Or.inr ⟨hs.bind fun _ _ hs' => hs'.jam _, rfl⟩)
  refine EndsT.cons (extractSize_tok _) (EndsT.silent (silent_useVar _)
    (EndsT.silent (silent_resize_nil _ _ _ (by omega)) ?_))
  rw [l1]
  exact EndsT.forEach_jam cs hbad (g := Curve.convert (reread cfg.fmt))
    (fun c hm hg => loadCurveAscii_reads cfg c (hok c hm).1 (hok c hm).2 fun x hx => (hg x hx).dtok)
    (fun c hm hg => loadCurveAscii_jam cfg c (hok c hm).1 (hok c hm).2 (not_all hg)) (loadCurveAscii_stuck cfg)

theorem wb_patches (cfg : Cfg) (hn : cfg.nanospline = true) (spec : MshSpec)
    (ht : spec.meshFormat.fileType = 0) (h0 : spec.patches = []) (cs : List Patch)
    (hc : cs.length ≤ cfg.maxCount) (hok : ∀ c ∈ cs, c.Ok ∧ c.data.length ≤ cfg.maxCount)
    (hbad : ∃ c ∈ cs, ¬ ∀ x ∈ c.data, Printable cfg.fmt x) :
    WB cfg (savePatches cfg spec.meshFormat cs) spec (· = .hang) := by
  have hlt := cfg.maxCount_lt
  have l1 : (sizeU cs).toNat = cs.length := sizeU_toNat (by omega)
  unfold savePatches
  simp only [if_pos ht]
  rw [← Wr.bind_assoc (emit (decU64 (sizeU cs) ++ endl))]
  refine WB.section (name := b! "Patches") rfl (by decide) (WritesT.words (WritesT.bind (x := [_])
    (WritesT.emit [(decU64 (sizeU cs), [10])] (by simp [one_nl]) (by simp [flat, endl]))
    (WritesT.forW _ fun c hm => savePatchAscii_writes cfg c (hok c hm).1 (by have := (hok c hm).2; omega)))) ?_
  rw [loadSection_patches]
  unfold loadPatches
  rw [h0, if_pos hn]
  simp only [if_pos ht]
  refine whole_bind (R := Jam) ?_ fun s hs => Or.inr (Or.inr ⟨hs.bind fun _ _ hs' => hs'.jam _, rfl⟩)
  refine EndsT.cons (extractSize_tok _) (EndsT.silent (silent_useVar _)
    (EndsT.silent (silent_resize_nil _ _ _ (by omega)) ?_))
  rw [l1]
  exact EndsT.forEach_jam cs hbad (g := Patch.convert (reread cfg.fmt))
    (fun c hm hg => loadPatchAscii_reads cfg c (hok c hm).1 (hok c hm).2 fun x hx => (hg x hx).dtok)
    (fun c hm hg => loadPatchAscii_jam cfg c (hok c hm).1 (hok c hm).2 (not_all hg)) (loadPatchAscii_stuck cfg)

/-! ## The tail of a file -/

/-- Everything written as text in the data sections, curves and patches can be read back. -/
structure MshSpec.TailPrints (cfg : Cfg) (ascii : Prop) (s : MshSpec) : Prop where
  data : ∀ d ∈ s.nodeData ++ s.elementData ++ s.elementNodeData, d.Prints cfg.fmt ascii
  curves : cfg.nanospline = true → ascii → ∀ c ∈ s.curves, ∀ x ∈ c.data, Printable cfg.fmt x
  patches : cfg.nanospline = true → ascii → ∀ c ∈ s.patches, ∀ x ∈ c.data, Printable cfg.fmt x

theorem sx_data3 (cfg : Cfg) {Q : Outcome MshSpec → Prop} (ascii : Prop) (cv : Bool → Data → Data) (s s0 : MshSpec)
    (hm : s0.meshFormat = s.meshFormat) (h : s.TailOk cfg) (h0 : s0.Fresh)
    (hone : ∀ (F : DataField) (spec : MshSpec), spec.meshFormat = s.meshFormat → ∀ d, (F.get spec).length < cfg.maxCount →
      d.Ok F.isEN ∧ d.Fits cfg →
      SX cfg (emit (b! "$" ++ F.name ++ endl) >>= fun _ => saveData cfg spec.meshFormat F.isEN d >>= fun _ =>
        emit (b! "$End" ++ F.name ++ endl)) spec (d.Prints cfg.fmt ascii) (F.set spec (F.get spec ++ [cv F.isEN d])) Q) :
    SX cfg (whenW (s.nodeData.length > 0) (saveDataSections cfg s.meshFormat (b! "NodeData") false s.nodeData) >>= fun _ =>
      whenW (s.elementData.length > 0)
        (saveDataSections cfg s.meshFormat (b! "ElementData") false s.elementData) >>= fun _ =>
      whenW (s.elementNodeData.length > 0)
        (saveDataSections cfg s.meshFormat (b! "ElementNodeData") true s.elementNodeData)) s0
      (∀ d ∈ s.nodeData ++ s.elementData ++ s.elementNodeData, d.Prints cfg.fmt ascii)
      { s0 with nodeData := s.nodeData.map (cv false), elementData := s.elementData.map (cv false), elementNodeData := s.elementNodeData.map (cv true) } Q := by
  have key : ∀ (F : DataField) (ds : List Data) (spec : MshSpec), spec.meshFormat = s.meshFormat → F.get spec = [] →
      ds.length ≤ cfg.maxCount → (∀ d ∈ ds, d.Ok F.isEN ∧ d.Fits cfg) →
      SX cfg (whenW (ds.length > 0) (saveDataSections cfg s.meshFormat F.name F.isEN ds)) spec
        (∀ d ∈ ds, d.Prints cfg.fmt ascii) (F.set spec (ds.map (cv F.isEN))) Q := by
    intro F ds spec hf hg hl hok
    have := sx_dataSections cfg F (Data.Prints cfg.fmt ascii) (cv F.isEN) s.meshFormat (fun d => d.Ok F.isEN ∧ d.Fits cfg)
      (hone F) ds spec hf (by rw [hg]; simpa using hl) hok
    rw [hg, List.nil_append, hf] at this
    refine SX.when (fun _ => this) fun hz => ?_
    rw [len_zero hz]
    exact ⟨by rw [List.map_nil, ← hg, F.set_get], by simp⟩
  have h1 := key nodeDataField s.nodeData s0 hm h0.nd h.nd h.ndOk
  have h2 := key elementDataField s.elementData (nodeDataField.set s0 (s.nodeData.map (cv false))) hm h0.ed h.ed h.edOk
  have h3 := key elementNodeDataField s.elementNodeData
    (elementDataField.set (nodeDataField.set s0 (s.nodeData.map (cv false))) (s.elementData.map (cv false))) hm h0.end' h.end' h.endOk
  refine SX.congr (SX.bind h1 (SX.bind h2 h3)) ?_
  simp only [List.forall_mem_append, and_assoc]

/-- The end of the tail. -/
def saveNano (cfg : Cfg) (s : MshSpec) : Wr Unit :=
  whenW cfg.nanospline (saveNanosplineFormat s.nanosplineVersion >>= fun _ =>
    whenW (s.curves.length > 0) (saveCurves cfg s.meshFormat s.curves) >>= fun _ =>
    whenW (s.patches.length > 0) (savePatches cfg s.meshFormat s.patches))

theorem saveTail_eq (cfg : Cfg) (s : MshSpec) : saveTail cfg s =
    (whenW (s.nodeData.length > 0) (saveDataSections cfg s.meshFormat (b! "NodeData") false s.nodeData) >>= fun _ =>
      whenW (s.elementData.length > 0)
        (saveDataSections cfg s.meshFormat (b! "ElementData") false s.elementData) >>= fun _ =>
      whenW (s.elementNodeData.length > 0)
        (saveDataSections cfg s.meshFormat (b! "ElementNodeData") true s.elementNodeData)) >>= fun _ => saveNano cfg s := by
  simp only [Wr.bind_assoc]; rfl

theorem sx_tailAscii (cfg : Cfg) (s s0 : MshSpec) (hm : s0.meshFormat = s.meshFormat)
    (ht : s.meshFormat.fileType = 0) (h : s.TailOk cfg) (h0 : s0.Fresh) :
    SX cfg (saveTail cfg s) s0 (s.TailPrints cfg True)
      (MshSpec.withTail cfg.nanospline id (reread cfg.fmt) (reread cfg.fmt) s s0) Lost := by
  refine ⟨fun hg => (slt_tail cfg s s0 hm ht h h0 ?_ ?_ ?_ ?_).sl, ?_⟩
  · intro x hx
    obtain ⟨d, hd, hx⟩ := List.mem_flatMap.mp hx
    exact ((hg.data d hd).1 x hx).dtok
  · exact fun d hd e he x hx => ((hg.data d hd).2 trivial e he x hx).dtok
  · exact fun hn c hc x hx => (hg.curves hn trivial c hc x hx).dtok
  · exact fun hn c hc x hx => (hg.patches hn trivial c hc x hx).dtok
  have h3 := sx_data3 cfg (Q := Lost) True (fun b => Data.convert b id (reread cfg.fmt) (reread cfg.fmt)) s s0 hm h h0
    (fun F spec hf d hl hok => sx_dataAscii cfg F spec (by rw [hf]; exact ht) d hl hok.1 hok.2)
  rw [saveTail_eq]
  have key : SX cfg (saveNano cfg s)
    { s0 with nodeData := s.nodeData.map (Data.convert false id (reread cfg.fmt) (reread cfg.fmt)), elementData := s.elementData.map (Data.convert false id (reread cfg.fmt) (reread cfg.fmt)), elementNodeData := s.elementNodeData.map (Data.convert true id (reread cfg.fmt) (reread cfg.fmt)) }
    ((cfg.nanospline = true → ∀ c ∈ s.curves, ∀ x ∈ c.data, Printable cfg.fmt x) ∧
      (cfg.nanospline = true → ∀ c ∈ s.patches, ∀ x ∈ c.data, Printable cfg.fmt x))
    (MshSpec.withTail cfg.nanospline id (reread cfg.fmt) (reread cfg.fmt) s s0) Lost := ?_
  · intro hn
    refine (SX.bind h3 key).2 fun hg => hn ⟨hg.1, fun h _ => hg.2.1 h, fun h _ => hg.2.2 h⟩
  generalize e1 : ({ s0 with nodeData := _, elementData := _, elementNodeData := _ } : MshSpec) = s3
  have m3 : s3.meshFormat = s.meshFormat := by rw [← e1]; exact hm
  have c3 : s3.curves = [] := by rw [← e1]; exact h0.cs
  have p3 : s3.patches = [] := by rw [← e1]; exact h0.ps
  have v3 : s3.nanosplineVersion = b! "1.0" := by rw [← e1]; exact h0.nv
  have et : MshSpec.withTail cfg.nanospline id (reread cfg.fmt) (reread cfg.fmt) s s0 =
      { s3 with nanosplineVersion := if cfg.nanospline then s.nanosplineVersion else b! "1.0"
                curves := if cfg.nanospline then s.curves.map (Curve.convert (reread cfg.fmt)) else []
                patches := if cfg.nanospline then s.patches.map (Patch.convert (reread cfg.fmt)) else [] } := by
    rw [← e1]; rfl
  rw [et]
  clear et e1 h3
  unfold saveNano
  refine SX.when (fun hn => ?_) fun hn => ?_
  · simp only [hn, if_true, true_implies]
    refine SX.sl ((slt_nanosplineFormat cfg s3 _ (h.word hn)).sl) (SX.bind
      (s2 := { s3 with nanosplineVersion := s.nanosplineVersion, curves := s.curves.map (Curve.convert (reread cfg.fmt)) })
      (SX.when (fun _ => ?_) fun hz => ?_) (SX.when (fun _ => ?_) fun hz => ?_))
    · have hs := slt_curves cfg hn { s3 with nanosplineVersion := s.nanosplineVersion } (by rw [← ht, ← m3]) c3 s.curves h.cs
        (fun c hc => (h.csOk c hc).1) (fun c hc => (h.csOk c hc).2) (rd := reread cfg.fmt)
      have hb := wb_curves cfg hn { s3 with nanosplineVersion := s.nanosplineVersion } (by rw [← ht, ← m3]) c3 s.curves h.cs h.csOk
      rw [← m3]
      exact ⟨fun hg => (hs fun c hc x hx => (hg c hc x hx).dtok).sl,
        fun hg => (hb (not_all hg)).mono fun o ho => Or.inr (Or.inl ho)⟩
    · rw [len_zero hz]
      refine ⟨by rw [List.map_nil, ← c3], by simp⟩
    · have hs := slt_patches cfg hn { s3 with nanosplineVersion := s.nanosplineVersion, curves := s.curves.map (Curve.convert (reread cfg.fmt)) } (by rw [← ht, ← m3]) p3 s.patches h.ps
        (fun c hc => (h.psOk c hc).1) (fun c hc => (h.psOk c hc).2) (rd := reread cfg.fmt)
      have hb := wb_patches cfg hn { s3 with nanosplineVersion := s.nanosplineVersion, curves := s.curves.map (Curve.convert (reread cfg.fmt)) } (by rw [← ht, ← m3]) p3 s.patches h.ps h.psOk
      rw [← m3]
      exact ⟨fun hg => (hs fun c hc x hx => (hg c hc x hx).dtok).sl,
        fun hg => (hb (not_all hg)).mono fun o ho => Or.inr (Or.inl ho)⟩
    · rw [len_zero hz]
      refine ⟨by rw [List.map_nil, ← p3], by simp⟩
  · refine ⟨?_, by simp [hn]⟩
    simp only [hn]
    clear h0 hm
    cases s3
    simp_all

theorem sx_tailBinary (cfg : Cfg) (s s0 : MshSpec) (hm : s0.meshFormat = s.meshFormat)
    (ht : 0 < s.meshFormat.fileType) (hv : s.meshFormat.version = b! "4.1" ∨ s.meshFormat.version = b! "2.2")
    (h : s.TailOk cfg) (h0 : s0.Fresh) :
    SX cfg (saveTail cfg s) s0 (∀ x ∈ s.realTags, Printable cfg.fmt x)
      (MshSpec.withTail cfg.nanospline wrap32 (reread cfg.fmt) id s s0) (· = .ub) := by
  refine ⟨fun hg => (sls_tail cfg s s0 hm ht hv h h0 fun x hx => (hg x hx).dtok).sl, fun hn => ?_⟩
  have h3 := sx_data3 cfg (Q := (· = .ub)) False (fun b => Data.convert b wrap32 (reread cfg.fmt) id) s s0 hm h h0
    (fun F spec hf d hl hok => sx_dataBinary cfg F spec (by rw [hf]; exact ht) (by rw [hf]; exact hv) d hl hok.1 hok.2)
  rw [saveTail_eq]
  refine WB.first (h3.2 fun hg => hn fun x hx => ?_)
  obtain ⟨d, hd, hx⟩ := List.mem_flatMap.mp hx
  exact (hg d hd).1 x hx

/-! ## Whole files -/

/-- All the doubles written as text in a v4.1 ASCII file can be read back. -/
structure MshSpec.Prints41 (cfg : Cfg) (s : MshSpec) : Prop where
  entities : ∀ d ∈ s.entities.doubles, Printable cfg.fmt d
  nodes : s.nodes.numNodes ≠ 0 → ∀ b ∈ s.nodes.entityBlocks, ∀ d ∈ b.data, Printable cfg.fmt d
  tail : s.TailPrints cfg True

theorem sx_msh41 (cfg : Cfg) (s : MshSpec)
    (hv : s.meshFormat.version = b! "4.1") (ht : s.meshFormat.fileType = 0) (h8 : s.meshFormat.dataSize = 8)
    (hs : s.Ok) (hf : s.Fits cfg)
    (hpar : cfg.asserts = true → ∀ b ∈ s.nodes.entityBlocks, 0 ≤ b.parametric.toInt ∧ b.parametric.toInt ≤ 3)
    (hw : cfg.nanospline = true → Word s.nanosplineVersion) :
    SX cfg (saveMsh cfg s) {} (s.Prints41 cfg) (s.convert cfg.nanospline id (reread cfg.fmt) (reread cfg.fmt)) Lost := by
  rw [saveMsh_eq, MshSpec.convert_eq]
  refine SX.congr (g := (∀ d ∈ s.entities.doubles, Printable cfg.fmt d) ∧
    (s.nodes.numNodes ≠ 0 → ∀ b ∈ s.nodes.entityBlocks, ∀ d ∈ b.data, Printable cfg.fmt d) ∧ s.TailPrints cfg True)
    ?_ ⟨fun h => ⟨h.1, h.2.1, h.2.2⟩, fun h => ⟨h.1, h.2, h.3⟩⟩
  refine SX.sl (slt_meshFormat cfg {} s.meshFormat (Or.inr hv) ht fun _ => h8).sl
    (SX.sl (SL.when (s2 := { meshFormat := s.meshFormat, physicalGroups := s.physicalGroups })
      (fun _ => (slt_physicalNames cfg _ _ rfl hf.groups (hf.len (by simp))).sl) fun hz => ?_)
    (SX.bind (SX.when (s2 := { meshFormat := s.meshFormat, physicalGroups := s.physicalGroups, entities := s.entities.convert (reread cfg.fmt) })
      (fun _ => ⟨fun hg => (slt_entities cfg { meshFormat := s.meshFormat, physicalGroups := s.physicalGroups } _ hv ht rfl
        hf.entities fun d hd => (hg d hd).dtok).sl, fun hg =>
        (wb_entities cfg { meshFormat := s.meshFormat, physicalGroups := s.physicalGroups } _ hv ht rfl
        hf.entities (not_all hg)).mono fun o => ub_lost⟩) fun hz => ?_)
    (SX.bind (SX.when (s2 := { meshFormat := s.meshFormat, physicalGroups := s.physicalGroups, entities := s.entities.convert (reread cfg.fmt), nodes := if s.nodes.numNodes = 0 then {} else s.nodes.convert (reread cfg.fmt) })
      (fun hp => ?_) fun hz => ?_)
    (SX.sl (SL.when (s2 := s.mid41 (reread cfg.fmt)) (fun hp => ?_) fun hz => ?_)
      (sx_tailAscii cfg s _ rfl ht (hs.tail hf hw) (s.mid41_fresh _))))))
  · rw [len_zero hz]
  · rw [entities_empty hz]; exact ⟨rfl, by simp [Entities.doubles]⟩
  · rw [if_neg (u64_pos hp)]
    refine ⟨fun hg => (slt_nodes41 cfg { meshFormat := s.meshFormat, physicalGroups := s.physicalGroups, entities := s.entities.convert (reread cfg.fmt) } _ hv ht rfl (hs.goodNodes hf) hpar
      fun b hb d hd => (hg (u64_pos hp) b hb d hd).dtok).sl, fun hg => ?_⟩
    refine (wb_nodes41 cfg { meshFormat := s.meshFormat, physicalGroups := s.physicalGroups, entities := s.entities.convert (reread cfg.fmt) } _ hv ht rfl (hs.goodNodes hf) hpar ?_).mono
      fun o => deadEnd_lost cfg
    obtain ⟨b, hb, h⟩ := not_all fun h => hg fun _ => h
    exact ⟨b, hb, not_all h⟩
  · rw [if_pos (u64_zero hz)]; exact ⟨rfl, fun h => absurd (u64_zero hz) h⟩
  · unfold MshSpec.mid41
    rw [if_neg (u64_pos hp)]
    exact (slt_elements41 cfg { meshFormat := s.meshFormat, physicalGroups := s.physicalGroups, entities := s.entities.convert (reread cfg.fmt), nodes := if s.nodes.numNodes = 0 then {} else s.nodes.convert (reread cfg.fmt) } _ hv ht rfl (hs.goodElements hf)).sl
  · unfold MshSpec.mid41
    rw [if_pos (u64_zero hz)]

theorem wb_msh41_nodes (cfg : Cfg) (s : MshSpec)
    (hv : s.meshFormat.version = b! "4.1") (ht : s.meshFormat.fileType = 0) (h8 : s.meshFormat.dataSize = 8)
    (hs : s.Ok) (hf : s.Fits cfg)
    (hpar : cfg.asserts = true → ∀ b ∈ s.nodes.entityBlocks, 0 ≤ b.parametric.toInt ∧ b.parametric.toInt ≤ 3)
    (he : ∀ d ∈ s.entities.doubles, Printable cfg.fmt d) (h0 : s.nodes.numNodes ≠ 0)
    (hbad : ∃ b ∈ s.nodes.entityBlocks, ∃ d ∈ b.data, ¬ Printable cfg.fmt d) :
    WB cfg (saveMsh cfg s) {} (· = deadEnd cfg) := by
  rw [saveMsh_eq]
  refine WB.after (slt_meshFormat cfg {} s.meshFormat (Or.inr hv) ht fun _ => h8).sl
    (WB.after (SL.when (s2 := { meshFormat := s.meshFormat, physicalGroups := s.physicalGroups })
      (fun _ => (slt_physicalNames cfg _ _ rfl hf.groups (hf.len (by simp))).sl) fun hz => ?_)
    (WB.after (SL.when (s2 := { meshFormat := s.meshFormat, physicalGroups := s.physicalGroups, entities := s.entities.convert (reread cfg.fmt) })
      (fun _ => (slt_entities cfg { meshFormat := s.meshFormat, physicalGroups := s.physicalGroups } _ hv ht rfl
        hf.entities fun d hd => (he d hd).dtok).sl) fun hz => ?_)
    (WB.first (WB.when ?_ ?_))))
  · rw [len_zero hz]
  · rw [entities_empty hz]; rfl
  · simpa [UInt64.pos_iff_ne_zero] using h0
  · exact wb_nodes41 cfg { meshFormat := s.meshFormat, physicalGroups := s.physicalGroups, entities := s.entities.convert (reread cfg.fmt) } _ hv ht rfl (hs.goodNodes hf) hpar hbad

theorem wb_msh22_nodes (cfg : Cfg) (s : MshSpec)
    (hv : s.meshFormat.version = b! "2.2") (ht : s.meshFormat.fileType = 0)
    (hs : s.Ok) (hf : s.Fits cfg) (hc : s.Counted)
    (h3 : 3 * s.nodes.list.length ≤ cfg.maxCount) (h1 : 1 ≤ cfg.maxCount)
    (hbad : ∃ n ∈ s.nodes.list, ∃ x ∈ [n.x, n.y, n.z], ¬ Printable cfg.fmt x) :
    WB cfg (saveMsh cfg s) {} (· = deadEnd cfg) := by
  rw [saveMsh_eq]
  refine WB.after (slt_meshFormat cfg {} s.meshFormat (Or.inl hv) ht (fun h => by rw [hv] at h; exact absurd h (by decide))).sl
    (WB.after (SL.when (s2 := { meshFormat := s.meshFormat, physicalGroups := s.physicalGroups })
      (fun _ => (slt_physicalNames cfg _ _ rfl hf.groups (hf.len (by simp))).sl) fun hz => ?_)
    (WB.after (SL.when (s2 := { meshFormat := s.meshFormat, physicalGroups := s.physicalGroups })
      (fun _ => ?_) fun hz => rfl)
    (WB.first (WB.when ?_ ?_))))
  · rw [len_zero hz]
  · unfold saveEntities
    rw [if_pos hv]
    exact SL.pure _ _
  · have hl := hc.nodes_list hs
    obtain ⟨n, hn, _⟩ := hbad
    have : 0 < s.nodes.list.length := List.length_pos_of_mem hn
    simp only [decide_eq_true_eq]
    rw [gt_iff_lt, UInt64.lt_iff_toNat_lt, hl]
    simpa using this
  · exact wb_nodes22 cfg { meshFormat := s.meshFormat, physicalGroups := s.physicalGroups } s.nodes hv ht rfl (hs.goodNodes hf)
      (hc.nodes_list hs) h3 h1 hbad

/-- The sections before the data sections. -/
def saveHead (cfg : Cfg) (s : MshSpec) (w : Wr Unit) : Wr Unit :=
  saveMeshFormat s.meshFormat >>= fun _ =>
  whenW (s.physicalGroups.length > 0) (savePhysicalGroups s.physicalGroups) >>= fun _ =>
  whenW (!s.entities.empty) (saveEntities cfg s.meshFormat s.entities) >>= fun _ =>
  whenW (s.nodes.numNodes > 0) (saveNodes cfg s.meshFormat s.nodes) >>= fun _ =>
  whenW (s.elements.numElements > 0) (saveElements s.meshFormat s.elements) >>= fun _ => w

theorem saveMsh_head (cfg : Cfg) (s : MshSpec) : saveMsh cfg s = saveHead cfg s (saveTail cfg s) := rfl

theorem saveHead_eq (cfg : Cfg) (s : MshSpec) (w : Wr Unit) : saveHead cfg s w = saveHead cfg s (pure ()) >>= fun _ => w := by
  simp only [saveHead, Wr.bind_assoc, Wr.pure_bind]

theorem wb_msh41_tags (cfg : Cfg) (s : MshSpec)
    (hv : s.meshFormat.version = b! "4.1") (ht : s.meshFormat.fileType = 1) (h8 : s.meshFormat.dataSize = 8)
    (hs : s.Ok) (hf : s.Fits cfg) (hw : cfg.nanospline = true → Word s.nanosplineVersion)
    (hbad : ∃ x ∈ s.realTags, ¬ Printable cfg.fmt x) :
    WB cfg (saveMsh cfg s) {} (· = .ub) := by
  obtain ⟨x, hx, hp⟩ := hbad
  have hh : SL cfg (saveHead cfg s (pure ())) {} (s.mid41 id) :=
    (sls_msh41_head cfg s hv ht h8 hs hf (SLS.pure _ _)).sl
  rw [saveMsh_head, saveHead_eq]
  exact WB.after hh ((sx_tailBinary cfg s (s.mid41 id) rfl (by rw [ht]; decide) (Or.inl hv) (hs.tail hf hw) (s.mid41_fresh id)).2
    fun h => hp (h x hx))

theorem wb_msh22_tags (cfg : Cfg) (s : MshSpec)
    (hv : s.meshFormat.version = b! "2.2") (ht : s.meshFormat.fileType = 1) (hs : s.Ok) (hf : s.Fits cfg) (hc : s.Counted)
    (h31 : ∀ b ∈ s.elements.entityBlocks, 0 < b.numElementsInBlock.toNat ∧ b.numElementsInBlock.toNat < 2 ^ 31)
    (hw : cfg.nanospline = true → Word s.nanosplineVersion)
    (h3 : 3 * s.nodes.list.length ≤ cfg.maxCount) (h1 : 1 ≤ cfg.maxCount)
    (hfit : (s.elements.list.map fun e => e.nodes.length + 1).sum ≤ cfg.maxCount)
    (hbad : ∃ x ∈ s.realTags, ¬ Printable cfg.fmt x) :
    WB cfg (saveMsh cfg s) {} (· = .ub) := by
  obtain ⟨x, hx, hp⟩ := hbad
  have hh : SL cfg (saveHead cfg s (pure ())) {} (s.mid22 (s.nodes22 wrap32 id) (rawElementsB s)) :=
    (sls_msh22_head cfg s hv ht hs hf hc h31 h3 h1 hfit (SLS.pure _ _)).sl
  rw [saveMsh_head, saveHead_eq]
  exact WB.after hh ((sx_tailBinary cfg s (s.mid22 (s.nodes22 wrap32 id) (rawElementsB s)) rfl (by rw [ht]; decide) (Or.inr hv)
    (hs.tail hf hw) ⟨rfl, rfl, rfl, rfl, rfl, rfl⟩).2 fun h => hp (h x hx))

theorem wb_msh22_tail (cfg : Cfg) (s : MshSpec)
    (hv : s.meshFormat.version = b! "2.2") (ht : s.meshFormat.fileType = 0) (hs : s.Ok) (hf : s.Fits cfg) (hc : s.Counted)
    (h31 : ∀ b ∈ s.elements.entityBlocks, ∀ t ∈ b.data, t.toNat < 2 ^ 31)
    (hw : cfg.nanospline = true → Word s.nanosplineVersion)
    (hd : ∀ n ∈ s.nodes.list, ∀ x ∈ [n.x, n.y, n.z], Printable cfg.fmt x)
    (h3 : 3 * s.nodes.list.length ≤ cfg.maxCount) (h1 : 1 ≤ cfg.maxCount)
    (hfit : (s.elements.list.map fun e => e.nodes.length + 1).sum ≤ cfg.maxCount)
    (hbad : ¬ s.TailPrints cfg True) :
    WB cfg (saveMsh cfg s) {} Lost := by
  have hh : SL cfg (saveHead cfg s (pure ())) {} (s.mid22 (s.nodes22 id (reread cfg.fmt)) (rawElements (s.elems22 wrap32))) :=
    (slt_msh22_head cfg s hv ht hs hf hc h31 (fun n hn x hx => (hd n hn x hx).dtok) h3 h1 hfit (SLT.pure _ _)).sl
  rw [saveMsh_head, saveHead_eq]
  exact WB.after hh ((sx_tailAscii cfg s (s.mid22 (s.nodes22 id (reread cfg.fmt)) (rawElements (s.elems22 wrap32))) rfl ht
    (hs.tail hf hw) ⟨rfl, rfl, rfl, rfl, rfl, rfl⟩).2 hbad)

end MshIO
