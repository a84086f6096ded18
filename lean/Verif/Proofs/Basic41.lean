import Verif.Proofs.Section

/-!
# `$MeshFormat`, `$PhysicalNames`, `$Entities`: written and read back
-/

namespace MshIO

theorem Writes.when {c : Bool} {w : Wr Unit} {b : Bytes} (h : Writes w b) :
    Writes (whenW c w) (if c then b else []) := by
  cases c
  · exact Writes.pure
  · exact h

theorem WritesT.when {c : Bool} {w : Wr Unit} {ts : List Bytes} (h : WritesT w ts) :
    WritesT (whenW c w) (if c then ts else []) := by
  cases c
  · exact WritesT.pure
  · exact h

/-! ## `$MeshFormat` -/

theorem word_41 : Word (b! "4.1") := ⟨by decide, by decide⟩
theorem word_22 : Word (b! "2.2") := ⟨by decide, by decide⟩

theorem word_version {v : Bytes} (h : v = b! "2.2" ∨ v = b! "4.1") : Word v := by
  rcases h with rfl | rfl
  · exact word_22
  · exact word_41

theorem loadMeshFormat_ascii (old f : MeshFormat) (hv : f.version = b! "2.2" ∨ f.version = b! "4.1")
    (ht : f.fileType = 0) (hd : f.version = b! "4.1" → f.dataSize = 8) :
    ReadsT (loadMeshFormat old) [f.version, decI32 f.fileType, decI32 f.dataSize] f := by
  unfold loadMeshFormat
  refine ReadsT.cons (inString_tok _ _ (word_version hv)) ?_
  rw [if_neg (by rintro ⟨h1, h2⟩; rcases hv with h | h <;> contradiction)]
  refine ReadsT.cons (inInt_tok _ _) (ReadsT.cons (inInt_tok _ _) ?_)
  rw [if_neg (by rintro ⟨h1, h2⟩; rw [hd h1] at h2; exact h2 (by decide)), if_neg (by simp [ht])]
  exact ReadsT.pure _

theorem eat_all_nonspace {w rest : Bytes} {c : UInt8} (hw : One w) (hc : isEatSpace c = false) :
    eatWhiteSpace (2 ^ 64 - 1) (gs (w ++ c :: rest)) = .ok ((), gs (c :: rest)) := by
  obtain ⟨d, rfl, hd⟩ := hw
  have : (2 ^ 64 - 1 : Nat) = (2 ^ 64 - 2) + 1 := by decide
  rw [this]
  have h2 : (2 ^ 64 - 2 : Nat) = (2 ^ 64 - 3) + 1 := by decide
  unfold eatWhiteSpace
  simp only [Stream.good, Bool.not_false, Bool.and_self, if_true]
  rw [List.cons_append, eatLoop, if_pos hd, h2, List.nil_append, eatLoop, if_neg (by simp [hc])]

theorem loadMeshFormat_binary (old f : MeshFormat) (hv : f.version = b! "2.2" ∨ f.version = b! "4.1")
    (ht : f.fileType = 1) (hd : f.version = b! "4.1" → f.dataSize = 8) :
    ReadsM (loadMeshFormat old)
      (f.version ++ [32] ++ decI32 f.fileType ++ [32] ++ decI32 f.dataSize ++ [10] ++ encI32 1) f := by
  intro w rest hw hr
  have e : w ++ (f.version ++ [32] ++ decI32 f.fileType ++ [32] ++ decI32 f.dataSize ++ [10] ++ encI32 1) ++ rest
      = w ++ f.version ++ ([32] ++ decI32 f.fileType ++ ([32] ++ decI32 f.dataSize ++ ([10] ++ (encI32 1 ++ rest)))) := by
    simp
  rw [e]
  unfold loadMeshFormat
  rw [Rd.bind_ok (inString_tok _ _ (word_version hv) w _ hw (wsHead_append (wsHead_append one_sp.sep.head)))]
  rw [if_neg (by rintro ⟨h1, h2⟩; rcases hv with h | h <;> contradiction)]
  rw [Rd.bind_ok (inInt_tok _ _ _ _ one_sp.sep.1 (wsHead_append (wsHead_append one_sp.sep.head)))]
  rw [Rd.bind_ok (inInt_tok _ _ _ _ one_sp.sep.1 (wsHead_append one_nl.sep.head))]
  rw [if_neg (by rintro ⟨h1, h2⟩; rw [hd h1] at h2; exact h2 (by decide)), if_pos (by simp [ht])]
  have he : encI32 1 ++ rest = 1 :: ([0, 0, 0] ++ rest) := by
    have : encI32 1 = [1, 0, 0, 0] := by decide
    rw [this]; rfl
  have h3 := eat_all_nonspace (rest := [0, 0, 0] ++ rest) one_nl (c := 1) (by decide)
  rw [← he] at h3
  rw [Rd.bind_ok h3, Rd.bind_ok (readInt_reads 0 1 rest)]
  rfl

theorem loadSection_meshFormat (cfg : Cfg) (spec : MshSpec) :
    loadSection cfg (36 :: b! "MeshFormat") spec =
      (loadMeshFormat spec.meshFormat >>= fun f => pure { spec with meshFormat := f }) := by
  unfold loadSection
  rw [if_pos rfl]

theorem saveMeshFormat_eq (f : MeshFormat) :
    saveMeshFormat f = (emit (b! "$MeshFormat" ++ endl) >>= fun _ =>
      (emit (f.version ++ [32] ++ decI32 f.fileType ++ [32] ++ decI32 f.dataSize ++ endl) >>= fun _ =>
        whenW (f.fileType == 1) (emit (encI32 1))) >>= fun _ => emit (b! "$EndMeshFormat" ++ endl)) := by
  unfold saveMeshFormat
  simp only [Wr.bind_assoc]

theorem slt_meshFormat (cfg : Cfg) (spec : MshSpec) (f : MeshFormat)
    (hv : f.version = b! "2.2" ∨ f.version = b! "4.1")
    (ht : f.fileType = 0) (hd : f.version = b! "4.1" → f.dataSize = 8) :
    SLT cfg ((36 :: b! "MeshFormat") :: ([f.version, decI32 f.fileType, decI32 f.dataSize] ++ [endTag (b! "MeshFormat")]))
      (saveMeshFormat f) spec { spec with meshFormat := f } := by
  rw [saveMeshFormat_eq]
  have hw : whenW (f.fileType == 1) (emit (encI32 1)) = pure () := by rw [ht]; rfl
  have hvt : IsTok f.version := by
    rcases hv with e | e <;> rw [e] <;> exact Word.isTok ⟨by decide, by decide⟩
  rw [hw]
  refine SLT.section (name := b! "MeshFormat") rfl rfl (by decide)
    (WritesT.bind (WritesT.emit [(f.version, [32]), (decI32 f.fileType, [32]), (decI32 f.dataSize, [10])]
      (by simp [one_sp, one_nl, hvt]) (by simp [flat, endl])) WritesT.pure) ?_
  rw [loadSection_meshFormat]
  exact ReadsT.map (loadMeshFormat_ascii _ f hv ht hd) rfl

theorem sls_meshFormat (cfg : Cfg) (spec : MshSpec) (f : MeshFormat)
    (hv : f.version = b! "2.2" ∨ f.version = b! "4.1")
    (ht : f.fileType = 1) (hd : f.version = b! "4.1" → f.dataSize = 8) :
    SLS cfg [(b! "MeshFormat", f.version ++ [32] ++ decI32 f.fileType ++ [32] ++ decI32 f.dataSize ++ endl ++ encI32 1)]
      (saveMeshFormat f) spec { spec with meshFormat := f } := by
  rw [saveMeshFormat_eq]
  refine SLS.section (name := b! "MeshFormat") rfl rfl (by decide)
    (Writes.cast (Writes.bind (Writes.emit _) (Writes.when (Writes.emit _))) (by simp [ht])) ?_
  rw [loadSection_meshFormat, ht]
  refine Rds.cast (Rds.map ((loadMeshFormat_binary spec.meshFormat f hv ht hd).rds one_nl.sep.1) rfl) ?_ rfl
  simp [endl, ht]

/-! ## `$PhysicalNames` -/

/-- Tokens of one physical group. -/
def groupToks (g : PhysicalGroup) : List Bytes := [decI32 g.dim, decI32 g.tag, quoteText g.name]

theorem loadPhysicalGroup_reads (old g : PhysicalGroup) :
    ReadsT (loadPhysicalGroup old) (groupToks g) g := by
  unfold loadPhysicalGroup
  exact ReadsT.cons (inInt_tok _ _) (ReadsT.cons (inInt_tok _ _) (ReadsT.map (inQuoted_tok _ _).readsT rfl))

/-- A nonnegative `int` written by `operator<<(size_t)` is read back by `operator>>(int)`. -/
theorem extractInt_size_tok (n : Nat) (h : n < 2 ^ 31) :
    Tok extractInt (decU64 (UInt64.ofNat n)) (some (Int32.ofNat n)) := by
  have e : decI32 (Int32.ofNat n) = decU64 (UInt64.ofNat n) := by
    have h1 : (Int32.ofNat n).toInt = n := Int32.toInt_ofNat_of_lt h
    unfold decI32 decU64
    rw [h1, if_neg (by omega), ofNat_toNat_lt (by omega)]
    rfl
  rw [← e]
  exact extractInt_tok _

theorem sizeOfInt_ofNat {n : Nat} (h : n < 2 ^ 31) : (sizeOfInt (Int32.ofNat n)).toNat = n := by
  have h1 : (Int32.ofNat n).toInt = n := Int32.toInt_ofNat_of_lt h
  rw [sizeOfInt_toNat (by omega), h1]
  omega

theorem loadPhysicalGroups_reads (cfg : Cfg) (v : List PhysicalGroup) (h : v.length < 2 ^ 31)
    (hc : v.length ≤ cfg.maxCount) :
    ReadsT (loadPhysicalGroups cfg []) (decU64 (sizeU v) :: v.flatMap groupToks) v := by
  unfold loadPhysicalGroups
  refine ReadsT.cons (extractInt_size_tok v.length h) (ReadsT.silent (silent_useVar _)
    (ReadsT.silent (silent_resize_nil _ _ _ (by rw [sizeOfInt_ofNat h]; exact hc)) ?_))
  rw [sizeOfInt_ofNat h]
  have := ReadsT.forEach (f := loadPhysicalGroup) (toks := groupToks) (g := id) (d := {}) v
    (fun c _ => loadPhysicalGroup_reads _ c)
  rw [List.map_id] at this
  exact ReadsT.last this (ReadsT.silent (silent_assertGood cfg) (ReadsT.pure v))

theorem savePhysicalGroups_writes (v : List PhysicalGroup) :
    WritesT (emit (decU64 (sizeU v) ++ endl) >>= fun _ =>
      forW (fun g => emit (decI32 g.dim ++ [32] ++ decI32 g.tag ++ [32] ++ quoteText g.name ++ endl)) v)
      (decU64 (sizeU v) :: v.flatMap groupToks) := by
  refine WritesT.bind (WritesT.emit [(decU64 (sizeU v), [10])] (by simp [one_nl]) (by simp [flat, endl])) ?_
  refine WritesT.forW v fun g _ => ?_
  exact WritesT.emit [(decI32 g.dim, [32]), (decI32 g.tag, [32]), (quoteText g.name, [10])]
    (by simp [one_sp, one_nl]) (by simp [flat, endl])

theorem loadSection_physicalNames (cfg : Cfg) (spec : MshSpec) :
    loadSection cfg (36 :: b! "PhysicalNames") spec =
      (loadPhysicalGroups cfg spec.physicalGroups >>= fun f => pure { spec with physicalGroups := f }) := by
  unfold loadSection
  rw [if_neg (by decide), if_neg (by decide), if_pos rfl]

theorem slt_physicalNames (cfg : Cfg) (spec : MshSpec) (v : List PhysicalGroup)
    (h0 : spec.physicalGroups = []) (h : v.length < 2 ^ 31) (hc : v.length ≤ cfg.maxCount) :
    SLT cfg ((36 :: b! "PhysicalNames") :: ((decU64 (sizeU v) :: v.flatMap groupToks) ++ [endTag (b! "PhysicalNames")]))
      (savePhysicalGroups v) spec { spec with physicalGroups := v } := by
  have hassoc : savePhysicalGroups v = (emit (b! "$PhysicalNames" ++ endl) >>= fun _ =>
      (emit (decU64 (sizeU v) ++ endl) >>= fun _ =>
      forW (fun g => emit (decI32 g.dim ++ [32] ++ decI32 g.tag ++ [32] ++ quoteText g.name ++ endl)) v)
      >>= fun _ => emit (b! "$EndPhysicalNames" ++ endl)) := by
    unfold savePhysicalGroups
    simp only [Wr.bind_assoc]
  rw [hassoc]
  refine SLT.section (name := b! "PhysicalNames") rfl rfl (by decide) (savePhysicalGroups_writes v) ?_
  rw [loadSection_physicalNames, h0]
  exact ReadsT.map (loadPhysicalGroups_reads cfg v h hc) rfl

/-- Text of the physical groups. -/
def namesText (v : List PhysicalGroup) : Bytes :=
  decU64 (sizeU v) ++ endl ++ v.flatMap fun g => decI32 g.dim ++ [32] ++ decI32 g.tag ++ [32] ++ quoteText g.name ++ endl

theorem sls_physicalNames (cfg : Cfg) (spec : MshSpec) (v : List PhysicalGroup)
    (h0 : spec.physicalGroups = []) (h : v.length < 2 ^ 31) (hc : v.length ≤ cfg.maxCount) :
    SLS cfg [(b! "PhysicalNames", namesText v)] (savePhysicalGroups v) spec { spec with physicalGroups := v } := by
  have hassoc : savePhysicalGroups v = (emit (b! "$PhysicalNames" ++ endl) >>= fun _ =>
      (emit (decU64 (sizeU v) ++ endl) >>= fun _ =>
      forW (fun g => emit (decI32 g.dim ++ [32] ++ decI32 g.tag ++ [32] ++ quoteText g.name ++ endl)) v)
      >>= fun _ => emit (b! "$EndPhysicalNames" ++ endl)) := by
    unfold savePhysicalGroups
    simp only [Wr.bind_assoc]
  rw [hassoc]
  refine SLS.text (name := b! "PhysicalNames") rfl rfl (by decide) (savePhysicalGroups_writes v)
    (Writes.bind (Writes.emit _) (Writes.forW _ fun g _ => Writes.emit _)) ?_
  rw [loadSection_physicalNames, h0]
  exact ReadsT.map (loadPhysicalGroups_reads cfg v h hc) rfl

/-! ## `$Entities`, ASCII -/

/-- Tokens of a counted list. -/
def intListToks (v : List Int32) : List Bytes := decU64 (sizeU v) :: v.map decI32

theorem loadIntListAscii_reads (cfg : Cfg) (v : List Int32) (hc : v.length ≤ cfg.maxCount) :
    ReadsT (loadIntListAscii cfg []) (intListToks v) v := by
  have hl : (sizeU v).toNat = v.length := sizeU_toNat (by have := cfg.maxCount_lt; omega)
  unfold loadIntListAscii
  refine ReadsT.cons (extractSize_tok _) (ReadsT.silent (silent_useVar _)
    (ReadsT.silent (silent_resize_nil _ _ _ (by rw [hl]; exact hc)) ?_))
  rw [hl]
  exact readsT_ints v

theorem intListAscii_writes (v : List Int32) {tail : Bytes} (ht : One tail) :
    WritesT (emit (intListAscii v ++ tail)) (intListToks v) := by
  have key : ∀ (v : List Int32) (t : Bytes), IsTok t → ∃ ps : List (Bytes × Bytes), ps.map Prod.fst = t :: v.map decI32 ∧
      (∀ q ∈ ps, IsTok q.1 ∧ One q.2) ∧ t ++ v.flatMap (fun t => [32] ++ decI32 t) ++ tail = flat ps := by
    intro v
    induction v with
    | nil => intro t hk; exact ⟨[(t, tail)], by simp, by simpa using ⟨hk, ht⟩, by simp [flat]⟩
    | cons a v ih =>
      intro t hk
      obtain ⟨ps, h1, h2, h3⟩ := ih (decI32 a) (by simp)
      refine ⟨(t, [32]) :: ps, by simp [h1], ?_, ?_⟩
      · intro q hq
        rcases List.mem_cons.mp hq with h | h
        · rw [h]; exact ⟨hk, one_sp⟩
        · exact h2 q h
      · have : flat ((t, [32]) :: ps) = t ++ [32] ++ flat ps := by simp [flat]
        rw [this, ← h3]
        simp
  obtain ⟨ps, h1, h2, h3⟩ := key v (decU64 (sizeU v)) (by simp)
  exact ⟨ps, h1, h2, by rw [← h3]; rfl⟩

/-- Tokens of a point entity. -/
def pointToks (P : Fmt) (p : PointEntity) : List Bytes :=
  [decI32 p.tag, fmtDouble P p.x, fmtDouble P p.y, fmtDouble P p.z] ++ intListToks p.physicalGroupTags

/-- Tokens of a curve, surface or volume entity. -/
def boxToks (P : Fmt) (p : BoxEntity) : List Bytes :=
  decI32 p.tag :: fmtDouble P p.minX :: fmtDouble P p.minY :: fmtDouble P p.minZ ::
    fmtDouble P p.maxX :: fmtDouble P p.maxY :: fmtDouble P p.maxZ ::
  (intListToks p.physicalGroupTags ++ intListToks p.boundaryTags)

theorem loadPointAscii_reads (cfg : Cfg) {rd : Double → Double} (p : PointEntity)
    (hd : ∀ d ∈ [p.x, p.y, p.z], DTok cfg.fmt rd d)
    (hc : p.physicalGroupTags.length ≤ cfg.maxCount) :
    ReadsT (loadPointAscii cfg {}) (pointToks cfg.fmt p) (p.convert rd) := by
  unfold loadPointAscii
  refine ReadsT.cons (inInt_tok _ _) (ReadsT.cons (hd p.x (by simp) _) (ReadsT.cons (hd p.y (by simp) _)
    (ReadsT.cons (hd p.z (by simp) _) ?_)))
  exact ReadsT.map (loadIntListAscii_reads cfg p.physicalGroupTags hc) rfl

theorem loadBoxAscii_reads (cfg : Cfg) {rd : Double → Double} (p : BoxEntity)
    (hd : ∀ d ∈ [p.minX, p.minY, p.minZ, p.maxX, p.maxY, p.maxZ], DTok cfg.fmt rd d)
    (hc : p.physicalGroupTags.length ≤ cfg.maxCount) (hc2 : p.boundaryTags.length ≤ cfg.maxCount) :
    ReadsT (loadBoxAscii cfg {}) (boxToks cfg.fmt p) (p.convert rd) := by
  unfold loadBoxAscii
  refine ReadsT.cons (inInt_tok _ _) (ReadsT.cons (hd p.minX (by simp) _) (ReadsT.cons (hd p.minY (by simp) _)
    (ReadsT.cons (hd p.minZ (by simp) _) (ReadsT.cons (hd p.maxX (by simp) _)
    (ReadsT.cons (hd p.maxY (by simp) _) (ReadsT.cons (hd p.maxZ (by simp) _) ?_))))))
  exact ReadsT.bind (loadIntListAscii_reads cfg p.physicalGroupTags hc)
    (ReadsT.map (loadIntListAscii_reads cfg p.boundaryTags hc2) rfl)

theorem savePointAscii_writes (cfg : Cfg) (p : PointEntity) :
    WritesT (savePointAscii cfg p) (pointToks cfg.fmt p) := by
  unfold savePointAscii
  exact WritesT.bind (WritesT.emit [(decI32 p.tag, [32]), (fmtDouble cfg.fmt p.x, [32]),
    (fmtDouble cfg.fmt p.y, [32]), (fmtDouble cfg.fmt p.z, [32])]
    (by simp [one_sp]) (by simp [flat])) (intListAscii_writes _ one_nl)

theorem saveBoxAscii_writes (cfg : Cfg) (p : BoxEntity) :
    WritesT (saveBoxAscii cfg p) (boxToks cfg.fmt p) := by
  unfold saveBoxAscii
  exact WritesT.bind (WritesT.emit [(decI32 p.tag, [32]), (fmtDouble cfg.fmt p.minX, [32]),
    (fmtDouble cfg.fmt p.minY, [32]), (fmtDouble cfg.fmt p.minZ, [32]),
    (fmtDouble cfg.fmt p.maxX, [32]), (fmtDouble cfg.fmt p.maxY, [32]),
    (fmtDouble cfg.fmt p.maxZ, [32])]
    (by simp [one_sp]) (by simp [flat]))
    (WritesT.bind (intListAscii_writes _ one_sp) (intListAscii_writes _ one_nl))

/-- Doubles of the entities. -/
def Entities.doubles (e : Entities) : List Double :=
  e.points.flatMap (fun p => [p.x, p.y, p.z]) ++
  (e.curves ++ e.surfaces ++ e.volumes).flatMap
    (fun b => [b.minX, b.minY, b.minZ, b.maxX, b.maxY, b.maxZ])

/-- Vector sizes of the entities. -/
def Entities.sizes (e : Entities) : List Nat :=
  [e.points.length, e.curves.length, e.surfaces.length, e.volumes.length] ++
  e.points.map (·.physicalGroupTags.length) ++
  (e.curves ++ e.surfaces ++ e.volumes).flatMap
    (fun b => [b.physicalGroupTags.length, b.boundaryTags.length])

/-- Apply a function to the coordinates. -/
def Entities.convert (g : Double → Double) (e : Entities) : Entities where
  points := e.points.map (·.convert g)
  curves := e.curves.map (·.convert g)
  surfaces := e.surfaces.map (·.convert g)
  volumes := e.volumes.map (·.convert g)

/-- Tokens of the section. -/
def entitiesToks (P : Fmt) (e : Entities) : List Bytes :=
  decU64 (sizeU e.points) :: decU64 (sizeU e.curves) :: decU64 (sizeU e.surfaces) ::
  decU64 (sizeU e.volumes) :: (e.points.flatMap (pointToks P) ++ (e.curves.flatMap (boxToks P) ++
    (e.surfaces.flatMap (boxToks P) ++ e.volumes.flatMap (boxToks P))))

theorem loadEntitiesAscii41_reads (cfg : Cfg) {rd : Double → Double} (e : Entities)
    (hd : ∀ d ∈ e.doubles, DTok cfg.fmt rd d) (hc : ∀ n ∈ e.sizes, n ≤ cfg.maxCount) :
    ReadsT (loadEntitiesAscii41 cfg {}) (entitiesToks cfg.fmt e) (e.convert rd) := by
  have hp : ∀ p ∈ e.points, ReadsT (loadPointAscii cfg {}) (pointToks cfg.fmt p) (p.convert rd) := by
    intro p hp
    refine loadPointAscii_reads cfg p (fun d h => hd d ?_) (hc _ ?_)
    · exact List.mem_append_left _ (List.mem_flatMap.mpr ⟨p, hp, h⟩)
    · refine List.mem_append_left _ (List.mem_append_right _ (List.mem_map.mpr ⟨p, hp, rfl⟩))
  have hb : ∀ p ∈ e.curves ++ e.surfaces ++ e.volumes,
      ReadsT (loadBoxAscii cfg {}) (boxToks cfg.fmt p) (p.convert rd) := by
    intro p hp
    refine loadBoxAscii_reads cfg p (fun d h => hd d ?_) (hc _ ?_) (hc _ ?_)
    · exact List.mem_append_right _ (List.mem_flatMap.mpr ⟨p, hp, h⟩)
    · exact List.mem_append_right _ (List.mem_flatMap.mpr ⟨p, hp, by simp⟩)
    · exact List.mem_append_right _ (List.mem_flatMap.mpr ⟨p, hp, by simp⟩)
  have hlt := cfg.maxCount_lt
  have c1 := hc e.points.length (by simp [Entities.sizes])
  have c2 := hc e.curves.length (by simp [Entities.sizes])
  have c3 := hc e.surfaces.length (by simp [Entities.sizes])
  have c4 := hc e.volumes.length (by simp [Entities.sizes])
  have l1 : (sizeU e.points).toNat = e.points.length := sizeU_toNat (by omega)
  have l2 : (sizeU e.curves).toNat = e.curves.length := sizeU_toNat (by omega)
  have l3 : (sizeU e.surfaces).toNat = e.surfaces.length := sizeU_toNat (by omega)
  have l4 : (sizeU e.volumes).toNat = e.volumes.length := sizeU_toNat (by omega)
  unfold loadEntitiesAscii41
  refine ReadsT.cons (extractSize_tok _) (ReadsT.cons (extractSize_tok _) (ReadsT.cons (extractSize_tok _)
    (ReadsT.cons (extractSize_tok _) (ReadsT.silent (silent_assertGood cfg) ?_))))
  refine ReadsT.silent (silent_useVar _) (ReadsT.silent (silent_resize_nil _ _ _ (by omega)) ?_)
  refine ReadsT.silent (silent_useVar _) (ReadsT.silent (silent_resize_nil _ _ _ (by omega)) ?_)
  refine ReadsT.silent (silent_useVar _) (ReadsT.silent (silent_resize_nil _ _ _ (by omega)) ?_)
  refine ReadsT.silent (silent_useVar _) (ReadsT.silent (silent_resize_nil _ _ _ (by omega)) ?_)
  rw [l1, l2, l3, l4]
  refine ReadsT.bind (ReadsT.forEach e.points hp) ?_
  refine ReadsT.bind (ReadsT.forEach e.curves fun p hp => hb p (by simp [hp])) ?_
  refine ReadsT.bind (ReadsT.forEach e.surfaces fun p hp => hb p (by simp [hp])) ?_
  exact ReadsT.last (ReadsT.forEach e.volumes fun p hp => hb p (by simp [hp]))
    (ReadsT.silent (silent_assertGood cfg) (ReadsT.pure (e.convert rd)))

theorem saveEntitiesAscii41_writes (cfg : Cfg) (e : Entities) :
    WritesT (saveEntitiesAscii41 cfg e) (entitiesToks cfg.fmt e) := by
  unfold saveEntitiesAscii41
  exact WritesT.bind (WritesT.emit [(decU64 (sizeU e.points), [32]), (decU64 (sizeU e.curves), [32]),
    (decU64 (sizeU e.surfaces), [32]), (decU64 (sizeU e.volumes), [10])]
    (by simp [one_sp, one_nl]) (by simp [flat, endl]))
    (WritesT.bind (WritesT.forW _ fun p _ => savePointAscii_writes cfg p)
    (WritesT.bind (WritesT.forW _ fun p _ => saveBoxAscii_writes cfg p)
    (WritesT.bind (WritesT.forW _ fun p _ => saveBoxAscii_writes cfg p)
    (WritesT.forW _ fun p _ => saveBoxAscii_writes cfg p))))

/-! ## `$Entities`, binary -/

theorem loadIntListBinary_reads (cfg : Cfg) (v : List Int32) (hc : v.length ≤ cfg.maxCount) :
    ReadsB (loadIntListBinary cfg []) (intListBinary v) v := by
  have hl : (sizeU v).toNat = v.length := sizeU_toNat (by have := cfg.maxCount_lt; omega)
  unfold loadIntListBinary
  refine ReadsB.bind (readSizeVar_reads _) (ReadsB.silent (silent_assertGood _)
    (ReadsB.silent (silent_useVar _) (ReadsB.silent (silent_resize_nil _ _ _ (by rw [hl]; exact hc)) ?_)))
  rw [hl]
  exact ReadsB.last (readInts_reads (List.replicate v.length 0) v (by simp))
    (ReadsB.silent (silent_assertGood cfg) (ReadsB.pure v))

/-- Bytes of a point entity. -/
def pointEnc (p : PointEntity) : Bytes :=
  encI32 p.tag ++ (encDouble p.x ++ (encDouble p.y ++ (encDouble p.z ++ intListBinary p.physicalGroupTags)))

/-- Bytes of a curve, surface or volume entity. -/
def boxEnc (p : BoxEntity) : Bytes :=
  encI32 p.tag ++ (encDouble p.minX ++ (encDouble p.minY ++ (encDouble p.minZ ++ (encDouble p.maxX ++
  (encDouble p.maxY ++ (encDouble p.maxZ ++ (intListBinary p.physicalGroupTags ++ intListBinary p.boundaryTags)))))))

theorem loadPointBinary_reads (cfg : Cfg) (p : PointEntity)
    (hc : p.physicalGroupTags.length ≤ cfg.maxCount) :
    ReadsB (loadPointBinary cfg {}) (pointEnc p) p := by
  unfold loadPointBinary
  exact ReadsB.bind (readInt_reads _ _) (ReadsB.bind (readDouble_reads _ _)
    (ReadsB.bind (readDouble_reads _ _) (ReadsB.bind (readDouble_reads _ _)
    (ReadsB.map (loadIntListBinary_reads cfg p.physicalGroupTags hc) rfl))))

theorem loadBoxBinary_reads (cfg : Cfg) (p : BoxEntity)
    (hc : p.physicalGroupTags.length ≤ cfg.maxCount) (hc2 : p.boundaryTags.length ≤ cfg.maxCount) :
    ReadsB (loadBoxBinary cfg {}) (boxEnc p) p := by
  unfold loadBoxBinary
  exact ReadsB.bind (readInt_reads _ _) (ReadsB.bind (readDouble_reads _ _)
    (ReadsB.bind (readDouble_reads _ _) (ReadsB.bind (readDouble_reads _ _)
    (ReadsB.bind (readDouble_reads _ _) (ReadsB.bind (readDouble_reads _ _) (ReadsB.bind (readDouble_reads _ _)
    (ReadsB.bind (loadIntListBinary_reads cfg p.physicalGroupTags hc)
    (ReadsB.map (loadIntListBinary_reads cfg p.boundaryTags hc2) rfl))))))))

theorem savePointBinary_writes (p : PointEntity) : Writes (savePointBinary p) (pointEnc p) := by
  unfold savePointBinary
  exact Writes.cast (Writes.bind (Writes.emit _) (Writes.emit _)) (by simp [pointEnc])

theorem saveBoxBinary_writes (p : BoxEntity) : Writes (saveBoxBinary p) (boxEnc p) := by
  unfold saveBoxBinary
  exact Writes.cast (Writes.bind (Writes.emit _) (Writes.bind (Writes.emit _) (Writes.emit _)))
    (by simp [boxEnc])

/-- Bytes of the section. -/
def entitiesEnc (e : Entities) : Bytes :=
  encU64 (sizeU e.points) ++ (encU64 (sizeU e.curves) ++ (encU64 (sizeU e.surfaces) ++
  (encU64 (sizeU e.volumes) ++ (e.points.flatMap pointEnc ++ (e.curves.flatMap boxEnc ++
    (e.surfaces.flatMap boxEnc ++ e.volumes.flatMap boxEnc))))))

theorem PointEntity.convert_id (p : PointEntity) : p.convert id = p := rfl
theorem BoxEntity.convert_id (p : BoxEntity) : p.convert id = p := rfl

theorem Entities.convert_id (e : Entities) : e.convert id = e := by
  have h1 : (fun p : PointEntity => p.convert id) = id := rfl
  have h2 : (fun p : BoxEntity => p.convert id) = id := rfl
  unfold Entities.convert
  rw [h1, h2]
  simp

theorem loadEntitiesBinary41_reads (cfg : Cfg) (e : Entities) (hc : ∀ n ∈ e.sizes, n ≤ cfg.maxCount)
    {w : Bytes} (hw : One w) :
    Rds (loadEntitiesBinary41 cfg {}) (w ++ entitiesEnc e) e := by
  have hp : ∀ p ∈ e.points, ReadsB (loadPointBinary cfg {}) (pointEnc p) (id p) := by
    intro p hp
    refine loadPointBinary_reads cfg p (hc _ ?_)
    refine List.mem_append_left _ (List.mem_append_right _ (List.mem_map.mpr ⟨p, hp, rfl⟩))
  have hb : ∀ p ∈ e.curves ++ e.surfaces ++ e.volumes,
      ReadsB (loadBoxBinary cfg {}) (boxEnc p) (id p) := by
    intro p hp
    refine loadBoxBinary_reads cfg p (hc _ ?_) (hc _ ?_)
    · exact List.mem_append_right _ (List.mem_flatMap.mpr ⟨p, hp, by simp⟩)
    · exact List.mem_append_right _ (List.mem_flatMap.mpr ⟨p, hp, by simp⟩)
  have hlt := cfg.maxCount_lt
  have c1 := hc e.points.length (by simp [Entities.sizes])
  have c2 := hc e.curves.length (by simp [Entities.sizes])
  have c3 := hc e.surfaces.length (by simp [Entities.sizes])
  have c4 := hc e.volumes.length (by simp [Entities.sizes])
  have l1 : (sizeU e.points).toNat = e.points.length := sizeU_toNat (by omega)
  have l2 : (sizeU e.curves).toNat = e.curves.length := sizeU_toNat (by omega)
  have l3 : (sizeU e.surfaces).toNat = e.surfaces.length := sizeU_toNat (by omega)
  have l4 : (sizeU e.volumes).toNat = e.volumes.length := sizeU_toNat (by omega)
  unfold loadEntitiesBinary41
  refine ReadsB.rds_eat ?_ ?_ hw
  · refine ReadsB.bind (readSizeVar_reads _) (ReadsB.bind (readSizeVar_reads _) (ReadsB.bind (readSizeVar_reads _)
      (ReadsB.bind (readSizeVar_reads _) (ReadsB.silent (silent_assertGood cfg) ?_))))
    refine ReadsB.silent (silent_useVar _) (ReadsB.silent (silent_resize_nil _ _ _ (by omega)) ?_)
    refine ReadsB.silent (silent_useVar _) (ReadsB.silent (silent_resize_nil _ _ _ (by omega)) ?_)
    refine ReadsB.silent (silent_useVar _) (ReadsB.silent (silent_resize_nil _ _ _ (by omega)) ?_)
    refine ReadsB.silent (silent_useVar _) (ReadsB.silent (silent_resize_nil _ _ _ (by omega)) ?_)
    rw [l1, l2, l3, l4]
    refine ReadsB.bind (ReadsB.forEach e.points hp) ?_
    refine ReadsB.bind (ReadsB.forEach e.curves fun p hp => hb p (by simp [hp])) ?_
    refine ReadsB.bind (ReadsB.forEach e.surfaces fun p hp => hb p (by simp [hp])) ?_
    exact ReadsB.map (ReadsB.forEach e.volumes fun p hp => hb p (by simp [hp])) (by simp)
  · intro h
    have := congrArg List.length h
    simp [entitiesEnc] at this

theorem saveEntitiesBinary41_writes (e : Entities) : Writes (saveEntitiesBinary41 e) (entitiesEnc e) := by
  unfold saveEntitiesBinary41
  exact Writes.cast (Writes.bind (Writes.emit _)
    (Writes.bind (Writes.forW _ fun p _ => savePointBinary_writes p)
    (Writes.bind (Writes.forW _ fun p _ => saveBoxBinary_writes p)
    (Writes.bind (Writes.forW _ fun p _ => saveBoxBinary_writes p)
    (Writes.forW _ fun p _ => saveBoxBinary_writes p))))) (by simp [entitiesEnc])

theorem loadSection_entities (cfg : Cfg) (spec : MshSpec) :
    loadSection cfg (36 :: b! "Entities") spec =
      (loadEntities cfg spec.meshFormat spec.entities >>= fun f => pure { spec with entities := f }) := by
  unfold loadSection
  rw [if_neg (by decide), if_pos rfl]

theorem slt_entities (cfg : Cfg) (spec : MshSpec) (e : Entities) {rd : Double → Double}
    (hv : spec.meshFormat.version = b! "4.1") (ht : spec.meshFormat.fileType = 0)
    (h0 : spec.entities = {}) (hc : ∀ n ∈ e.sizes, n ≤ cfg.maxCount)
    (hd : ∀ d ∈ e.doubles, DTok cfg.fmt rd d) :
    SLT cfg ((36 :: b! "Entities") :: (entitiesToks cfg.fmt e ++ [endTag (b! "Entities")]))
      (saveEntities cfg spec.meshFormat e) spec { spec with entities := e.convert rd } := by
  unfold saveEntities
  rw [if_neg (by rw [hv]; decide)]
  simp only [hv, if_true, if_pos ht]
  refine SLT.section (name := b! "Entities") rfl rfl (by decide) (saveEntitiesAscii41_writes cfg e) ?_
  rw [loadSection_entities, h0]
  unfold loadEntities
  rw [if_pos hv, if_pos ht]
  exact ReadsT.map (loadEntitiesAscii41_reads cfg e hd hc) rfl

theorem sls_entities (cfg : Cfg) (spec : MshSpec) (e : Entities)
    (hv : spec.meshFormat.version = b! "4.1") (ht : spec.meshFormat.fileType ≠ 0)
    (h0 : spec.entities = {}) (hc : ∀ n ∈ e.sizes, n ≤ cfg.maxCount) :
    SLS cfg [(b! "Entities", entitiesEnc e)] (saveEntities cfg spec.meshFormat e) spec { spec with entities := e } := by
  unfold saveEntities
  rw [if_neg (by rw [hv]; decide)]
  simp only [hv, if_true, if_neg ht]
  refine SLS.section (name := b! "Entities") rfl rfl (by decide) (saveEntitiesBinary41_writes e) ?_
  rw [loadSection_entities, h0]
  unfold loadEntities
  rw [if_pos hv, if_neg ht]
  exact Rds.map (loadEntitiesBinary41_reads cfg e hc one_nl) rfl

end MshIO
