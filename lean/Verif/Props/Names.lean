import Verif.Props.RoundTrip41
import Verif.Props.RoundTrip22
import Verif.Props.Demo

/-!
# C09: names and string tags may contain any bytes
-/

namespace MshIO

/-- All names in a spec: physical groups with their names, and the string tags of every data section. -/
def MshSpec.names (s : MshSpec) : List PhysicalGroup × List (List Bytes) × List (List Bytes) × List (List Bytes) :=
  (s.physicalGroups, s.nodeData.map (·.header.stringTags), s.elementData.map (·.header.stringTags),
    s.elementNodeData.map (·.header.stringTags))

theorem convert_names (ext : Bool) (t : UInt64 → UInt64) (f g : Double → Double) (s : MshSpec) :
    (s.convert ext t f g).names = s.names := by
  simp [MshSpec.names, MshSpec.convert, Data.convert]

theorem convert22_names (ext : Bool) (t w : UInt64 → UInt64) (f g : Double → Double) (s : MshSpec) :
    (s.convert22 ext t w f g).names = s.names := by
  rw [← convert_names ext t f g s]; rfl

/-! ## The theorems -/

/-- **C09**, any v4.1 binary spec: whatever bytes the names and string tags consist of, they come back. -/
theorem C09_binary41 (cfg : Cfg) (s : MshSpec) (hfmt : s.meshFormat = ⟨b! "4.1", 1, 8⟩) (hs : s.Ok)
    (hf : s.Fits cfg) (hreal : ∀ x ∈ s.realTags, Printable cfg.fmt x)
    (hw : cfg.nanospline = true → Word s.nanosplineVersion) :
    ∃ file s', saveMsh cfg s = (file, .ok ()) ∧ loadMsh cfg file = .ok s' ∧ s'.names = s.names := by
  obtain ⟨file, h1, h2⟩ := C01_binary41 cfg s hfmt hs hf hreal hw
  exact ⟨file, _, h1, h2, convert_names _ _ _ _ s⟩

/-- **C09**, any v4.1 ASCII spec. -/
theorem C09_ascii41 (cfg : Cfg) (s : MshSpec) (hfmt : s.meshFormat = ⟨b! "4.1", 0, 8⟩) (hs : s.Ok)
    (hf : s.Fits cfg) (hd : ∀ x ∈ s.doubles, Printable cfg.fmt x)
    (hpar : cfg.asserts = true → ∀ b ∈ s.nodes.entityBlocks, 0 ≤ b.parametric.toInt ∧ b.parametric.toInt ≤ 3)
    (hw : cfg.nanospline = true → Word s.nanosplineVersion) :
    ∃ file s', saveMsh cfg s = (file, .ok ()) ∧ loadMsh cfg file = .ok s' ∧ s'.names = s.names := by
  obtain ⟨file, h1, h2⟩ := C02_ascii41 cfg s hfmt hs hf hd hpar hw
  exact ⟨file, _, h1, h2, convert_names _ _ _ _ s⟩

/-- **C09**, any v2.2 binary spec. -/
theorem C09_binary22 (cfg : Cfg) (s : MshSpec) {d : Int32} (hfmt : s.meshFormat = ⟨b! "2.2", 1, d⟩) (hs : s.Ok) (hc : s.Counted)
    (hf : s.Fits cfg) (hblk : ∀ b ∈ s.elements.entityBlocks, 0 < b.numElementsInBlock.toNat ∧ b.numElementsInBlock.toNat < 2 ^ 31)
    (hreal : ∀ x ∈ s.realTags, Printable cfg.fmt x)
    (hr : NodesInRange (s.nodes22 wrap32 id) (s.elems22 wrap32)) (hfit : Fits22 cfg (s.nodes22 wrap32 id) (s.elems22 wrap32))
    (hw : cfg.nanospline = true → Word s.nanosplineVersion) :
    ∃ file s', saveMsh cfg s = (file, .ok ()) ∧ loadMsh cfg file = .ok s' ∧ s'.names = s.names := by
  obtain ⟨file, lo, hi, h1, h2⟩ := C03_binary22_any cfg s hfmt hs hc hf hblk hreal hr hfit hw
  exact ⟨file, _, h1, h2, convert22_names cfg.nanospline wrap32 wrap32 (reread cfg.fmt) id s⟩

/-- **C09**, any v2.2 ASCII spec. -/
theorem C09_ascii22 (cfg : Cfg) (s : MshSpec) {d : Int32} (hfmt : s.meshFormat = ⟨b! "2.2", 0, d⟩) (hs : s.Ok) (hc : s.Counted)
    (hf : s.Fits cfg) (hetag : ∀ b ∈ s.elements.entityBlocks, ∀ t ∈ b.data, t.toNat < 2 ^ 31)
    (hd : ∀ x ∈ s.doubles22, Printable cfg.fmt x)
    (hr : NodesInRange s.nodes.list s.elements.list) (hfit : Fits22 cfg s.nodes.list s.elements.list)
    (hw : cfg.nanospline = true → Word s.nanosplineVersion) :
    ∃ file s', saveMsh cfg s = (file, .ok ()) ∧ loadMsh cfg file = .ok s' ∧ s'.names = s.names := by
  obtain ⟨file, h1, h2⟩ := C04_ascii22 cfg s hfmt hs hc hf hetag hd hr hfit hw
  exact ⟨file, _, h1, h2, convert22_names _ _ _ _ _ s⟩

/-- A spec made of names only: physical groups, and one data section of each kind with the given string tags and
no entries. -/
def onlyNames (fmt : MeshFormat) (groups : List PhysicalGroup) (strs strs' strs'' : List Bytes) : MshSpec :=
  { meshFormat := fmt
    physicalGroups := groups
    nodeData := [⟨⟨strs, [], [0, 1, 0]⟩, []⟩]
    elementData := [⟨⟨strs', [], [0, 1, 0]⟩, []⟩]
    elementNodeData := [⟨⟨strs'', [], [0, 1, 0]⟩, []⟩] }

/-- **C09** without side conditions: any groups with any names, any string tags, in any of the four formats, are
saved and loaded exactly (as far as memory allows). -/
theorem C09_any_names (cfg : Cfg) (fmt : MeshFormat) (groups : List PhysicalGroup) (strs strs' strs'' : List Bytes)
    (hfmt : fmt ∈ [⟨b! "4.1", 1, 8⟩, ⟨b! "4.1", 0, 8⟩, ⟨b! "2.2", 1, 8⟩, ⟨b! "2.2", 0, 8⟩])
    (hgroups : groups.length < 2 ^ 31 ∧ groups.length ≤ cfg.maxCount)
    (hmem : 3 ≤ cfg.maxCount ∧ strs.length ≤ cfg.maxCount ∧ strs'.length ≤ cfg.maxCount ∧ strs''.length ≤ cfg.maxCount) :
    ∃ file, saveMsh cfg (onlyNames fmt groups strs strs' strs'') = (file, .ok ()) ∧
      loadMsh cfg file = .ok (onlyNames fmt groups strs strs' strs'') := by
  have hw : Word (b! "1.0") := ⟨by decide, by decide⟩
  have hok : (onlyNames fmt groups strs strs' strs'').Ok := by
    refine ⟨rfl, by simp [onlyNames], rfl, by simp [onlyNames], ?_, ?_, ?_, by simp [onlyNames], by simp [onlyNames]⟩
    all_goals
      simp only [onlyNames, List.mem_singleton]
      rintro d rfl
      exact ⟨0, 1, 0, [], rfl, show (0 : Int32).toInt = ((0 : Nat) : Int) by decide, by decide, by simp⟩
  have hfit : (onlyNames fmt groups strs strs' strs'').Fits cfg := by
    refine ⟨?_, hgroups.1⟩
    simp only [MshSpec.sizes, onlyNames]
    simp only [Data.sizes, List.length_nil, List.length_cons, List.map_nil, List.append_nil, List.flatMap_nil, List.nil_append, List.cons_append,
      List.flatMap_cons, List.mem_cons, List.not_mem_nil, or_false]
    intro n hn
    omega
  have hplain : ∀ e, (onlyNames fmt groups strs strs' strs'').Plain e :=
    fun e => ⟨fun _ => rfl, fun _ => rfl, by simp [onlyNames], fun _ => ⟨rfl, rfl, rfl⟩⟩
  have hcount : (onlyNames fmt groups strs strs' strs'').Counted := ⟨rfl, rfl⟩
  have hconv : (onlyNames fmt groups strs strs' strs'').convert22 cfg.nanospline id id (reread cfg.fmt) id =
      onlyNames fmt groups strs strs' strs'' ∧
      (onlyNames fmt groups strs strs' strs'').convert22 cfg.nanospline id id (reread cfg.fmt) (reread cfg.fmt) =
      onlyNames fmt groups strs strs' strs'' := by
    constructor <;> cases cfg.nanospline <;> rfl
  have h22 : Fits22 cfg [] [] := ⟨by omega, by simp, by simp, by simp⟩
  simp only [List.mem_cons, List.not_mem_nil, or_false] at hfmt
  rcases hfmt with h | h | h | h
  · exact C01_binary41_exact cfg _ h hok hfit (hplain _) (by simp [MshSpec.dataTags, onlyNames]) (by simp [MshSpec.realTags, onlyNames]) fun _ => hw
  · exact C02_ascii41_exact cfg _ h hok hfit (hplain _) (by simp [MshSpec.doubles, MshSpec.realTags, onlyNames]) (by simp [onlyNames]) fun _ => hw
  · have := C03_binary22 cfg (onlyNames fmt groups strs strs' strs'') (d := 8) h hok hcount hfit (by simp [onlyNames]) (by simp [onlyNames])
      (by simp [onlyNames]) (by simp [MshSpec.dataTags, onlyNames]) (by simp [MshSpec.realTags, onlyNames])
      (fun e he => absurd he (by simp [onlyNames, Elements.list])) h22 fun _ => hw
    rw [hconv.1] at this
    exact this
  · have := C04_ascii22 cfg (onlyNames fmt groups strs strs' strs'') (d := 8) h hok hcount hfit (by simp [onlyNames])
      (by simp [MshSpec.doubles22, MshSpec.realTags, onlyNames, Nodes.list])
      (fun e he => absurd he (by simp [onlyNames, Elements.list])) h22 fun _ => hw
    rw [hconv.2] at this
    exact this

/-! ## Concrete cases -/

/-- Quotes, backslashes, an end marker, a zero byte, the empty string. -/
example : ∃ file, saveMsh demoCfg (onlyNames ⟨b! "2.2", 0, 8⟩ [⟨2, 1, b! "a\"\\\n$EndPhysicalNames\n"⟩, ⟨1, 2, []⟩, ⟨0, 3, [0, 255, 34]⟩]
      [b! "$EndNodeData", []] [] [b! "\\\\\""]) = (file, .ok ()) ∧
    loadMsh demoCfg file = .ok (onlyNames ⟨b! "2.2", 0, 8⟩ [⟨2, 1, b! "a\"\\\n$EndPhysicalNames\n"⟩, ⟨1, 2, []⟩, ⟨0, 3, [0, 255, 34]⟩]
      [b! "$EndNodeData", []] [] [b! "\\\\\""]) :=
  C09_any_names demoCfg _ _ _ _ _ (by decide) (by decide) (by decide)

end MshIO
