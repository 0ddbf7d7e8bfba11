import Verif.Model.Presets
import Verif.Props.CliRoundtrip
import Verif.Props.DebugStats
import Verif.Props.DebugEndian
import Verif.Props.Builders
/-!
# C72: the presets of the transform command
-/

namespace Dlt.Props

open Dlt.FileFormats Dlt.FileIo Dlt.FileIo.Prog Dlt.Cli Dlt.Dds Dlt.DebugStats
open Dlt.Embed (TransformFormat)

/-- **C72** (names): the four names are understood in any spelling that lower case makes them, and no others; the preset that
applies without the option is called "optimal". -/
theorem C72_names (lower : String → String) (s : String) :
    (∀ n p, (n, p) ∈ [("low", Preset.low), ("medium", .medium), ("optimal", .optimal), ("max", .max)] →
      (Preset.fromStr lower s = some p ↔ lower s = n)) ∧
    (Preset.fromStr lower s = none ↔ lower s ∉ ["low", "medium", "optimal", "max"]) ∧
    (lower s = "optimal" → Preset.fromStr lower s = some Preset.default) := by
  unfold Preset.fromStr Preset.default
  generalize lower s = t
  refine ⟨?_, ?_, ?_⟩
  · intro n p h
    simp only [List.mem_cons, Prod.mk.injEq, List.not_mem_nil, or_false] at h
    rcases h with ⟨rfl, rfl⟩ | ⟨rfl, rfl⟩ | ⟨rfl, rfl⟩ | ⟨rfl, rfl⟩ <;> dsimp only <;> constructor <;> intro h
    all_goals first | (subst h; decide) | (split at h <;> (try split at h) <;> (try split at h) <;> (try split at h) <;> simp_all)
  · dsimp only
    simp only [List.mem_cons, List.not_mem_nil, or_false, not_or]
    constructor
    · intro h
      split at h <;> (try split at h) <;> (try split at h) <;> (try split at h) <;> simp_all
    · rintro ⟨h1, h2, h3, h4⟩
      rw [if_neg h1, if_neg h2, if_neg h3, if_neg h4]
  · rintro rfl; decide

/-! ## Specification -/

/-- What a preset compares the candidates by: the size of the colours as the LTU estimator or zstd level 1 gives it. -/
def presetSize (lib : Lib) : Preset → Buf → Nat
  | .low, _ => 0
  | .medium, x => x.length - lib.lz x
  | .optimal, x => ((lib.compress 1 x (lib.bound x.length)).toOption).getD 0
  | .max, x => ((lib.compress 1 x (lib.bound x.length)).toOption).getD 0

/-- The candidates of a preset in order. -/
def presetOrder : Preset → List ColourSettings
  | .low => [⟨.v1, true⟩]
  | .medium => [⟨.none, false⟩, ⟨.none, true⟩, ⟨.v1, false⟩, ⟨.v1, true⟩]
  | .optimal => [⟨.none, false⟩, ⟨.none, true⟩, ⟨.v1, false⟩, ⟨.v1, true⟩]
  | .max => [⟨.v2, false⟩, ⟨.none, false⟩, ⟨.none, true⟩, ⟨.v3, false⟩, ⟨.v3, true⟩, ⟨.v2, true⟩, ⟨.v1, false⟩, ⟨.v1, true⟩]

/-- The size by which `preset` judges the settings `s` for the texture `tex`: that of the first half of the result, the colours.
Nothing is compressed if there is nothing. -/
def judged (lib : Lib) (preset : Preset) (e : Endian) (tex : Buf) (s : ColourSettings) : Nat :=
  if tex = [] then 0 else presetSize lib preset ((Bc1.encode e s tex).take (tex.length / 2))

/-- The settings that a preset picks for a texture: of its candidates the first of least size. -/
def Picks (lib : Lib) (preset : Preset) (e : Endian) (tex : Buf) : ColourSettings → Prop :=
  FirstLeast (judged lib preset e tex) (presetOrder preset)

/-- zstd compresses at level 1 whatever is `n` bytes long, and there is memory for it. -/
structure ZstdWorks (lib : Lib) (env : Env) (n : Nat) : Prop where
  works : ∀ x : Buf, x.length = n → x ≠ [] → ∃ k, lib.compress 1 x (lib.bound n) = .ok k ∧ k < env.usizeMax
  memory : ScratchOk env (lib.bound n)

/-- The file with its texture transformed: header word, the rest of the header, the texture with settings `s`, and what follows it. -/
def withSettings (e : Endian) (data : Buf) (s : ColourSettings) : Buf :=
  to32 .little (Embed.bc1.toHeader s).word ++ slice data 4 (headerSize data - 4) ++
    Bc1.encode e s (slice data (headerSize data) (reckoned data)) ++ data.drop (headerSize data + reckoned data)

/-! ## Bundles -/

/-- **C72** (creation): every preset has a bundle, with a builder for BC1 and none for BC2. -/
theorem C72_created (lib : Lib) (preset : Preset) :
    ∃ b, presetBundle lib preset = some b ∧ b.bc1 ≠ none ∧ b.bc2 = none := by
  cases preset <;> exact ⟨_, rfl, by simp [lowBundle, mediumBundle, Bundle.withBc1Manual, Bundle.withBc1Auto], rfl⟩

/-- **C72** (command): the command starts the work of the batch (see C39, C60) on every file found, and does not fail. -/
theorem C72_command (lib : Lib) (os : Os) (p : Platform) (dbg : Nat → String) (ls : Listing) (isDir : Path → Bool) (fuel : Nat)
    (input output : Path) (preset : Preset) (entries : List Path) (h : findAllFiles ls isDir fuel input = some entries) :
    ∃ b work, presetBundle lib preset = some b ∧
      handleTransform lib os p dbg ls isDir fuel input output preset = some (.ok work) ∧ work.entries = entries ∧
      ∀ e ∈ entries, work.job e = job (processFileTransform os (allHandlers p dbg) b input output e) := by
  obtain ⟨b, hb, _⟩ := C72_created lib preset
  unfold handleTransform
  rw [h]
  cases entries with
  | nil => exact ⟨b, _, hb, rfl, rfl, by simp⟩
  | cons a l =>
    simp only [hb]
    exact ⟨b, _, rfl, rfl, rfl, fun _ _ => rfl⟩

/-! ## A BC1 texture -/

theorem FirstLeast.single {S : Type} (cost : S → Nat) (s : S) : FirstLeast cost [s] s :=
  ⟨[], [], rfl, by simp, by simp⟩

theorem FirstLeast.congr {S : Type} {cost cost' : S → Nat} (h : ∀ s, cost s = cost' s) {order : List S} {s : S}
    (hs : FirstLeast cost order s) : FirstLeast cost' order s := by
  obtain rfl : cost = cost' := funext h
  exact hs

theorem encode_length1 (e : Endian) (s : ColourSettings) {d : Buf} (h : d.length % 8 = 0) : (Bc1.encode e s d).length = d.length :=
  ((Bc1.transform_impl (.other e fun _ => 0) s) d d h (Nat.le_refl _)).1

/-- A bundle with an automatic builder for BC1: the candidate chosen and the bytes written. -/
theorem auto_dispatch (env : Env) (m : Machine) (dbg : Nat → String) (est : Estimator Unit Nat) (ultra : Bool) (size : Buf → Nat)
    {input output : Buf} (hm : input.length % 8 = 0) (ho : output.length = input.length) {k : Nat}
    (hmax : est.maxSize () (input.length / 2) = ((), .ok k)) (hk : ScratchOk env k)
    (hest : ∀ x, x.length = input.length / 2 → (est.estimate () x k).2 = .ok (size x) ∧ size x < env.usizeMax) :
    ∃ s, FirstLeast (fun s => size ((Bc1.encode m.endian s input).take (input.length / 2))) (Bc1.testOrder ultra) s ∧
      (Bundle.new.withBc1Auto (if ultra then .newUltra est else .new est)).dispatchTransform env m dbg .bc1 input output () =
        some (Bc1.encode m.endian s input, (), .ok (Embed.bc1.toHeader s)) := by
  have hshown : ∀ s, shown1 m input output s = [(Bc1.encode m.endian s input).take (input.length / 2)] := by
    intro s
    rw [shown1_eq m hm (by omega)]
    dsimp only
    rw [← ho, List.drop_length, List.append_nil]
    unfold slice
    rw [List.drop_zero]
  have hlen : ∀ s, ((Bc1.encode m.endian s input).take (input.length / 2)).length = input.length / 2 := by
    intro s
    rw [List.length_take, encode_length1 _ _ hm]
    omega
  have hcost : ∀ s, cost1 m input output size s = size ((Bc1.encode m.endian s input).take (input.length / 2)) := by
    intro s
    unfold cost1
    rw [hshown]
    simp
  obtain ⟨out', st', s, h1, h2⟩ := C20_bc1_auto_optimal env m est ultra input output () () k size hm (by omega) hmax hk
    (fun _ x hx => (hest x hx).1) ⟨_, List.head_mem (testOrder_ne1 ultra), by rw [hcost]; exact (hest _ (hlen _)).2⟩
  refine ⟨s, h2.congr hcost, ?_⟩
  obtain ⟨o2, st2, r, h3, _, _, h4⟩ := C17_bc1_auto_reports_used env m est ultra input output () hm (by omega)
  rw [h1] at h3
  simp only [Option.some.injEq, Prod.mk.injEq] at h3
  obtain ⟨rfl, _, rfl⟩ := h3
  have h5 := (h4 s rfl).1
  have h6 := ((Bc1.transform_impl m s) input output hm (by omega)).2
  dsimp only at h6
  have hout : out' = Bc1.encode m.endian s input := by
    rw [h6, ← ho, List.drop_length, List.append_nil] at h5
    exact (Option.some.inj h5).symm
  subst hout
  have h7 : Bc1.transformAutoSafe env m est ultra input output () = some (Bc1.encode m.endian s input, (), .ok s) := by
    unfold Bc1.transformAutoSafe
    rw [if_neg (by simp [hm]), if_neg (by omega), h1]
    rfl
  have h8 := (C42_bc1_auto_modes env m est ultra [] input output ()).2 (Bc1.encode m.endian s input) ()
  obtain ⟨mb, h9, h10⟩ := h8.1 s (by simpa using h7)
  have h11 := (C36_bundle_bc1 env m dbg [.bc1Auto (if ultra then .newUltra est else .new est)] input output () (by omega)).2.2 _ rfl
  have h12 := h11.2.1 _ _ mb h9
  rw [h10] at h12
  exact h12

theorem zstd_dispatch (lib : Lib) (ultra : Bool) (preset : Preset)
    (hsz : ∀ x, presetSize lib preset x = ((lib.compress 1 x (lib.bound x.length)).toOption).getD 0)
    (hord : presetOrder preset = Bc1.testOrder ultra) (env : Env) (m : Machine) (dbg : Nat → String) {tex output : Buf}
    (hm : tex.length % 8 = 0) (ho : output.length = tex.length) (hn : tex.length < env.usizeMax)
    (hz : ZstdWorks lib env (tex.length / 2)) :
    ∃ s, Picks lib preset m.endian tex s ∧
      (Bundle.new.withBc1Auto (if ultra then .newUltra (zstd lib.bound lib.compress 1) else .new (zstd lib.bound lib.compress 1))).dispatchTransform
        env m dbg .bc1 tex output () = some (Bc1.encode m.endian s tex, (), .ok (Embed.bc1.toHeader s)) := by
  by_cases h0 : tex = []
  · subst h0
    obtain ⟨s, h1, h2⟩ := auto_dispatch env m dbg (zstd lib.bound lib.compress 1) ultra (fun _ => 0) (input := []) (output := output)
      rfl ho (k := 0) rfl (.inl rfl) fun x hx => by
        have : x.length = 0 := hx
        exact ⟨by simp only [zstd, if_pos this], by simpa using hn⟩
    refine ⟨s, ?_, h2⟩
    unfold Picks
    rw [hord]
    exact h1.congr fun s => by simp [judged]
  · have hpos : 0 < tex.length := List.length_pos_iff.2 h0
    have hne : ∀ x : Buf, x.length = tex.length / 2 → x ≠ [] := by
      rintro x hx rfl
      simp at hx
      omega
    obtain ⟨s, h1, h2⟩ := auto_dispatch env m dbg (zstd lib.bound lib.compress 1) ultra
      (fun x => ((lib.compress 1 x (lib.bound x.length)).toOption).getD 0) hm ho (k := lib.bound (tex.length / 2))
      (by simp only [zstd]; rw [if_neg (by omega)]) hz.memory fun x hx => by
        obtain ⟨k, hk, hlt⟩ := hz.works x hx (hne x hx)
        have hx1 : tex.length / 2 ≠ 0 := by omega
        simp only [zstd, hx, hk, if_neg hx1]
        exact ⟨rfl, hlt⟩
    refine ⟨s, ?_, h2⟩
    unfold Picks
    rw [hord]
    exact h1.congr fun s => by simp only [judged, if_neg h0, hsz]

theorem preset_dispatch (lib : Lib) (preset : Preset) {b : Bundle Unit Nat} (hb : presetBundle lib preset = some b) (env : Env)
    (m : Machine) (dbg : Nat → String) {tex output : Buf} (hm : tex.length % 8 = 0) (ho : output.length = tex.length)
    (hn : tex.length < env.usizeMax) (hz : preset = .optimal ∨ preset = .max → ZstdWorks lib env (tex.length / 2)) :
    ∃ s, Picks lib preset m.endian tex s ∧
      b.dispatchTransform env m dbg .bc1 tex output () = some (Bc1.encode m.endian s tex, (), .ok (Embed.bc1.toHeader s)) := by
  cases preset with
  | low =>
    cases hb
    refine ⟨⟨.v1, true⟩, FirstLeast.single _ _, ?_⟩
    have h1 := ((Bc1.transform_impl m ⟨.v1, true⟩) tex output hm (by omega)).2
    dsimp only at h1
    have h2 := ((C36_bundle_bc1 (σ := Unit) env m dbg [.bc1Manual .new] tex output () (by omega)).2.1 _ rfl).2.1
      (Bc1.encode m.endian ⟨.v1, true⟩ tex) (by
        have h3 : Bc1.transformSafe m tex output Bc1.ManualBuilder.new.settings = some (Bc1.encode m.endian ⟨.v1, true⟩ tex, .ok ()) := by
          unfold Bc1.transformSafe
          change (if _ then _ else if _ then _ else (Bc1.transformWithSettings m tex output tex.length ⟨.v1, true⟩).bind _) = _
          rw [if_neg (by simp [hm]), if_neg (by omega), h1, ← ho, List.drop_length, List.append_nil]
          rfl
        unfold Bc1.ManualBuilder.transform
        rw [h3]
        rfl)
    exact h2
  | medium =>
    cases hb
    obtain ⟨s, h1, h2⟩ := auto_dispatch env m dbg (CApi.ltu lib.lz) false (fun x => x.length - lib.lz x) hm ho (k := 0) rfl (.inl rfl)
      fun x hx => by
        refine ⟨?_, by omega⟩
        simp only [CApi.ltu]
        split
        · next h => rw [h, Nat.zero_sub]
        · rfl
    refine ⟨s, h1.congr fun s => ?_, h2⟩
    unfold judged
    split
    · next h => subst h; simp
    · rfl
  | optimal =>
    cases hb
    exact zstd_dispatch lib false .optimal (fun _ => rfl) rfl env m dbg hm ho hn (hz (.inl rfl))
  | max =>
    cases hb
    exact zstd_dispatch lib true .max (fun _ => rfl) rfl env m dbg hm ho hn (hz (.inr rfl))

/-- **C72** (memory): a preset's bundle transforms a complete BC1 texture file with the settings that the preset picks. -/
theorem C72_bc1_slice (lib : Lib) (preset : Preset) {b : Bundle Unit Nat} (hb : presetBundle lib preset = some b) {data : Buf}
    (ht : HoldsTexture .bc1 data) (hlen : data.length < 2 ^ 32) (p : Platform) (hw : Wide p) (hoc : p.overflowChecks = false)
    (dbg : Nat → String) (fresh : Buf) (hfl : fresh.length = data.length)
    (hz : preset = .optimal ∨ preset = .max → ZstdWorks lib p.env (reckoned data / 2)) :
    ∃ s, Picks lib preset p.m.endian (slice data (headerSize data) (reckoned data)) s ∧
      transformBundle p dbg b data fresh () = some (withSettings p.m.endian data s, (), .ok ()) ∧
      (withSettings p.m.endian data s).length = data.length := by
  have hoff : (reported data).dataOffset.toNat = headerSize data := by
    unfold reported
    rcases headerSize_cases data with h | h <;> rw [h] <;> rfl
  have hc := ht.complete
  have hr : (reported data).dataLength.toNat = reckoned data := by
    have e : (reported data).dataLength = BitVec.ofNat 32 (min (reckoned data) (2 ^ 32 - 1)) := rfl
    rw [e, BitVec.toNat_ofNat, Nat.min_eq_left (by omega), Nat.mod_eq_of_lt (by omega)]
  have hs : (slice data (headerSize data) (reckoned data)).length = reckoned data := slice_length_of_le (by omega)
  have h4 : 4 ≤ headerSize data := by rcases headerSize_cases data with h | h <;> omega
  have hmod : reckoned data % 8 = 0 := reckoned_mod ht.format
  have hw' := hw
  unfold Wide at hw'
  obtain ⟨s, h1, h2⟩ := preset_dispatch lib preset hb p.env p.m dbg (tex := slice data (headerSize data) (reckoned data))
    (output := slice fresh (headerSize data) (reckoned data)) (by rw [hs]; exact hmod) (by rw [hs, slice_length_of_le (by omega)])
    (by rw [hs]; omega) (by rw [hs]; exact hz)
  refine ⟨s, h1, ?_, ?_⟩
  · have hp : parseDds p data = some (some (reported data)) := by
      rw [parseDds_spec, if_pos ht.dds, if_neg (by simp [hoc])]
    have hfmt : (reported data).format = .bc1 := ht.format
    rw [Dds.transform_eq p dbg _ data fresh () hp hoff hr hc (by omega) (by omega), hfmt]
    simp only [toTransformFormat]
    rw [h2]
    dsimp only
    by_cases hx : headerSize data + reckoned data < data.length
    · rw [if_pos hx, if_pos hfl]; rfl
    · rw [if_neg hx, List.drop_eq_nil_of_le (by omega)]
      unfold withSettings assemble
      rw [List.drop_eq_nil_of_le (by omega)]
  · change (assemble _ _ _ _ _).length = _
    rw [assemble_length (to32_length _ _) h4 (by omega), encode_length1 _ _ (by rw [hs]; exact hmod), hs]
    simp only [List.length_drop]
    omega

/-! ## Files -/

/-- The work on one DDS file whose transformation, in memory, is known. -/
theorem job_transform_eq {E : Type} {os : Os} (hwf : os.Wf) {p : Platform} (hoc : p.overflowChecks = false) {dbg : E → String}
    {bundle : Bundle Unit E} {data : Buf} (hdds : IsDds data) {inputDir outputDir rel : Path} (hrel : rel ≠ [])
    (hne : inputDir ++ rel ≠ outputDir ++ rel) {w : World Unit} (hf : w.files (inputDir ++ rel) = some data)
    (hread : MayRead os (inputDir ++ rel) data.length) (hwrite : MayWrite os w (outputDir ++ rel) data.length)
    {ext : Option String} (hx : ext = none ∨ ext = some "dds") (hext : IsExtension os (inputDir ++ rel) ext) :
    ∃ fresh : Buf, fresh.length = data.length ∧ ∀ o r, transformBundle p dbg bundle data fresh () = some (o, (), r) →
      o.length = data.length →
      (run os (job (processFileTransform os (allHandlers p dbg) bundle inputDir outputDir (inputDir ++ rel))) w).2 =
        some ((r.mapError .transform).map fun _ => data.length) ∧
      (run os (job (processFileTransform os (allHandlers p dbg) bundle inputDir outputDir (inputDir ++ rel))) w).1.files
        (outputDir ++ rel) = some o := by
  rw [run_job]
  dsimp only
  unfold processFileTransform processFile
  rw [stripPrefix_append]
  dsimp only
  rw [if_neg (by simp [hrel])]
  obtain ⟨hdirs, hnd, hcreate, hmap⟩ := hwrite
  obtain ⟨w', h, hfl, hdr⟩ := (createDirAll_cases os (.op (.fileLen (inputDir ++ rel)) fun len =>
      (transformFileWithMultipleHandlers os (allHandlers p dbg) (inputDir ++ rel) (outputDir ++ rel) bundle).bind fun r =>
        .ret (r.map fun _ => len.getD 0)) (outputDir ++ rel).dropLast [] w).1 fun q _ hq => by
    unfold dirOk
    rcases hdirs q hq with h | ⟨h1, h2⟩
    · simp [h]
    · simp [h1, h2]
  rw [h, run_op]
  simp only [exec]
  rw [run_bind]
  have hf' : w'.files (inputDir ++ rel) = some data := by rw [hfl]; exact hf
  obtain ⟨h1, h2, h3, h4⟩ := hread
  have hr : Readable os w' (inputDir ++ rel) data := ⟨hf', h1, h2, h3, h4⟩
  obtain ⟨fresh, hfresh, hfl'⟩ := hwf _ _ _ hcreate
  have hcr : Creatable os w' (outputDir ++ rel) data.length fresh := by
    refine ⟨(hdr _).2 (.inr (by simp)), ?_, ?_, hfl', hmap⟩
    · rw [Bool.eq_false_iff]
      intro e
      rcases (hdr _).1 e with e | ⟨_, e⟩
      · rw [hnd] at e; exact nomatch e
      · have := e.length_le
        have hp := List.length_pos_iff.2 hrel
        simp at this
        omega
    · rw [hfl]
      exact Prod.ext hfresh hcreate
  refine ⟨fresh, hfl', fun o r ho hol => ?_⟩
  have hcan : Dds.canHandle p data ext = some true := (((C33_detection p data ext).2 hx).2 hdds).2 hoc
  have hsl : transformSliceWithBundle (Dds.handler p dbg) data fresh bundle () = some (o, (), r) := by
    unfold transformSliceWithBundle
    rw [if_neg (by omega)]
    exact ho
  have hrun := (C37_file_with_multiple_handlers os w' [Dds.handler p dbg] _ _ hne bundle data fresh ext hext hr hcr).1.1
    (Dds.handler p dbg) () ⟨[], [], (), rfl, rfl, by simp [Dds.handler, hcan]⟩
  rw [hsl] at hrun
  have hrun := hrun (by omega)
  unfold allHandlers
  rw [hrun]
  cases r <;> simp [run, Except.map, Except.mapError, hf']

section

variable {lib : Lib} {os : Os} {p : Platform} {dbg : Nat → String} {ls : Listing} {w0 : World Unit} {inputDir outputDir : Path}
  {entries : List Path} {preset : Preset} {b : Bundle Unit Nat}
  {c : Config (Fin entries.length) Unit (Except FileError Nat)} {rel : Path} {data : Buf} {i : Fin entries.length}
  {ext : Option String}

theorem batch_transform_eq (hwf : os.Wf) (hoc : p.overflowChecks = false)
    (hb : Batch ls w0 inputDir outputDir entries)
    (hs : Steps os ⟨w0, transformJobs os (allHandlers p dbg) b inputDir outputDir entries⟩ c)
    (he : ∀ i, (ended (c.progs i)).isSome)
    (hd : w0.files (inputDir ++ rel) = some data) (hdds : IsDds data) (hi : entries[i] = inputDir ++ rel)
    (hread : MayRead os (inputDir ++ rel) data.length) (hwrite : MayWrite os w0 (outputDir ++ rel) data.length)
    (hx : ext = none ∨ ext = some "dds") (hext : IsExtension os (inputDir ++ rel) ext) :
    ∃ fresh : Buf, fresh.length = data.length ∧ ∀ o r, transformBundle p dbg b data fresh () = some (o, (), r) →
      o.length = data.length →
      ended (c.progs i) = some (some ((r.mapError .transform).map fun _ => data.length)) ∧
      c.world.files (outputDir ++ rel) = some o := by
  obtain ⟨a1, a2, _⟩ := C39_schedule_independent_partial hb (.transform b) hs he
  obtain ⟨rel1, hrel, hr1, ht1, _⟩ := hb.rel i
  obtain rfl : rel = rel1 := List.append_cancel_left (hi.symm.trans hr1)
  have hmem : inputDir ++ rel ∈ entries := hi ▸ List.getElem_mem _
  obtain ⟨fresh, h1, h2⟩ := job_transform_eq hwf hoc (dbg := dbg) (bundle := b) hdds hrel (hb.separate rel rel hmem hmem).symm hd hread
    hwrite hx hext
  refine ⟨fresh, h1, fun o r ho hol => ?_⟩
  obtain ⟨h3, h4⟩ := h2 o r ho hol
  have hres := a1 i
  have hfile := a2 i
  rw [ht1] at hfile
  unfold transformJobs at hres hfile
  rw [hi] at hres hfile
  exact ⟨hres.trans (by rw [h3]), hfile.trans h4⟩

/-- **C72** (BC1): the command has ended, under any schedule.  A file of the input directory that holds a complete BC1 texture, below
4 GiB, readable and writable, is reported as done, and the file of the same name in the output directory is the original with the
texture transformed by the settings that the preset picks: version 1 with split endpoints for "low"; for the others the first of
its candidates of least size, by the LTU estimator for "medium", by zstd level 1 for "optimal" and "max". -/
theorem C72_bc1 (hwf : os.Wf) (hoc : p.overflowChecks = false) (hw : Wide p)
    (hb : Batch ls w0 inputDir outputDir entries) (hpb : presetBundle lib preset = some b)
    (hs : Steps os ⟨w0, transformJobs os (allHandlers p dbg) b inputDir outputDir entries⟩ c)
    (he : ∀ i, (ended (c.progs i)).isSome)
    (hd : w0.files (inputDir ++ rel) = some data) (ht : HoldsTexture .bc1 data) (hlen : data.length < 2 ^ 32)
    (hi : entries[i] = inputDir ++ rel)
    (hread : MayRead os (inputDir ++ rel) data.length) (hwrite : MayWrite os w0 (outputDir ++ rel) data.length)
    (hx : ext = none ∨ ext = some "dds") (hext : IsExtension os (inputDir ++ rel) ext)
    (hz : preset = .optimal ∨ preset = .max → ZstdWorks lib p.env (reckoned data / 2)) :
    ended (c.progs i) = some (some (.ok data.length)) ∧
    ∃ s, Picks lib preset p.m.endian (slice data (headerSize data) (reckoned data)) s ∧
      c.world.files (outputDir ++ rel) = some (withSettings p.m.endian data s) := by
  obtain ⟨fresh, h1, h2⟩ := batch_transform_eq hwf hoc hb hs he hd ht.dds hi hread hwrite hx hext
  obtain ⟨s, h3, h4, h5⟩ := C72_bc1_slice lib preset hpb ht hlen p hw hoc dbg fresh h1 hz
  obtain ⟨h6, h7⟩ := h2 _ _ h4 h5
  exact ⟨h6, s, h3, h7⟩

/-- **C72** (BC2): with every preset a complete BC2 texture is refused, although the library can transform it, and a file that is
neither the original nor a transformed one is left in the output directory: the header of the original, and behind it what
the system puts into a new file. -/
theorem C72_bc2_refused (hwf : os.Wf) (hoc : p.overflowChecks = false) (hw : Wide p)
    (hb : Batch ls w0 inputDir outputDir entries) (hpb : presetBundle lib preset = some b)
    (hs : Steps os ⟨w0, transformJobs os (allHandlers p dbg) b inputDir outputDir entries⟩ c)
    (he : ∀ i, (ended (c.progs i)).isSome)
    (hd : w0.files (inputDir ++ rel) = some data) (ht : HoldsTexture .bc2 data) (hlen : data.length < 2 ^ 32)
    (hi : entries[i] = inputDir ++ rel)
    (hread : MayRead os (inputDir ++ rel) data.length) (hwrite : MayWrite os w0 (outputDir ++ rel) data.length)
    (hx : ext = none ∨ ext = some "dds") (hext : IsExtension os (inputDir ++ rel) ext) :
    ended (c.progs i) = some (some (.error (.transform (.formatHandler (.noBuilderForFormat .bc2))))) ∧
    ∃ fresh : Buf, fresh.length = data.length ∧
      c.world.files (outputDir ++ rel) = some (data.take (headerSize data) ++ fresh.drop (headerSize data)) := by
  obtain ⟨fresh, h1, h2⟩ := batch_transform_eq hwf hoc hb hs he hd ht.dds hi hread hwrite hx hext
  have hoff : (reported data).dataOffset.toNat = headerSize data := by
    unfold reported
    rcases headerSize_cases data with h | h <;> rw [h] <;> rfl
  have hc := ht.complete
  have hr : (reported data).dataLength.toNat = reckoned data := by
    have e : (reported data).dataLength = BitVec.ofNat 32 (min (reckoned data) (2 ^ 32 - 1)) := rfl
    rw [e, BitVec.toNat_ofNat, Nat.min_eq_left (by omega), Nat.mod_eq_of_lt (by omega)]
  have hp : parseDds p data = some (some (reported data)) := by
    rw [parseDds_spec, if_pos ht.dds, if_neg (by simp [hoc])]
  obtain ⟨b', hb', _, hb2⟩ := C72_created lib preset
  obtain rfl : b' = b := Option.some.inj (hb'.symm.trans hpb)
  have hw' := hw
  unfold Wide at hw'
  have hfmt : (reported data).format = .bc2 := ht.format
  have key : transformBundle p dbg b' data fresh () = some (data.take (headerSize data) ++ fresh.drop (headerSize data), (),
      .error (.formatHandler (.noBuilderForFormat .bc2))) := by
    rw [Dds.transform_eq p dbg _ data fresh () hp hoff hr hc (by omega) (by omega), hfmt]
    simp only [toTransformFormat, Bundle.dispatchTransform, hb2]
    rw [if_neg (by rw [slice_length_of_le (by omega), slice_length_of_le (by omega)]; omega)]
    dsimp only
    rw [List.append_assoc]
    unfold slice
    rw [← List.drop_drop, List.take_append_drop]
  obtain ⟨h6, h7⟩ := h2 _ _ key (by simp; omega)
  exact ⟨h6, fresh, h1, h7⟩

/-- **C72** (nothing else): only BC1 textures are transformed with success, whatever the preset. -/
theorem C72_only_bc1 (hwf : os.Wf) (hu : 2 ^ 32 - 1 ≤ p.env.usizeMax)
    (hb : Batch ls w0 inputDir outputDir entries) (hpb : presetBundle lib preset = some b)
    (hs : Steps os ⟨w0, transformJobs os (allHandlers p dbg) b inputDir outputDir entries⟩ c)
    (he : ∀ i, (ended (c.progs i)).isSome)
    (hd : w0.files (inputDir ++ rel) = some data) (hfit : data.length ≤ os.usizeMax) (hi : entries[i] = inputDir ++ rel) (n : Nat)
    (hok : ended (c.progs i) = some (some (.ok n))) : classify data = .bc1 ∧ n = data.length := by
  obtain ⟨a1, _, _⟩ := C39_schedule_independent_partial hb (.transform b) hs he
  obtain ⟨rel1, hrel, hr1, ht1, _⟩ := hb.rel i
  obtain rfl : rel = rel1 := List.append_cancel_left (hi.symm.trans hr1)
  have hmem : inputDir ++ rel ∈ entries := hi ▸ List.getElem_mem _
  have hres := a1 i
  rw [hok] at hres
  unfold transformJobs at hres
  rw [hi] at hres
  obtain ⟨hn, fresh, o, h1, h2, h3, h4⟩ := job_transform_ok hwf hu hrel (hb.separate rel rel hmem hmem).symm hd hfit
    (Option.some.inj hres).symm
  refine ⟨?_, hn⟩
  unfold transformSliceWithBundle at h3
  rw [if_neg (by omega)] at h3
  obtain ⟨b', hb', _, hb2⟩ := C72_created lib preset
  obtain rfl : b' = b := Option.some.inj (hb'.symm.trans hpb)
  rcases C34_only_bc1_bc2 p hu dbg b' data fresh o () () h3 with h | h
  · exact h.1
  · exact absurd hb2 h.2

end

/-- **C72** (ranking): of the settings that "max" and "optimal" pick for a texture those of "max" are not the worse ones. -/
theorem C72_max_not_worse (lib : Lib) (e : Endian) (tex : Buf) (s t : ColourSettings) (hs : Picks lib .max e tex s)
    (ht : Picks lib .optimal e tex t) : judged lib .max e tex s ≤ judged lib .optimal e tex t := by
  have hmem : t ∈ presetOrder .max := by obtain ⟨v, x⟩ := t; cases v <;> cases x <;> decide
  obtain ⟨pre, post, h1, h2, h3⟩ := hs
  rw [h1] at hmem
  change judged lib .max e tex s ≤ judged lib .max e tex t
  rcases List.mem_append.1 hmem with h | h
  · exact Nat.le_of_lt (h2 _ h)
  · rcases List.mem_cons.1 h with rfl | h
    · exact Nat.le_refl _
    · exact h3 _ h

/-! ## Concrete runs -/

/-- A 4 x 4 BC1 texture. -/
def bc1File : Buf := ddsHeader 0x1007#32 4#32 4#32 1#32 4#32 "DXT1" [] ++ [0xBC, 0x44, 0x9C, 0x29, 1, 2, 3, 4]

/-- A library whose "compressed size" is the sum of the bytes; of colours the LTU matches the first byte. -/
def sumLib : Lib where
  bound n := n + 1
  compress _ x n := if x.length < n then .ok (x.map BitVec.toNat).sum else .error 70
  lz x := (x.headD 0).toNat

/-- `/a/x` is a BC1 texture, `/a/y` a BC2 texture. -/
def presetWorld : World Unit where
  files q := if q = ["a", "x"] then some bc1File else if q = ["a", "y"] then some bc2File else none
  dirs q := q = [] || q = ["a"]
  counter := 0
  st := ()

/-- The command on `/a`, to `/c`, with a preset; the word in front of the first file, the second file, the results. -/
def presetRun (preset : Preset) : Option (Option Buf × Option Buf × Option (List (Option Nat))) :=
  match presetBundle sumLib preset with
  | none => none
  | some b =>
    let r := runSeq kindOs (transformJobs kindOs (allHandlers somePlatform fun _ : Nat => "") b ["a"] ["c"] [["a", "x"], ["a", "y"]])
      [0, 1] presetWorld
    some ((r.1.files ["c", "x"]).map (List.take 4), r.1.files ["c", "y"], r.2.map (·.map Except.toOption))

/-- Non-vacuity: the hypotheses of `C72_bc1` and `C72_bc2_refused` hold for the two files; "optimal" and "max" pick different
settings for the first. -/
example : Batch (fun q => if q = ["a"] then ["x", "y"] else []) presetWorld ["a"] ["c"] [["a", "x"], ["a", "y"]] ∧
    HoldsTexture .bc1 bc1File ∧ HoldsTexture .bc2 bc2File ∧ ZstdWorks sumLib somePlatform.env (reckoned bc1File / 2) ∧
    Wide somePlatform ∧ kindOs.Wf := by
  refine ⟨⟨⟨3, by decide +kernel⟩, ?_, fun rel rel' _ _ => separate_of_disjoint (by decide) (by decide) rel rel'⟩,
    ⟨by decide +kernel, by decide +kernel, by decide +kernel⟩, ⟨by decide +kernel, by decide +kernel, by decide +kernel⟩, ?_,
    by unfold Wide; decide, ?_⟩
  · intro d
    split <;> decide
  · have h4 : reckoned bc1File / 2 = 4 := by decide +kernel
    rw [h4]
    refine ⟨fun x hx _ => ⟨(x.map BitVec.toNat).sum, by simp [sumLib, hx], ?_⟩, .inr rfl⟩
    match x, hx with
    | [a, b, c, d], _ =>
      simp only [List.map_cons, List.map_nil, List.sum_cons, List.sum_nil, somePlatform]
      have := a.isLt; have := b.isLt; have := c.isLt; have := d.isLt
      omega
  · intro p n old _
    exact ⟨_, rfl, by simp⟩

example : [Preset.low, .medium, .optimal, .max].map (fun p => (presetRun p).map (·.1)) =
    [some (some [64, 0, 0, 0]), some (some [128, 1, 0, 0]), some (some [0, 0, 0, 0]), some (some [0, 1, 0, 0])] ∧
    [Preset.low, .medium, .optimal, .max].map (fun p => (presetRun p).map (·.2)) =
      List.replicate 4 (some (some (bc2File.take 128 ++ List.replicate 16 0), some [some 136, none])) := by
  decide +kernel

example : ["low", "Max", "fast"].map (Preset.fromStr String.toLower) = [some .low, some .max, none] := by decide +kernel

end Dlt.Props
