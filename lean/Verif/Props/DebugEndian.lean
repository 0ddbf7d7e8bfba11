import Verif.Model.DebugEndian
import Verif.Props.Endian
import Verif.Props.FileCompare
import Verif.Props.CliRoundtrip
import Verif.Props.DebugFormat
/-!
# C70: the endianness test
-/

namespace Dlt.Props

open Dlt.FileFormats Dlt.FileIo Dlt.FileIo.Prog Dlt.Cli Dlt.Dds Dlt.FileCompare Dlt.DebugEndian
open Dlt.Embed (TransformFormat)

/-- **C70** (verdict): the command succeeds exactly if every file passed; so it does if there are none. -/
theorem C70_verdict (rs : List TestResult) :
    (reportOk rs = true ↔ ∀ r ∈ rs, r.transformSuccess = true ∧ r.untransformSuccess = true ∧ r.filesIdentical = true) ∧
    reportOk [] = true := by
  refine ⟨?_, rfl⟩
  unfold reportOk
  rw [decide_eq_true_eq, List.length_filter_eq_length_iff]
  simp only [TestResult.isSuccess, Bool.and_eq_true, and_assoc]

/-! ## Settings without decorrelation do not depend on the machine -/

theorem bc1_plain (e e' : Endian) (split : Bool) {d : Buf} (h : d.length % 8 = 0) :
    Bc1.encode e ⟨.none, split⟩ d = Bc1.encode e' ⟨.none, split⟩ d := by
  obtain ⟨n, hn⟩ : ∃ n, d.length = n * 8 := ⟨d.length / 8, by omega⟩
  exact (Bc1.columns_none e split hn).symm.trans (Bc1.columns_none e' split hn)

theorem bc2_plain (e e' : Endian) (split : Bool) {d : Buf} (h : d.length % 16 = 0) :
    Bc2.encode e ⟨.none, split⟩ d = Bc2.encode e' ⟨.none, split⟩ d := by
  obtain ⟨n, hn⟩ : ∃ n, d.length = n * 16 := ⟨d.length / 16, by omega⟩
  exact Bc2.columns_col (fun bs h => (encCol_none e h).trans (encCol_none e' h).symm) split hn

/-- The formats that the test supports. -/
inductive Tested : DebugIo.Format → Prop where
  | bc1 : Tested .bc1
  | bc2 : Tested .bc2

/-- The bundle of the test for a format. -/
def bundleFor {E : Type} : DebugIo.Format → ApiVariant → Bool → Bundle Unit E
  | .bc1 => bc1Bundle
  | .bc2 => bc2Bundle
  | .bc3 => fun _ _ => Bundle.new

theorem dispatch_plain {E : Type} {f : DebugIo.Format} (hf : Tested f) {input : Buf} (h : input.length % bytesPerBlock f = 0) :
    ∃ (tex : Buf) (hdr : Embed.TransformHeader) (g : TransformFormat), toTransformFormat (ddsName f) false = .ok g ∧
      sameName (ddsName f) = some g ∧ (g = .bc1 ∧ f = .bc1 ∨ g = .bc2 ∧ f = .bc2) ∧ tex.length = input.length ∧
      ∀ (env : Env) (m : Machine) (dbg : E → String) (output : Buf) (st : Unit), output.length = input.length →
        (bundleFor f .none false : Bundle Unit E).dispatchTransform env m dbg g input output st = some (tex, st, .ok hdr) := by
  cases hf with
  | bc1 =>
    change input.length % 8 = 0 at h
    refine ⟨Bc1.encode .little ⟨.none, false⟩ input, Embed.bc1.toHeader ⟨.none, false⟩, .bc1, rfl, rfl, .inl ⟨rfl, rfl⟩,
      ((Bc1.transform_impl (.other .little fun _ => 0) ⟨.none, false⟩) input input h (Nat.le_refl _)).1, fun env m dbg output st ho => ?_⟩
    have h1 := ((Bc1.transform_impl m ⟨.none, false⟩) input output h (by omega)).2
    unfold Bundle.dispatchTransform
    rw [if_neg (by omega)]
    simp only [bundleFor, bc1Bundle, Bundle.withBc1Manual, Bc1Builder.transformSliceWithDetails, Bc1.ManualBuilder.transform,
      Bc1.ManualBuilder.getSettings, Bc1.ManualBuilder.splitColourEndpoints, Bc1.ManualBuilder.decorrelationMode,
      ApiVariant.toInternal, Bc1.transformSafe]
    rw [if_neg (by simp [h]), if_neg (by omega)]
    dsimp only at h1
    rw [h1, bc1_plain m.endian .little false h, ← ho, List.drop_length, List.append_nil]
    rfl
  | bc2 =>
    change input.length % 16 = 0 at h
    refine ⟨Bc2.encode .little ⟨.none, false⟩ input, Embed.bc2.toHeader ⟨.none, false⟩, .bc2, rfl, rfl, .inr ⟨rfl, rfl⟩,
      ((Bc2.transform_impl (.other .little fun _ => 0) ⟨.none, false⟩) input input h (Nat.le_refl _)).1, fun env m dbg output st ho => ?_⟩
    have h1 := ((Bc2.transform_impl m ⟨.none, false⟩) input output h (by omega)).2
    unfold Bundle.dispatchTransform
    rw [if_neg (by omega)]
    simp only [bundleFor, bc2Bundle, Bundle.withBc2Manual, Bc2Builder.transformSliceWithDetails, Bc2.ManualBuilder.transform,
      Bc2.ManualBuilder.getSettings, Bc2.ManualBuilder.splitColourEndpoints, Bc2.ManualBuilder.decorrelationMode,
      ApiVariant.toInternal, Bc2.transformSafe]
    rw [if_neg (by simp [h]), if_neg (by omega)]
    dsimp only at h1
    rw [h1, bc2_plain m.endian .little false h, ← ho, List.drop_length, List.append_nil]
    rfl

/-- **C70** (first combination): on every machine the first combination of the test (no decorrelation, no split) turns a complete
texture file into the same bytes. -/
theorem C70_plain_file {E : Type} {f : DebugIo.Format} (hf : Tested f) {data : Buf} (ht : HoldsTexture f data) (hlen : data.length < 2 ^ 32) :
    ∃ o : Buf, o.length = data.length ∧ ∀ (p : Platform) (dbg : E → String) (fresh : Buf), Wide p → p.overflowChecks = false →
      fresh.length = data.length →
      transformBundle p dbg (bundleFor f .none false) data fresh () = some (o, (), .ok ()) := by
  have hoff : (reported data).dataOffset.toNat = headerSize data := by
    unfold reported
    rcases headerSize_cases data with h | h <;> rw [h] <;> rfl
  have hr : (reported data).dataLength.toNat = reckoned data := by
    have hc := ht.complete
    have e : (reported data).dataLength = BitVec.ofNat 32 (min (reckoned data) (2 ^ 32 - 1)) := rfl
    rw [e, BitVec.toNat_ofNat, Nat.min_eq_left (by omega), Nat.mod_eq_of_lt (by omega)]
  have hc := ht.complete
  have hs : (slice data (headerSize data) (reckoned data)).length = reckoned data := slice_length_of_le (by omega)
  obtain ⟨tex, hdr, g, hg, _, _, htl, hd⟩ := dispatch_plain (E := E) hf (input := slice data (headerSize data) (reckoned data))
    (by rw [hs]; exact reckoned_mod ht.format)
  have h4 : 4 ≤ headerSize data := by rcases headerSize_cases data with h | h <;> omega
  refine ⟨Dds.assemble (to32 .little hdr.word) data tex (data.drop (headerSize data + reckoned data)) (headerSize data), ?_,
    fun p dbg fresh hw hoc hfl => ?_⟩
  · rw [assemble_length (to32_length _ _) h4 (by omega)]
    simp only [List.length_drop]
    omega
  · have hp : parseDds p data = some (some (reported data)) := by
      rw [parseDds_spec, if_pos ht.dds, if_neg (by simp [hoc])]
    have hfmt : (reported data).format = ddsName f := ht.format
    unfold Wide at hw
    rw [Dds.transform_eq p dbg _ data fresh () hp hoff hr hc (by omega) (by omega), hfmt, hg]
    dsimp only
    rw [hd p.env p.m dbg (slice fresh (headerSize data) (reckoned data)) () (by rw [hs, slice_length_of_le (by omega)])]
    dsimp only
    by_cases hx : headerSize data + reckoned data < data.length
    · rw [if_pos hx, if_pos hfl]
    · rw [if_neg hx]
      have : data.length = headerSize data + reckoned data := by omega
      rw [List.drop_eq_nil_of_le (by omega), List.drop_eq_nil_of_le (by omega)]

/-! ## One file -/

/-- The system refuses nothing, for files of `n` bytes. -/
structure Obliging (os : Os) (n : Nat) : Prop where
  canOpen : ∀ p, os.canOpen p = true
  canSize : ∀ p, os.canSize p = true
  canMap : ∀ p, os.canMap p n = true
  canMapWrite : ∀ p, os.canMapWrite p n = true
  create : ∀ p old, ∃ fresh, os.create p n old = (some fresh, true) ∧ fresh.length = n
  fits : n ≤ os.usizeMax

theorem Obliging.readable {os : Os} {data : Buf} (h : Obliging os data.length) {w : World Unit} {p : Path}
    (hf : w.files p = some data) : Readable os w p data := ⟨hf, h.canOpen p, h.canSize p, h.canMap p, h.fits⟩

theorem Obliging.creatable {os : Os} {n : Nat} (h : Obliging os n) {w : World Unit} {dir : Path} {name : String}
    (hd : w.dirs dir = true) (hn : w.dirs (dir ++ [name]) = false) : ∃ fresh, Creatable os w (dir ++ [name]) n fresh := by
  obtain ⟨fresh, h1, h2⟩ := h.create (dir ++ [name]) (w.files (dir ++ [name]))
  exact ⟨fresh, by rw [List.dropLast_concat]; exact hd, hn, h1, h2, h.canMapWrite _⟩

theorem extension_move {os : Os} {name : String} {ext : Option String} (h : IsExtension os [name] ext) (dir : Path) :
    IsExtension os (dir ++ [name]) ext := by
  have key : ∀ {d : Path} {x : String}, [name] = d ++ [x] → name = x := by
    intro d x h
    have := congrArg List.getLast? h
    simpa using this
  rcases h with ⟨d, stem, e, h1, h2⟩ | ⟨h1, h2 | ⟨d, x, h2, h3⟩⟩
  · exact .inl ⟨dir, stem, e, by rw [key h1], h2⟩
  · exact nomatch h2
  · exact .inr ⟨h1, .inr ⟨dir, x, by rw [key h2], h3⟩⟩

theorem run_createDirAll_there {α : Type} (os : Os) (k : Prog Unit (Except FileError α)) (w : World Unit) :
    ∀ (rest : List String) (base : Path), (∀ q, base <+: q → q <+: base ++ rest → w.dirs q = true) →
      run os (createDirAll base rest k) w = run os k w
  | [], base, h => by
    have := h base (by simp) (by simp)
    simp [createDirAll, try', run, exec, this]
  | name :: rest, base, h => by
    have h0 := h base (by simp) (by simp)
    have := run_createDirAll_there os k w rest (base ++ [name]) fun q h1 h2 =>
      h q ((List.prefix_append _ _).trans h1) (by simpa using h2)
    simp [createDirAll, try', run, exec, h0, this]

theorem IsTree.dirs_up {σ : Type} {w : World σ} (ht : IsTree w) (p : Path) : ∀ t, w.dirs (p ++ t) = true → w.dirs p = true := by
  intro t
  induction t generalizing p with
  | nil => simp
  | cons x t ih =>
    intro h
    exact ht.parent p x (.inr (ih (p ++ [x]) (by simpa using h)))

theorem run_orFail_createDirAll {α : Type} (os : Os) {w : World Unit} (ht : IsTree w) {dir : Path} (hd : w.dirs dir = true)
    (k : Unit → Prog Unit (Except CmdError α)) :
    run os (orFail (createDirAll [] dir (.ret (.ok ()))) k) w = run os (k ()) w := by
  unfold orFail
  rw [run_bind, run_createDirAll_there os _ w dir [] fun q _ h => by
    obtain ⟨t, ht'⟩ := h
    exact ht.dirs_up q t (by rw [ht']; exact hd)]
  rfl

theorem concat_ne {a b : Path} {x y : String} (h : x ≠ y) : a ++ [x] ≠ b ++ [y] := by
  intro e
  have := congrArg List.getLast? e
  simp at this
  exact h this

/-- The format as the file format API names it. -/
def formatName : DebugIo.Format → TransformFormat
  | .bc1 => .bc1
  | .bc2 => .bc2
  | .bc3 => .bc3

/-- Only the first combination is tried, and it succeeds. -/
theorem run_transformSingleFile {E : Type} {f : DebugIo.Format} (hf : Tested f) {data o : Buf} (ht : HoldsTexture f data)
    {os : Os} (hos : Obliging os data.length) {pl : Dds.Platform} (hw : Wide pl) (hoc : pl.overflowChecks = false) (dbg : E → String)
    (ho : o.length = data.length)
    (hb : ∀ fresh : Buf, fresh.length = data.length → transformBundle pl dbg (bundleFor f .none false) data fresh () = some (o, (), .ok ()))
    {w : World Unit} (htree : IsTree w) {inDir outDir : Path} {name : String} {ext : Option String}
    (hext : IsExtension os [name] ext) (hx : ext = none ∨ ext = some "dds") (hin : w.files (inDir ++ [name]) = some data)
    (hd : w.dirs outDir = true) (hn : w.dirs (outDir ++ [name]) = false) (hne : inDir ≠ outDir) :
    run os (transformSingleFile os pl dbg (inDir ++ [name]) outDir) w = (w.after (outDir ++ [name]) o (), some (.ok ())) := by
  have hr := hos.readable hin
  obtain ⟨fresh, hc⟩ := hos.creatable (name := name) hd hn
  have hpne : inDir ++ [name] ≠ outDir ++ [name] := fun h => hne (List.append_inj_left' h rfl)
  unfold transformSingleFile
  rw [run_orFail_createDirAll os htree hd, List.getLast?_concat]
  dsimp only
  have hext' := extension_move hext inDir
  have he : extractLowercaseExtension os (inDir ++ [name]) = ext := extension_spec hext'
  have hcan : Dds.canHandle pl data ext = some true := (((C33_detection pl data ext).2 hx).2 ht.dds).2 hoc
  obtain ⟨info, hi⟩ := ((C33_parse pl data).2.1 ht.dds).2.1 hoc
  have h54 := (C54_extraction pl hw data .all).2 info hi
  have hsame : sameName (classify data) = some (formatName f) := by
    rw [ht.format]; cases hf <;> rfl
  have hfmt := ((h54.2 _ hsame).2 (passes_all _)).1
  have hdetect : run os (DebugIo.getTransformFormat os (inDir ++ [name]) (DebugIo.allHandlers pl) .all) w =
      (w, some (.ok (some (formatName f)))) := by
    unfold DebugIo.getTransformFormat
    rw [run_withInput hr, he]
    simp [DebugIo.allHandlers, DebugIo.formatLoop, DebugIo.ddsHandler, run, exec, hcan, hfmt, Except.mapError]
  have hsl : transformSliceWithBundle (Dds.handler pl dbg) data fresh (bundleFor f .none false) w.st = some (o, (), .ok ()) := by
    have := hc.length
    unfold transformSliceWithBundle
    rw [if_neg (by omega)]
    exact hb fresh hc.length
  have hrun := (C37_file_with_multiple_handlers os w [Dds.handler pl dbg] (inDir ++ [name]) (outDir ++ [name]) hpne
    (bundleFor f .none false) data fresh ext hext' hr hc).1.1 (Dds.handler pl dbg) w.st
    ⟨[], [], w.st, rfl, rfl, by simp [Dds.handler, hcan]⟩
  rw [hsl] at hrun
  have hrun := hrun (by rw [ho, hc.length])
  unfold orFail
  rw [run_bind, hdetect]
  dsimp only
  cases hf with
  | bc1 =>
    change run os (testAllCombinations os (Cli.allHandlers pl dbg) (inDir ++ [name]) (outDir ++ [name]) bc1Bundle combinations) w = _
    unfold combinations
    simp only [List.flatMap_cons, List.map_cons, List.cons_append, testAllCombinations, Cli.allHandlers]
    rw [run_bind]
    change run os (transformFileWithMultipleHandlers os [Dds.handler pl dbg] (inDir ++ [name]) (outDir ++ [name])
      (bc1Bundle .none false)) w = _ at hrun
    rw [hrun]
    rfl
  | bc2 =>
    change run os (testAllCombinations os (Cli.allHandlers pl dbg) (inDir ++ [name]) (outDir ++ [name]) bc2Bundle combinations) w = _
    unfold combinations
    simp only [List.flatMap_cons, List.map_cons, List.cons_append, testAllCombinations, Cli.allHandlers]
    rw [run_bind]
    change run os (transformFileWithMultipleHandlers os [Dds.handler pl dbg] (inDir ++ [name]) (outDir ++ [name])
      (bc2Bundle .none false)) w = _ at hrun
    rw [hrun]
    rfl

theorem after_files {w : World Unit} {p q : Path} {c : Buf} {st : Unit} (h : q ≠ p) : (w.after p c st).files q = w.files q := by
  simp [World.after, h]

theorem after_self {w : World Unit} {p : Path} {c : Buf} {st : Unit} : (w.after p c st).files p = some c := by
  simp [World.after]

theorem untransformLoop_run {E : Type} {os : Os} {hs : List (Handler Unit E)} {inpDir outDir : Path} {name : String} {w : World Unit}
    {data : Buf} (hfile : (w.files (inpDir ++ [name])).isSome = true)
    (hgo : ∃ h, run os (untransformFileWithMultipleHandlers os hs (inpDir ++ [name]) (outDir ++ [name])) w =
      (w.after (outDir ++ [name]) data (), some (.ok h))) :
    (∀ names : List String, name ∉ names → ∀ w' : World Unit, (∀ n ∈ names, w'.files (inpDir ++ [n]) = none) →
      run os (untransformLoop os hs inpDir outDir names) w' = (w', some (.ok ()))) ∧
    (∀ names : List String, name ∈ names → names.Nodup → (∀ n ∈ names, n ≠ name → w.files (inpDir ++ [n]) = none) →
      run os (untransformLoop os hs inpDir outDir names) w = (w.after (outDir ++ [name]) data (), some (.ok ()))) := by
  have h1 : ∀ names : List String, name ∉ names → ∀ w' : World Unit, (∀ n ∈ names, w'.files (inpDir ++ [n]) = none) →
      run os (untransformLoop os hs inpDir outDir names) w' = (w', some (.ok ())) := by
    intro names
    induction names with
    | nil => intros; rfl
    | cons n names ih =>
      intro hn w' hw
      rw [List.mem_cons, not_or] at hn
      unfold untransformLoop
      rw [run_op]
      simp only [exec, hw n (by simp), Option.map_none, Option.isSome_none]
      exact ih hn.2 w' fun m hm => hw m (List.mem_cons_of_mem _ hm)
  refine ⟨h1, fun names => ?_⟩
  induction names with
  | nil => intro h; exact nomatch h
  | cons n names ih =>
    intro hm hnd hno
    unfold untransformLoop
    rw [run_op]
    rw [List.nodup_cons] at hnd
    by_cases hn : n = name
    · subst hn
      simp only [exec, Option.isSome_map, hfile, if_true]
      obtain ⟨h, hgo⟩ := hgo
      unfold orFail
      rw [run_bind, hgo]
      refine h1 names hnd.1 _ fun m hm' => ?_
      have hmn : m ≠ n := by rintro rfl; exact hnd.1 hm'
      rw [after_files (concat_ne hmn)]
      exact hno m (List.mem_cons_of_mem _ hm') hmn
    · simp only [exec, hno n (by simp) hn, Option.map_none, Option.isSome_none]
      exact ih ((List.mem_cons.1 hm).resolve_left (Ne.symm hn)) hnd.2 fun m h => hno m (List.mem_cons_of_mem _ h)

/-- The inverse command on a directory that holds one file, made by the first combination. -/
theorem run_untransformSingleFile {E : Type} {f : DebugIo.Format} {data o : Buf}
    {os : Os} (hos : Obliging os data.length) {pl : Dds.Platform} (hw : Wide pl) (hlen : data.length < 2 ^ 32) (dbg : E → String)
    (hb : ∀ fresh : Buf, fresh.length = data.length → transformBundle pl dbg (bundleFor f .none false) data fresh () = some (o, (), .ok ()))
    {w : World Unit} (htree : IsTree w) {inDir outDir : Path} {name : String} {ext : Option String}
    (hext : IsExtension os [name] ext) (hx : ext = none ∨ ext = some "dds") (hin : w.files (inDir ++ [name]) = some o)
    (honly : ∀ n, n ≠ name → w.files (inDir ++ [n]) = none) (ho : o.length = data.length)
    (hd : w.dirs outDir = true) (hn : w.dirs (outDir ++ [name]) = false) (hne : inDir ≠ outDir)
    (names : List String) (hnames : names.Nodup) (hmem : name ∈ names) :
    run os (untransformSingleFile os pl dbg (some names) inDir outDir) w = (w.after (outDir ++ [name]) data (), some (.ok ())) := by
  obtain ⟨fresh, hc⟩ := hos.creatable (name := name) hd hn
  have hpne : inDir ++ [name] ≠ outDir ++ [name] := fun h => hne (List.append_inj_left' h rfl)
  unfold untransformSingleFile
  rw [run_orFail_createDirAll os htree hd]
  refine (untransformLoop_run (by rw [hin]; rfl) ?_).2 names hmem hnames fun n _ h => honly n h
  have hsl : ∀ fresh : Buf, fresh.length = data.length →
      transformSliceWithBundle (Dds.handler pl dbg) data fresh (bundleFor f .none false) w.st = some (o, (), .ok ()) := by
    intro fresh hfl
    unfold transformSliceWithBundle
    rw [if_neg (by omega)]
    exact hb fresh hfl
  unfold Wide at hw
  have key := C26_dds_api_roundtrip pl pl rfl id (by omega) dbg (bundleFor f .none false) data fresh o w.st () w.st (by omega) hc.length
    (hsl fresh hc.length) fresh hc.length
  obtain ⟨r, hmul⟩ := key.2.2
  have hcl := hc.length
  obtain ⟨st1, hcan⟩ := one_handler_untransform (by omega) hmul
  have hr : Readable os w (inDir ++ [name]) o := ⟨hin, hos.canOpen _, hos.canSize _, by rw [ho]; exact hos.canMap _, by rw [ho]; exact hos.fits⟩
  have h37 := (C37_file_with_multiple_handlers os w [Dds.handler pl dbg] (inDir ++ [name]) (outDir ++ [name]) hpne
    (bundleFor f .none false) o fresh ext (extension_move hext inDir) hr (by rw [ho]; exact hc)).2.1 (Dds.handler pl dbg) w.st
    ⟨[], [], w.st, rfl, rfl, (dds_can_handle hx w.st).2.trans hcan⟩
  rw [key.1] at h37
  exact ⟨_, h37 (by omega)⟩

/-! ## The whole test -/

/-- The directories that the test has made are empty, and different. -/
structure Fresh (w : World Unit) (d : Dirs) : Prop where
  there : ∀ p ∈ [d.transformLe, d.transformBe, d.untransformLe, d.untransformBe], w.dirs p = true
  empty : ∀ p ∈ [d.transformLe, d.transformBe, d.untransformLe, d.untransformBe], ∀ rel, rel ≠ [] →
    w.files (p ++ rel) = none ∧ w.dirs (p ++ rel) = false
  distinct : [d.transformLe, d.transformBe, d.untransformLe, d.untransformBe].Nodup

/-- The state differs from `w` at most in the output files of the test. -/
def Near (w : World Unit) (d : Dirs) (name : String) (w' : World Unit) : Prop :=
  w'.dirs = w.dirs ∧ ∀ q, (∀ p ∈ [d.transformLe, d.transformBe, d.untransformLe, d.untransformBe], q ≠ p ++ [name]) →
    w'.files q = w.files q

/-- Directories can be listed and files can be read, all in the same portions. -/
structure Helpful (disk : Disk) (w : World Unit) : Prop where
  faithful : Faithful disk w
  list : ∀ p, w.dirs p = true → disk.list p ≠ none
  healthy : ∀ p, (w.files p).isSome = true → Healthy disk p
  portions : ∀ p q, disk.read p = disk.read q

theorem IsTree.after {w : World Unit} (ht : IsTree w) {dir : Path} {name : String} (c : Buf) (hd : w.dirs dir = true)
    (hn : w.dirs (dir ++ [name]) = false) : IsTree (w.after (dir ++ [name]) c ()) where
  parent p x h := by
    change w.dirs p = true
    by_cases hp : p ++ [x] = dir ++ [name]
    · rw [List.append_inj_left' hp rfl]; exact hd
    · rw [after_files hp] at h
      exact ht.parent p x h
  notBoth p h := by
    change w.dirs p = true at h
    have : p ≠ dir ++ [name] := by rintro rfl; rw [hn] at h; exact nomatch h
    rw [after_files this]
    exact ht.notBoth p h

/-- Files below different fresh directories are different. -/
theorem Fresh.ne {w : World Unit} {d : Dirs} (h : Fresh w d) {p q : Path}
    (hp : p ∈ [d.transformLe, d.transformBe, d.untransformLe, d.untransformBe])
    (hq : q ∈ [d.transformLe, d.transformBe, d.untransformLe, d.untransformBe]) (hne : p ≠ q) (name : String) (rel : Path) :
    p ++ rel ≠ q ++ [name] := by
  intro e
  rcases List.append_eq_append_iff.1 e with ⟨t, h1, h2⟩ | ⟨t, h1, h2⟩
  · have ht : t ≠ [] := by rintro rfl; exact hne (by simpa using h1.symm)
    have := (h.empty p hp t ht).2
    rw [← h1, h.there q hq] at this
    exact nomatch this
  · have ht : t ≠ [] := by rintro rfl; exact hne (by simpa using h1)
    have := (h.empty q hq t ht).2
    rw [← h1, h.there p hp] at this
    exact nomatch this

theorem compare_single {disk : Disk} {w : World Unit} (ht : IsTree w) (hh : Helpful disk w) {fuel : Nat} (hfuel : 1 ≤ fuel) {a b : Path}
    {name : String} {c : Buf} (ha : w.dirs a = true) (hb : w.dirs b = true) (ha0 : ∀ rel, rel ≠ [] → w.dirs (a ++ rel) = false)
    (hb0 : ∀ rel, rel ≠ [] → w.dirs (b ++ rel) = false) (hac : w.files (a ++ [name]) = some c) (hbc : w.files (b ++ [name]) = some c)
    (ha1 : ∀ rel, rel ≠ [] → rel ≠ [name] → w.files (a ++ rel) = none)
    (hb1 : ∀ rel, rel ≠ [] → rel ≠ [name] → w.files (b ++ rel) = none) :
    compareDirectories disk w fuel a b = some (.ok true) := by
  have walk : ∀ p, w.dirs p = true → (∀ rel, rel ≠ [] → w.dirs (p ++ rel) = false) → Walkable disk w p fuel := by
    intro p _ h0
    refine ⟨fun rel h => hh.list _ h, fun rel h => ?_, fun rel h => hh.healthy _ h⟩
    by_cases hr : rel = []
    · subst hr; exact hfuel
    · rw [h0 rel hr] at h; exact nomatch h
  refine ((C69_directories disk w ht hh.faithful fuel a b (walk a ha ha0) (walk b hb hb0) ha hb).2 fun rel => hh.portions _ _).2 ?_
  intro rel
  by_cases h0 : rel = []
  · subst h0
    rw [List.append_nil, List.append_nil, ht.notBoth a ha, ht.notBoth b hb]
  by_cases h1 : rel = [name]
  · subst h1; rw [hac, hbc]
  · rw [ha1 rel h0 h1, hb1 rel h0 h1]

/-- **C70** (result): what the test reports is what happened.  A failed transform is reported as such, nothing is undone and nothing
compared after it; the last flag says that both comparisons were made and found the directories equal. -/
theorem C70_result {σ E : Type} (lab : Lab σ E) (inpLe inpBe : Path) (d : Dirs) (w w' : World σ) (r : TestResult)
    (h : testFile lab inpLe inpBe d w = (w', some (.ok r))) :
    let a := runTransformCommand lab false inpLe d.transformLe w
    let b := runTransformCommand lab true inpBe d.transformBe a.1
    let c := runUntransformCommand lab false d.transformLe d.untransformLe b.1
    let e := runUntransformCommand lab true d.transformBe d.untransformBe c.1
    (r.transformSuccess = true ↔ a.2 = some true ∧ b.2 = some true) ∧
    (r.transformSuccess = false → r.untransformSuccess = false ∧ r.filesIdentical = false ∧ w' = b.1) ∧
    (r.transformSuccess = true → (r.untransformSuccess = true ↔ c.2 = some true ∧ e.2 = some true) ∧ w' = e.1) ∧
    (r.untransformSuccess = false → r.filesIdentical = false) ∧
    (r.untransformSuccess = true → r.transformSuccess = true ∧
      (r.filesIdentical = true ↔ compareDirectories (lab.diskOf b.1) b.1 lab.fuel d.transformLe d.transformBe = some (.ok true) ∧
        compareDirectories (lab.diskOf e.1) e.1 lab.fuel d.untransformLe d.untransformBe = some (.ok true))) := by
  intro a b c e
  unfold testFile at h
  rcases ha : a with ⟨wa, _ | sa⟩
  · rw [show runTransformCommand lab false inpLe d.transformLe w = _ from ha] at h
    simp at h
  rw [show runTransformCommand lab false inpLe d.transformLe w = _ from ha] at h
  dsimp only at h
  have ea : a.1 = wa := by rw [ha]
  have hb' : b = runTransformCommand lab true inpBe d.transformBe wa := by rw [← ea]
  rcases hb : b with ⟨wb, _ | sb⟩
  · rw [← hb', hb] at h
    simp at h
  rw [← hb', hb] at h
  dsimp only at h ⊢
  have eb : b.1 = wb := by rw [hb]
  have hc' : c = runUntransformCommand lab false d.transformLe d.untransformLe wb := by rw [← eb]
  by_cases h1 : (sa && sb) = true
  · rw [if_pos h1] at h
    have h1' := h1
    rw [Bool.and_eq_true] at h1'
    obtain ⟨rfl, rfl⟩ := h1'
    split at h
    · simp at h
    · simp at h
    · rename_i t ht
      rcases hc : c with ⟨wc, _ | sc⟩
      · rw [← hc', hc] at h
        simp at h
      rw [← hc', hc] at h
      dsimp only at h ⊢
      have ec : c.1 = wc := by rw [hc]
      have he' : e = runUntransformCommand lab true d.transformBe d.untransformBe wc := by rw [← ec]
      rcases he : e with ⟨we, _ | se⟩
      · rw [← he', he] at h
        simp at h
      rw [← he', he] at h
      dsimp only at h ⊢
      by_cases h2 : (sc && se) = true
      · rw [if_pos h2] at h
        have h2' := h2
        rw [Bool.and_eq_true] at h2'
        obtain ⟨rfl, rfl⟩ := h2'
        split at h
        · simp at h
        · simp at h
        · rename_i u hu
          simp only [Prod.mk.injEq, Option.some.injEq, Except.ok.injEq] at h
          obtain ⟨rfl, rfl⟩ := h
          rw [ht, hu]
          simp
      · rw [if_neg h2] at h
        rw [Bool.and_eq_true] at h2
        simp only [Prod.mk.injEq, Option.some.injEq, Except.ok.injEq] at h
        obtain ⟨rfl, rfl⟩ := h
        simp [h2]
  · rw [if_neg h1] at h
    rw [Bool.and_eq_true] at h1
    simp only [Prod.mk.injEq, Option.some.injEq, Except.ok.injEq] at h
    obtain ⟨rfl, rfl⟩ := h
    simp [h1]

/-- **C70** (process): a run of the tool counts as a success exactly if `cross` could be started and came to run it, both paths were accepted, and
the command returned without error; `cross` being missing is an error, and if it fails nothing happens. -/
theorem C70_process {σ E : Type} (lab : Lab σ E) (big : Bool) (inp out : Path) (w : World σ)
    (handler : World σ → Path → Path → Prog σ (Except CmdError Unit))
    (command : Path → Path → World σ → World σ × Option Bool)
    (hc : (command = runTransformCommand lab big ∧ handler = fun _ i o => transformSingleFile lab.os (if big then lab.be else lab.le) lab.dbg i o) ∨
      (command = runUntransformCommand lab big ∧ handler = fun w i o =>
        untransformSingleFile lab.os (if big then lab.be else lab.le) lab.dbg ((lab.diskOf w).list i) i o)) :
    (∀ w', command inp out w = (w', some true) ↔ lab.cross big inp out = some true ∧
      ∃ w1 i o, parsePaths lab.os lab.sight true inp out w = (w1, .ok (i, o)) ∧ run lab.os (handler w1 i o) w1 = (w', some (.ok ()))) ∧
    ((command inp out w).2 = none ↔ lab.cross big inp out = none) ∧
    (lab.cross big inp out ≠ some true → (command inp out w).1 = w) := by
  have hcmd : command = crossRun lab big handler := by
    rcases hc with ⟨h1, h2⟩ | ⟨h1, h2⟩ <;> rw [h1, h2] <;> rfl
  rw [hcmd]
  unfold crossRun
  rcases lab.cross big inp out with _ | _ | _
  · simp
  · simp
  · dsimp only
    refine ⟨fun w' => ?_, by simp, by simp⟩
    unfold toolProcess
    rcases parsePaths lab.os lab.sight true inp out w with ⟨w1, e | ⟨i, o⟩⟩
    · simp
    · dsimp only
      rcases hr : run lab.os (handler w1 i o) w1 with ⟨w2, _ | e | u⟩
      · simp [succeeded, hr]
      · simp [succeeded, hr]
      · simp [succeeded, hr]

/-- `cross` runs the tool, and all files and directories that exist are seen. -/
structure LabWorks {σ E : Type} (lab : Lab σ E) : Prop where
  cross : ∀ big inp out, lab.cross big inp out = some true
  sees : ∀ p, lab.sight.sees p = true
  resolves : ∀ p, lab.sight.resolves p = true

theorem crossRun_there {σ E : Type} {lab : Lab σ E} (hw : LabWorks lab) (big : Bool)
    (handler : World σ → Path → Path → Prog σ (Except CmdError Unit)) {inp out : Path} {w : World σ} (hi : isThere w inp = true)
    (ho : isThere w out = true) :
    crossRun lab big handler inp out w = ((run lab.os (handler w inp out) w).1, some (succeeded (run lab.os (handler w inp out) w))) := by
  unfold crossRun
  rw [hw.cross]
  simp [toolProcess, parsePaths, canonicalizeCliPath, hi, ho, hw.sees, hw.resolves]

theorem isThere_file {σ : Type} {w : World σ} {p : Path} {b : Buf} (h : w.files p = some b) : isThere w p = true := by
  unfold isThere; rw [h]; rfl

theorem isThere_dir {σ : Type} {w : World σ} {p : Path} (h : w.dirs p = true) : isThere w p = true := by
  unfold isThere; rw [h, Bool.or_true]

/-- **C70**: on two machines of whatever byte order the test of a complete BC1 or BC2 texture file passes.  It tries only the settings
without decorrelation, so that it cannot notice that transformed files with decorrelation are not portable (C49). -/
theorem C70_passes {E : Type} {f : DebugIo.Format} (hf : Tested f) {data : Buf} (ht : HoldsTexture f data) (hlen : data.length < 2 ^ 32)
    (lab : Lab Unit E) (hos : Obliging lab.os data.length) (hle : Wide lab.le) (hbe : Wide lab.be)
    (hle' : lab.le.overflowChecks = false) (hbe' : lab.be.overflowChecks = false) (hfuel : 1 ≤ lab.fuel) (hworks : LabWorks lab)
    (w : World Unit) (htree : IsTree w) (d : Dirs) (hfresh : Fresh w d) (leDir beDir : Path) (name : String) (ext : Option String)
    (hext : IsExtension lab.os [name] ext) (hx : ext = none ∨ ext = some "dds")
    (hinLe : w.files (leDir ++ [name]) = some data) (hinBe : w.files (beDir ++ [name]) = some data)
    (hdisk : ∀ w', Near w d name w' → Helpful (lab.diskOf w') w') :
    ∃ w', testFile lab (leDir ++ [name]) (beDir ++ [name]) d w = (w', some (.ok ⟨true, true, true⟩)) ∧
      Near w d name w' ∧ w'.files (d.transformLe ++ [name]) = w'.files (d.transformBe ++ [name]) ∧
      w'.files (d.untransformLe ++ [name]) = some data ∧ w'.files (d.untransformBe ++ [name]) = some data := by
  obtain ⟨o, ho, hall⟩ := C70_plain_file (E := E) hf ht hlen
  have hLe := fun fresh => hall lab.le lab.dbg fresh hle hle'
  have hBe := fun fresh => hall lab.be lab.dbg fresh hbe hbe'
  obtain ⟨tl, tb, ul, ub⟩ := d
  have hmem1 : tl ∈ [tl, tb, ul, ub] := by simp
  have hmem2 : tb ∈ [tl, tb, ul, ub] := by simp
  have hmem3 : ul ∈ [tl, tb, ul, ub] := by simp
  have hmem4 : ub ∈ [tl, tb, ul, ub] := by simp
  have hdist := hfresh.distinct
  simp only [List.nodup_cons, List.mem_cons, List.not_mem_nil, or_false, not_or, List.nodup_nil, not_false_eq_true, and_true] at hdist
  obtain ⟨⟨d12, d13, d14⟩, ⟨d23, d24⟩, d34⟩ := hdist
  have nd : ∀ p ∈ [tl, tb, ul, ub], ∀ n, w.dirs (p ++ [n]) = false := fun p hp n => (hfresh.empty p hp [n] (by simp)).2
  have inNe : ∀ (p : Path) (x : Path), p ∈ [tl, tb, ul, ub] → w.files (x ++ [name]) = some data → x ≠ p := by
    rintro p x hp h rfl
    rw [(hfresh.empty x hp [name] (by simp)).1] at h
    exact nomatch h
  have fe : ∀ {p q : Path}, p ∈ [tl, tb, ul, ub] → q ∈ [tl, tb, ul, ub] → p ≠ q → ∀ rel, p ++ rel ≠ q ++ [name] :=
    fun hp hq h rel => hfresh.ne hp hq h name rel
  have cat : ∀ {p rel : Path}, rel ≠ [name] → p ++ rel ≠ p ++ [name] := fun h e => h (List.append_cancel_left e)
  -- the four states
  have r1 := run_transformSingleFile hf ht hos hle hle' lab.dbg ho hLe htree hext hx hinLe (hfresh.there tl hmem1) (nd tl hmem1 name)
    (inNe tl leDir hmem1 hinLe)
  have t1 := htree.after o (hfresh.there tl hmem1) (nd tl hmem1 name)
  generalize hw1 : w.after (tl ++ [name]) o () = w1 at r1 t1
  have f1 : ∀ q, q ≠ tl ++ [name] → w1.files q = w.files q := fun q h => by rw [← hw1]; exact after_files h
  have s1 : w1.files (tl ++ [name]) = some o := by rw [← hw1]; exact after_self
  have dd1 : w1.dirs = w.dirs := by rw [← hw1]; rfl
  have inBe1 : w1.files (beDir ++ [name]) = some data := by
    rw [f1 _ fun e => inNe tl beDir hmem1 hinBe (List.append_inj_left' e rfl)]; exact hinBe
  have r2 := run_transformSingleFile hf ht hos hbe hbe' lab.dbg ho hBe t1 hext hx inBe1 (outDir := tb)
    (by rw [dd1]; exact hfresh.there tb hmem2) (by rw [dd1]; exact nd tb hmem2 name) (inNe tb beDir hmem2 hinBe)
  have t2 := t1.after (dir := tb) (name := name) o (by rw [dd1]; exact hfresh.there tb hmem2) (by rw [dd1]; exact nd tb hmem2 name)
  generalize hw2 : w1.after (tb ++ [name]) o () = w2 at r2 t2
  have f2 : ∀ q, q ≠ tb ++ [name] → w2.files q = w1.files q := fun q h => by rw [← hw2]; exact after_files h
  have s2 : w2.files (tb ++ [name]) = some o := by rw [← hw2]; exact after_self
  have dd2 : w2.dirs = w.dirs := by rw [← dd1, ← hw2]; rfl
  have s21 : w2.files (tl ++ [name]) = some o := by rw [f2 _ (fe hmem1 hmem2 d12 _)]; exact s1
  have near2 : Near w ⟨tl, tb, ul, ub⟩ name w2 := ⟨dd2, fun q h => by rw [f2 q (h tb hmem2), f1 q (h tl hmem1)]⟩
  have h2 := hdisk w2 near2
  have e2 : ∀ p ∈ [tl, tb, ul, ub], ∀ rel, rel ≠ [] → rel ≠ [name] → w2.files (p ++ rel) = none := by
    intro p hp rel h0 hrel
    rw [near2.2 _ fun q hq => ?_]
    · exact (hfresh.empty p hp rel h0).1
    · by_cases hpq : p = q
      · subst hpq; exact cat hrel
      · exact fe hp hq hpq rel
  have c1 := compare_single t2 h2 hfuel (a := tl) (b := tb) (by rw [dd2]; exact hfresh.there tl hmem1)
    (by rw [dd2]; exact hfresh.there tb hmem2) (fun rel h => by rw [dd2]; exact (hfresh.empty tl hmem1 rel h).2)
    (fun rel h => by rw [dd2]; exact (hfresh.empty tb hmem2 rel h).2) s21 s2 (e2 tl hmem1) (e2 tb hmem2)
  obtain ⟨nl, hnl⟩ : ∃ nl, (lab.diskOf w2).list tl = some nl :=
    Option.ne_none_iff_exists'.1 (h2.list tl (by rw [dd2]; exact hfresh.there tl hmem1))
  have r3 := run_untransformSingleFile hos hle hlen lab.dbg hLe t2 hext hx s21 (fun n h => e2 tl hmem1 [n] (by simp) (by simpa using h)) ho
    (outDir := ul) (by rw [dd2]; exact hfresh.there ul hmem3) (by rw [dd2]; exact nd ul hmem3 name) d13 nl (h2.faithful tl nl hnl).1
    ((h2.faithful tl nl hnl).2 name (.inl (by rw [s21]; rfl)))
  have t3 := t2.after (dir := ul) (name := name) data (by rw [dd2]; exact hfresh.there ul hmem3) (by rw [dd2]; exact nd ul hmem3 name)
  generalize hw3 : w2.after (ul ++ [name]) data () = w3 at r3 t3
  have f3 : ∀ q, q ≠ ul ++ [name] → w3.files q = w2.files q := fun q h => by rw [← hw3]; exact after_files h
  have s3 : w3.files (ul ++ [name]) = some data := by rw [← hw3]; exact after_self
  have dd3 : w3.dirs = w.dirs := by rw [← dd2, ← hw3]; rfl
  have s32 : w3.files (tb ++ [name]) = some o := by rw [f3 _ (fe hmem2 hmem3 d23 _)]; exact s2
  have s31 : w3.files (tl ++ [name]) = some o := by rw [f3 _ (fe hmem1 hmem3 d13 _)]; exact s21
  have near3 : Near w ⟨tl, tb, ul, ub⟩ name w3 := ⟨dd3, fun q h => by rw [f3 q (h ul hmem3), near2.2 q h]⟩
  have h3 := hdisk w3 near3
  obtain ⟨nb, hnb⟩ : ∃ nb, (lab.diskOf w3).list tb = some nb :=
    Option.ne_none_iff_exists'.1 (h3.list tb (by rw [dd3]; exact hfresh.there tb hmem2))
  have r4 := run_untransformSingleFile hos hbe hlen lab.dbg hBe t3 hext hx s32
    (fun n h => by rw [f3 _ (concat_ne h)]; exact e2 tb hmem2 [n] (by simp) (by simpa using h)) ho
    (outDir := ub) (by rw [dd3]; exact hfresh.there ub hmem4) (by rw [dd3]; exact nd ub hmem4 name) d24 nb (h3.faithful tb nb hnb).1
    ((h3.faithful tb nb hnb).2 name (.inl (by rw [s32]; rfl)))
  have t4 := t3.after (dir := ub) (name := name) data (by rw [dd3]; exact hfresh.there ub hmem4) (by rw [dd3]; exact nd ub hmem4 name)
  generalize hw4 : w3.after (ub ++ [name]) data () = w4 at r4 t4
  have f4 : ∀ q, q ≠ ub ++ [name] → w4.files q = w3.files q := fun q h => by rw [← hw4]; exact after_files h
  have s4 : w4.files (ub ++ [name]) = some data := by rw [← hw4]; exact after_self
  have dd4 : w4.dirs = w.dirs := by rw [← dd3, ← hw4]; rfl
  have near4 : Near w ⟨tl, tb, ul, ub⟩ name w4 := ⟨dd4, fun q h => by rw [f4 q (h ub hmem4), near3.2 q h]⟩
  have h4 := hdisk w4 near4
  have s43 : w4.files (ul ++ [name]) = some data := by rw [f4 _ (fe hmem3 hmem4 d34 _)]; exact s3
  have e4 : ∀ p ∈ [tl, tb, ul, ub], ∀ rel, rel ≠ [] → rel ≠ [name] → w4.files (p ++ rel) = none := by
    intro p hp rel h0 hrel
    rw [near4.2 _ fun q hq => ?_]
    · exact (hfresh.empty p hp rel h0).1
    · by_cases hpq : p = q
      · subst hpq; exact cat hrel
      · exact fe hp hq hpq rel
  have c2 := compare_single t4 h4 hfuel (a := ul) (b := ub) (by rw [dd4]; exact hfresh.there ul hmem3)
    (by rw [dd4]; exact hfresh.there ub hmem4) (fun rel h => by rw [dd4]; exact (hfresh.empty ul hmem3 rel h).2)
    (fun rel h => by rw [dd4]; exact (hfresh.empty ub hmem4 rel h).2) s43 s4 (e4 ul hmem3) (e4 ub hmem4)
  refine ⟨w4, ?_, near4, ?_, s43, s4⟩
  · have k1 : runTransformCommand lab false (leDir ++ [name]) tl w = (w1, some true) := by
      unfold runTransformCommand
      rw [crossRun_there hworks false _ (isThere_file hinLe) (isThere_dir (hfresh.there tl hmem1)), if_neg (by simp), r1]; rfl
    have k2 : runTransformCommand lab true (beDir ++ [name]) tb w1 = (w2, some true) := by
      unfold runTransformCommand
      rw [crossRun_there hworks true _ (isThere_file inBe1) (isThere_dir (by rw [dd1]; exact hfresh.there tb hmem2)), if_pos rfl, r2]; rfl
    have k3 : runUntransformCommand lab false tl ul w2 = (w3, some true) := by
      unfold runUntransformCommand
      rw [crossRun_there hworks false _ (isThere_dir (by rw [dd2]; exact hfresh.there tl hmem1))
        (isThere_dir (by rw [dd2]; exact hfresh.there ul hmem3)), if_neg (by simp), hnl, r3]; rfl
    have k4 : runUntransformCommand lab true tb ub w3 = (w4, some true) := by
      unfold runUntransformCommand
      rw [crossRun_there hworks true _ (isThere_dir (by rw [dd3]; exact hfresh.there tb hmem2))
        (isThere_dir (by rw [dd3]; exact hfresh.there ub hmem4)), if_pos rfl, hnb, r4]; rfl
    unfold testFile
    simp only [k1, k2, k3, k4, Bool.and_self, if_true, c1, c2]
  · show w4.files (tl ++ [name]) = w4.files (tb ++ [name])
    rw [f4 _ (fe hmem1 hmem4 d14 _), f4 _ (fe hmem2 hmem4 d24 _), s31, s32]

/-- **C70** (soundness): if a file passes, both directories with restored files hold the same files. -/
theorem C70_sound {E : Type} (lab : Lab Unit E) (inpLe inpBe : Path) (d : Dirs) (w w' : World Unit) (r : TestResult) (ht : IsTree w')
    (hd : Faithful (lab.diskOf w') w') (h : testFile lab inpLe inpBe d w = (w', some (.ok r))) (hr : r.isSuccess = true) (rel : Path)
    (hrel : rel ≠ []) : w'.files (d.untransformLe ++ rel) = w'.files (d.untransformBe ++ rel) := by
  obtain ⟨_, _, h3, _, h5⟩ := C70_result lab inpLe inpBe d w w' r h
  simp only [TestResult.isSuccess, Bool.and_eq_true] at hr
  have h6 := ((h5 hr.1.2).2.1 hr.2).2
  rw [← (h3 hr.1.1).2] at h6
  exact C69_directories_sound (lab.diskOf w') w' ht hd lab.fuel _ _ h6 rel hrel

/-! ## An example -/

/-- The directories of the test with the copies of `smallFile`. -/
def endianWorld : World Unit :=
  { files := fun p => if p = ["l", "a.dds"] ∨ p = ["b", "a.dds"] then some smallFile else none
    dirs := fun p => p ∈ [[], ["l"], ["b"], ["tl"], ["tb"], ["ul"], ["ub"]], counter := 0, st := () }

/-- The directories of the example. -/
def endianDirs : Dirs := ⟨["tl"], ["tb"], ["ul"], ["ub"]⟩

/-- Every name that occurs is listed; files are read in one go. -/
def endianDisk : Disk :=
  { list := fun _ => some ["l", "b", "tl", "tb", "ul", "ub", "a.dds"], stat := fun _ => true, canOpen := fun _ => true,
    read := fun _ _ => some bufferSize }

theorem endian_dirs {p : Path} (h : endianWorld.dirs p = true) :
    p = [] ∨ p = ["l"] ∨ p = ["b"] ∨ p = ["tl"] ∨ p = ["tb"] ∨ p = ["ul"] ∨ p = ["ub"] := by
  simpa [endianWorld] using h

theorem endian_files {p : Path} (h : (endianWorld.files p).isSome = true) : p = ["l", "a.dds"] ∨ p = ["b", "a.dds"] := by
  by_contra hn
  simp only [endianWorld, if_neg hn] at h
  exact nomatch h

theorem concat_eq_one {p : Path} {x y : String} (h : p ++ [x] = [y]) : p = [] ∧ x = y := by
  rcases p with _ | ⟨a, _ | ⟨b, p⟩⟩ <;> simp_all

theorem concat_eq_two {p : Path} {x y z : String} (h : p ++ [x] = [y, z]) : p = [y] ∧ x = z := by
  rcases p with _ | ⟨a, _ | ⟨b, _ | ⟨c, p⟩⟩⟩ <;> simp_all

theorem endian_tree : IsTree endianWorld where
  parent p x h := by
    rcases h with h | h
    · rcases endian_files h with h | h <;> (rw [(concat_eq_two h).1]; decide)
    · rcases endian_dirs h with h | h | h | h | h | h | h
      · simp at h
      all_goals rw [(concat_eq_one h).1]; decide
  notBoth p h := by
    rcases endian_dirs h with rfl | rfl | rfl | rfl | rfl | rfl | rfl <;> rfl

theorem endian_fresh : Fresh endianWorld endianDirs where
  there p hp := by
    simp only [endianDirs, List.mem_cons, List.not_mem_nil, or_false] at hp
    rcases hp with rfl | rfl | rfl | rfl <;> decide
  empty p hp rel hr := by
    simp only [endianDirs, List.mem_cons, List.not_mem_nil, or_false] at hp
    rcases rel with _ | ⟨x, rel⟩
    · exact absurd rfl hr
    constructor
    · rcases hf : endianWorld.files (p ++ x :: rel) with _ | b
      · rfl
      · rcases endian_files (by rw [hf]; rfl) with h | h <;> rcases hp with rfl | rfl | rfl | rfl <;> simp at h
    · rcases hd : endianWorld.dirs (p ++ x :: rel) with _ | _
      · rfl
      · rcases endian_dirs hd with h | h | h | h | h | h | h <;> rcases hp with rfl | rfl | rfl | rfl <;> simp at h
  distinct := by decide

theorem endian_helpful (w' : World Unit) (h : Near endianWorld endianDirs "a.dds" w') : Helpful endianDisk w' where
  faithful d names hl := by
    obtain rfl : names = ["l", "b", "tl", "tb", "ul", "ub", "a.dds"] := (Option.some.inj hl).symm
    refine ⟨by decide, fun name hn => ?_⟩
    rcases hn with hn | hn
    · by_cases hout : ∀ p ∈ [endianDirs.transformLe, endianDirs.transformBe, endianDirs.untransformLe, endianDirs.untransformBe],
          d ++ [name] ≠ p ++ ["a.dds"]
      · rw [h.2 _ hout] at hn
        rcases endian_files hn with hn | hn <;> rw [(concat_eq_two hn).2] <;> decide
      · obtain ⟨p, hp⟩ := not_forall.1 hout
        obtain ⟨_, hp⟩ := Classical.not_imp.1 hp
        have : name = "a.dds" := by
          by_contra hne
          exact hp (concat_ne hne)
        rw [this]; decide
    · rw [h.1] at hn
      rcases endian_dirs hn with hn | hn | hn | hn | hn | hn | hn
      · simp at hn
      all_goals rw [(concat_eq_one hn).2]; decide
  list _ _ := nofun
  healthy _ _ := ⟨rfl, rfl, fun _ => nofun⟩
  portions _ _ := rfl

/-- A little-endian and a big-endian machine. -/
def endianLab : Lab Unit Unit :=
  { os := openOs, sight := ⟨fun _ => true, fun _ => true⟩, diskOf := fun _ => endianDisk, fuel := 1, le := somePlatform,
    be := { somePlatform with m := .other .big fun _ => 0 }, dbg := fun _ => "", cross := fun _ _ _ => some true }

/-- Non-vacuity: the hypotheses of `C70_passes` hold. -/
example : ∃ w', testFile endianLab ["l", "a.dds"] ["b", "a.dds"] endianDirs endianWorld = (w', some (.ok ⟨true, true, true⟩)) := by
  obtain ⟨w', h, _⟩ := C70_passes (f := .bc1) .bc1 (data := smallFile) ⟨by decide +kernel, by decide +kernel, by decide +kernel⟩
    (by decide +kernel) endianLab ⟨fun _ => rfl, fun _ => rfl, fun _ => rfl, fun _ => rfl, fun _ _ => ⟨_, rfl, by simp⟩,
      by decide +kernel⟩
    (by unfold Wide; decide) (by unfold Wide; decide) rfl rfl
    (Nat.le_refl _) ⟨fun _ _ _ => rfl, fun _ => rfl, fun _ => rfl⟩ endianWorld endian_tree endianDirs endian_fresh ["l"] ["b"] "a.dds" (some "dds")
    (.inl ⟨[], ['a'], ['d', 'd', 's'], rfl, by simp, by decide, by simp, rfl⟩) (.inr rfl) rfl rfl endian_helpful
  exact ⟨w', h⟩

end Dlt.Props
