import Verif.Model.DebugIo
import Verif.Props.Bc1
import Verif.Props.Bc2
import Verif.Props.Bc3
import Verif.Props.Decode
import Verif.Props.DdsTotal
import Verif.Props.Cli
import Mathlib.Algebra.BigOperators.Fin
import Mathlib.Algebra.Order.BigOperators.Group.Finset
/-!
# C66: the round trip test of the debug commands
-/

namespace Dlt.Props

open Dlt.FileFormats Dlt.FileIo Dlt.FileIo.Prog Dlt.Cli Dlt.Dds Dlt.DebugIo
open Dlt.Embed (TransformFormat)

/-! ## Specification -/

/-- Bytes per block. -/
def bytesPerBlock : DebugIo.Format → Nat
  | .bc1 => 8
  | .bc2 => 16
  | .bc3 => 16

/-- How many buffers the test of one texture asks for: two for each of the settings. -/
def buffersNeeded : DebugIo.Format → Nat
  | .bc1 => 16
  | .bc2 => 16
  | .bc3 => 32

/-- The format of the same name in a DDS header. -/
def ddsName : DebugIo.Format → DdsFormat
  | .bc1 => .bc1
  | .bc2 => .bc2
  | .bc3 => .bc3

/-- The size of the texture as the parser reckons it (see C32). -/
def reckoned (b : Buf) : Nat := total (mipCount b) fun i => levelSize b i % 2 ^ 32

/-- The file is a complete DDS file with a texture in this format. -/
structure HoldsTexture (f : DebugIo.Format) (b : Buf) : Prop where
  dds : IsDds b
  format : classify b = ddsName f
  complete : headerSize b + reckoned b ≤ b.length

/-- The file at `p` is found, can be read, is not excluded by its extension, and holds a texture in this format for which all
allocations succeed. -/
structure CanBeTested (os : Os) (files : Path → Option Buf) (heap : Heap) (f : DebugIo.Format) (p : Path) (b : Buf) : Prop where
  file : files p = some b
  canOpen : os.canOpen p = true
  canSize : os.canSize p = true
  canMap : os.canMap p b.length = true
  extension : extractLowercaseExtension os p = none ∨ extractLowercaseExtension os p = some "dds"
  texture : HoldsTexture f b
  memory : ∀ j, j < buffersNeeded f → (heap j (reckoned b)).isSome

/-! ## The settings -/

/-- **C66** (settings): the lists of settings contain every setting once. -/
theorem C66_all_combinations :
    (∀ s, s ∈ allColour) ∧ allColour.Nodup ∧ (∀ s, s ∈ allBc3) ∧ allBc3.Nodup := by
  refine ⟨?_, by decide, ?_, by decide⟩
  · rintro ⟨v, s⟩; cases v <;> cases s <;> decide
  · rintro ⟨v, a, c⟩; cases v <;> cases a <;> cases c <;> decide

/-! ## The test of one texture -/

theorem firstMismatch_same {decode : Buf → Nat → Option Pixels} {size : Nat} {data : Buf}
    (hd : ∀ src, src + size ≤ data.length → ∃ px, decode data src = some px) :
    ∀ left i, (i + left) * size ≤ data.length → firstMismatch decode size data data left i = some none
  | 0, _, _ => rfl
  | left + 1, i, h => by
    have h1 : (i + (left + 1)) * size = i * size + size + left * size := by
      rw [Nat.add_mul, Nat.add_mul, Nat.one_mul]; omega
    obtain ⟨px, hp⟩ := hd (i * size) (by omega)
    unfold firstMismatch
    rw [hp]
    simp only [Option.bind_eq_bind, Option.bind_some, ne_eq, not_true_eq_false, if_false]
    exact firstMismatch_same hd left (i + 1) (by rw [show i + 1 + left = i + (left + 1) by omega]; exact h)

theorem firstMismatch_none {decode : Buf → Nat → Option Pixels} {size : Nat} {a b : Buf} :
    ∀ left i, firstMismatch decode size a b left i = some none → ∀ j, i ≤ j → j < i + left →
      ∃ px, decode a (j * size) = some px ∧ decode b (j * size) = some px
  | 0, i, _, j, h1, h2 => absurd h2 (by omega)
  | left + 1, i, h, j, h1, h2 => by
    unfold firstMismatch at h
    rcases ha : decode a (i * size) with _ | x
    · rw [ha] at h; exact nomatch h
    rcases hb : decode b (i * size) with _ | y
    · rw [ha, hb] at h; exact nomatch h
    rw [ha, hb] at h
    simp only [Option.bind_eq_bind, Option.bind_some] at h
    by_cases hxy : x = y
    · rw [if_neg (by simpa using hxy)] at h
      by_cases hj : j = i
      · subst hj; exact ⟨x, ha, by rw [hb, hxy]⟩
      · exact firstMismatch_none left (i + 1) h j (by omega) (by omega)
    · rw [if_pos hxy] at h; exact nomatch h

theorem testRoundtrip_eq {S : Type} {heap : Heap} (hw : heap.Wf) {T U : Buf → Buf → Nat → S → Option Buf}
    {decode : Buf → Nat → Option Pixels} {size : Nat} {data : Buf}
    (hr : ∀ s (out out' : Buf), out.length = data.length → out'.length = data.length →
      ∃ t, T data out data.length s = some t ∧ U t out' data.length s = some data)
    (hd : ∀ src, src + size ≤ data.length → ∃ px, decode data src = some px) :
    ∀ (ss : List S) k,
      ((∀ j, j < 2 * ss.length → (heap (k + j) data.length).isSome) →
        DebugIo.testRoundtrip heap T U decode size data k ss = some (.ok ())) ∧
      ((∃ j, j < 2 * ss.length ∧ heap (k + j) data.length = none) →
        DebugIo.testRoundtrip heap T U decode size data k ss = some (.error .allocate))
  | [], k => ⟨fun _ => rfl, fun ⟨j, hj, _⟩ => absurd hj (by simp)⟩
  | s :: rest, k => by
    have ih := testRoundtrip_eq hw hr hd rest (k + 2)
    rw [List.length_cons]
    rcases h0 : heap k data.length with _ | a
    · refine ⟨fun h => ?_, fun _ => ?_⟩
      · have := h 0 (by omega)
        rw [Nat.add_zero, h0] at this
        exact absurd this (by simp)
      · unfold DebugIo.testRoundtrip; rw [h0]
    rcases h1 : heap (k + 1) data.length with _ | b
    · refine ⟨fun h => ?_, fun _ => ?_⟩
      · have := h 1 (by omega)
        rw [h1] at this
        exact absurd this (by simp)
      · unfold DebugIo.testRoundtrip; rw [h0]; dsimp only; rw [h1]
    obtain ⟨t, ht, hu⟩ := hr s a b (hw _ _ _ h0) (hw _ _ _ h1)
    have hm := firstMismatch_same hd (data.length / size) 0 (by rw [Nat.zero_add]; exact Nat.div_mul_le_self _ _)
    have e : DebugIo.testRoundtrip heap T U decode size data k (s :: rest) =
        DebugIo.testRoundtrip heap T U decode size data (k + 2) rest := by
      rw [DebugIo.testRoundtrip, h0]
      dsimp only
      rw [h1]
      simp only [ht, hu, hm, Option.bind_eq_bind, Option.bind_some]
    rw [e]
    refine ⟨fun h => ih.1 fun j hj => ?_, fun ⟨j, hj, hn⟩ => ih.2 ⟨j - 2, ?_, ?_⟩⟩
    · rw [Nat.add_assoc]; exact h (2 + j) (by omega)
    · have : j ≠ 0 := by rintro rfl; rw [Nat.add_zero, h0] at hn; exact nomatch hn
      have : j ≠ 1 := by rintro rfl; rw [h1] at hn; exact nomatch hn
      omega
    · have : j ≠ 0 := by rintro rfl; rw [Nat.add_zero, h0] at hn; exact nomatch hn
      have : j ≠ 1 := by rintro rfl; rw [h1] at hn; exact nomatch hn
      rw [show k + 2 + (j - 2) = k + j by omega]; exact hn

/-- An implementation and the inverse on buffers of the same size. -/
theorem exact_roundtrip {B : Nat} {F G : Buf → Buf → Nat → Option Buf} {f g : Buf → Buf}
    (hF : Implements B F f) (hG : Implements B G g) (hgf : ∀ data : Buf, data.length % B = 0 → g (f data) = data)
    {data out out' : Buf} (hB : data.length % B = 0) (ho : out.length = data.length) (ho' : out'.length = data.length) :
    ∃ t, F data out data.length = some t ∧ G t out' data.length = some data := by
  obtain ⟨hl, hf⟩ := hF data out hB (by omega)
  have hg := (hG (f data) out' (by rw [hl]; exact hB) (by rw [hl]; omega)).2
  rw [hgf data hB, hl, List.drop_of_length_le (by omega), List.append_nil] at hg
  rw [List.drop_of_length_le (by omega), List.append_nil] at hf
  exact ⟨_, hf, hg⟩

/-- **C66** (texture): for every CPU and every whole number of blocks the test succeeds if the allocations do, and otherwise
reports the allocation; it never reports a mismatch. -/
theorem C66_texture (m : Machine) (heap : Heap) (hw : heap.Wf) (f : DebugIo.Format) (data : Buf)
    (h : data.length % bytesPerBlock f = 0) :
    ((∀ j, j < buffersNeeded f → (heap j data.length).isSome) → f.testRoundtrip m heap data = some (.ok ())) ∧
    ((∃ j, j < buffersNeeded f ∧ heap j data.length = none) → f.testRoundtrip m heap data = some (.error .allocate)) := by
  cases f with
  | bc1 =>
    have := testRoundtrip_eq (T := Bc1.transformWithSettings m) (U := Bc1.untransformWithSettings m) (decode := Decode.bc1)
      (size := 8) hw
      (fun s out out' ho ho' => exact_roundtrip (Bc1.transform_impl m s) (Bc1.untransform_impl m s)
        (fun d h => Bc1.decode_encode _ s d h) h ho ho')
      (fun src hs => (C56_bc1_decode data src hs).imp fun _ h => h.1) allColour 0
    simp only [Nat.zero_add] at this
    exact this
  | bc2 =>
    have := testRoundtrip_eq (T := Bc2.transformWithSettings m) (U := Bc2.untransformWithSettings m) (decode := Decode.bc2)
      (size := 16) hw
      (fun s out out' ho ho' => exact_roundtrip (Bc2.transform_impl m s) (Bc2.untransform_impl m s)
        (fun d h => Bc2.decode_encode _ s d h) h ho ho')
      (fun src hs => (C56_bc2_decode data src hs).imp fun _ h => h.1) allColour 0
    simp only [Nat.zero_add] at this
    exact this
  | bc3 =>
    have := testRoundtrip_eq (T := Bc3.transformWithSettings m) (U := Bc3.untransformWithSettings m) (decode := Decode.bc3)
      (size := 16) hw
      (fun s out out' ho ho' => exact_roundtrip (Bc3.transform_impl m s) (Bc3.untransform_impl m s)
        (fun d h => Bc3.decode_encode _ s d h) h ho ho')
      (fun src hs => (C56_bc3_decode data src hs).imp fun _ h => h.1) allBc3 0
    simp only [Nat.zero_add] at this
    exact this

/-- Non-vacuity of `C66_texture`: three BC1 blocks on an AVX2 machine with a heap that fails late. -/
example : DebugIo.Format.testRoundtrip (.x86 ⟨true, true, true, false, false, false, fun _ => 0⟩)
    (fun _ n => some (List.replicate n 9)) (List.replicate 24 0xAB) .bc1 = some (.ok ()) ∧
    DebugIo.Format.testRoundtrip (.x86 ⟨true, true, true, false, false, false, fun _ => 0⟩)
    (fun k n => if k = 15 then none else some (List.replicate n 9)) (List.replicate 24 0xAB) .bc1 =
      some (.error .allocate) := by
  constructor
  · refine (C66_texture _ _ ?_ .bc1 _ (by decide)).1 fun _ _ => rfl
    rintro k n b ⟨⟩; simp
  · refine (C66_texture _ _ ?_ .bc1 _ (by decide)).2 ⟨15, by decide, rfl⟩
    intro k n b h
    dsimp only at h
    split at h
    · exact nomatch h
    · simp only [Option.some.injEq] at h; rw [← h]; simp

/-- **C66** (what success means): whatever the transformation and its inverse do, if the test succeeds then for each of the
settings every whole block decodes to the same pixels before and after. -/
theorem C66_success {S : Type} (heap : Heap) (T U : Buf → Buf → Nat → S → Option Buf) (decode : Buf → Nat → Option Pixels)
    (size : Nat) (data : Buf) : ∀ (ss : List S) (k : Nat),
    DebugIo.testRoundtrip heap T U decode size data k ss = some (.ok ()) → ∀ s ∈ ss,
      ∃ a b t r, T data a data.length s = some t ∧ U t b data.length s = some r ∧
        ∀ i, i < data.length / size → ∃ px, decode data (i * size) = some px ∧ decode r (i * size) = some px
  | [], _, _, s, hs => by simp at hs
  | s0 :: rest, k, h, s, hs => by
    rw [DebugIo.testRoundtrip] at h
    rcases h0 : heap k data.length with _ | a
    · rw [h0] at h; simp at h
    rcases h1 : heap (k + 1) data.length with _ | b
    · rw [h0] at h; dsimp only at h; rw [h1] at h; simp at h
    rw [h0] at h
    dsimp only at h
    rw [h1] at h
    dsimp only at h
    rcases ht : T data a data.length s0 with _ | t
    · rw [ht] at h; exact nomatch h
    rcases hu : U t b data.length s0 with _ | r
    · rw [ht, Option.bind_eq_bind, Option.bind_some, hu] at h; exact nomatch h
    rw [ht, Option.bind_eq_bind, Option.bind_some, hu, Option.bind_eq_bind, Option.bind_some] at h
    rcases hm : firstMismatch decode size data r (data.length / size) 0 with _ | _ | i
    · rw [hm] at h; exact nomatch h
    · rw [hm] at h
      rcases List.mem_cons.1 hs with rfl | hs
      · exact ⟨a, b, t, r, ht, hu, fun i hi => firstMismatch_none _ _ hm i (Nat.zero_le _) (by omega)⟩
      · exact C66_success heap T U decode size data rest (k + 2) h s hs
    · rw [hm] at h; simp at h

/-- **C66** (what success does not mean): there is a BC1 block and a wrong inverse that returns other bytes, and the test
succeeds. -/
theorem C66_pixels_only :
    ∃ (U : Buf → Buf → Nat → ColourSettings → Option Buf) (data : Buf), data.length = 8 ∧
      DebugIo.testRoundtrip (fun _ n => some (List.replicate n 0)) (Bc1.transformWithSettings (.other .little fun _ => 0)) U
        Decode.bc1 8 data 0 allColour = some (.ok ()) ∧
      ∀ s t out, Bc1.transformWithSettings (.other .little fun _ => 0) data out 8 s = some t → U t out 8 s ≠ some data := by
  refine ⟨fun _ _ _ _ => some (List.replicate 8 0), [0, 0, 0, 0, 0x55, 0x55, 0x55, 0x55], rfl, ?_, ?_⟩
  · have : ((DebugIo.testRoundtrip (fun _ n => some (List.replicate n 0))
        (Bc1.transformWithSettings (.other .little fun _ => 0)) (fun _ _ _ _ => some (List.replicate 8 0)) Decode.bc1 8
        [0, 0, 0, 0, 0x55, 0x55, 0x55, 0x55] 0 allColour).map fun r => r.toOption) = some (some ()) := by decide +kernel
    rcases h : DebugIo.testRoundtrip (fun _ n => some (List.replicate n 0))
        (Bc1.transformWithSettings (.other .little fun _ => 0)) (fun _ _ _ _ => some (List.replicate 8 0)) Decode.bc1 8
        [0, 0, 0, 0, 0x55, 0x55, 0x55, 0x55] 0 allColour with _ | _ | _
    · rw [h] at this; exact nomatch this
    · rw [h] at this; simp [Except.toOption] at this
    · rfl
  · intro _ _ _ _ h
    exact absurd (Option.some.inj h) (by decide)

/-! ## The test of one file -/

/-- A program that only reads, with its result, while the files are `files`. -/
inductive Reads {σ α : Type} (os : Os) (files : Path → Option Buf) : Prog σ α → α → Prop where
  | ret (a : α) : Reads os files (.ret a) a
  | op {β : Type} (s : Sys σ β) (k : β → Prog σ α) (b : β) (a : α)
      (h : ∀ w : World σ, w.files = files → exec os s w = (w, some b)) (hk : Reads os files (k b) a) :
      Reads os files (.op s k) a

theorem Reads.bind {σ α β : Type} {os : Os} {files : Path → Option Buf} {x : Prog σ α} {a : α} (hx : Reads os files x a)
    {f : α → Prog σ β} {b : β} (hf : Reads os files (f a) b) : Reads os files (x.bind f) b := by
  induction hx with
  | ret a => exact hf
  | op s k c a h _ ih => exact .op s _ c b h (ih hf)

theorem Reads.run {σ α : Type} {os : Os} {files : Path → Option Buf} {x : Prog σ α} {a : α} (hx : Reads os files x a)
    (w : World σ) (hw : w.files = files) : Prog.run os x w = (w, some a) := by
  induction hx with
  | ret a => rfl
  | op s k c a h _ ih => rw [run_op, h w hw]; exact ih

theorem reads_withInput_ok {σ α : Type} {os : Os} {files : Path → Option Buf} {p : Path} {b : Buf} (hf : files p = some b)
    (h1 : os.canOpen p = true) (h2 : os.canSize p = true) (h3 : os.canMap p b.length = true) (h4 : b.length ≤ os.usizeMax)
    {k : Buf → Prog σ (Except FileError α)} {a : Except FileError α} (hk : Reads os files (k b) a) :
    Reads os files (withInput os p k) a := by
  have hn : b.length % (os.usizeMax + 1) = b.length := Nat.mod_eq_of_lt (by omega)
  refine .op _ _ (.ok ()) _ (fun w hw => by simp [exec, hw, hf, h1]) ?_
  refine .op _ _ (.ok b.length) _ (fun w hw => by simp [exec, hw, hf, h2]) ?_
  refine .op _ _ (.ok b) _ (fun w hw => by simp [exec, hw, hf, hn, h3]) ?_
  exact hk

theorem reads_withInput_error {σ α : Type} {os : Os} {files : Path → Option Buf} {p : Path}
    (hl : ∀ b, files p = some b → b.length ≤ os.usizeMax)
    (h : ¬ ∃ b, files p = some b ∧ os.canOpen p = true ∧ os.canSize p = true ∧ os.canMap p b.length = true)
    (k : Buf → Prog σ (Except FileError α)) : ∃ e, Reads os files (withInput os p k) (.error (.io e)) := by
  rcases hf : files p with _ | b
  · exact ⟨.fileHandle, .op _ _ (.error .fileHandle) _ (fun w hw => by simp [exec, hw, hf]) (.ret _)⟩
  have hn : b.length % (os.usizeMax + 1) = b.length := Nat.mod_eq_of_lt (by have := hl b hf; omega)
  cases h1 : os.canOpen p with
  | false => exact ⟨.fileHandle, .op _ _ (.error .fileHandle) _ (fun w hw => by simp [exec, hw, hf, h1]) (.ret _)⟩
  | true =>
  cases h2 : os.canSize p with
  | false =>
    refine ⟨.fileHandle, .op _ _ (.ok ()) _ (fun w hw => by simp [exec, hw, hf, h1]) ?_⟩
    exact .op _ _ (.error .fileHandle) _ (fun w hw => by simp [exec, hw, hf, h2]) (.ret _)
  | true =>
  cases h3 : os.canMap p b.length with
  | false =>
    refine ⟨.memoryMapping, .op _ _ (.ok ()) _ (fun w hw => by simp [exec, hw, hf, h1]) ?_⟩
    refine .op _ _ (.ok b.length) _ (fun w hw => by simp [exec, hw, hf, h2]) ?_
    exact .op _ _ (.error .memoryMapping) _ (fun w hw => by simp [exec, hw, hf, hn, h3]) (.ret _)
  | true => exact absurd ⟨b, hf, h1, h2, h3⟩ h

/-- A call that does not depend on the state. -/
theorem reads_call {σ α β : Type} {os : Os} {files : Path → Option Buf} {r : Option β} {b : β} (hr : r = some b)
    {k : β → Prog σ α} {a : α} (hk : Reads os files (k b) a) :
    Reads os files (.op (.call fun st => r.map fun b => (st, b)) k) a :=
  .op _ _ b _ (fun w _ => by simp [exec, hr]) hk

theorem total_mul_mod {k : Nat} (hk : k ∣ 2 ^ 32) {n : Nat} {f : Nat → Nat} (h : ∀ i, k ∣ f i) :
    k ∣ total n fun i => f i % 2 ^ 32 := by
  unfold total
  refine List.dvd_sum fun x hx => ?_
  obtain ⟨i, _, rfl⟩ := List.mem_map.1 hx
  exact (Nat.dvd_mod_iff hk).2 (h i)

theorem reckoned_mod {f : DebugIo.Format} {b : Buf} (h : classify b = ddsName f) : reckoned b % bytesPerBlock f = 0 := by
  refine Nat.mod_eq_zero_of_dvd ?_
  refine total_mul_mod (by cases f <;> decide) fun i => ?_
  unfold levelSize
  rw [h]
  cases f <;> exact Nat.dvd_mul_left _ _

/-- The filter of a command lets the format of the same name pass and no other. -/
theorem passes_filter (f : DebugIo.Format) (b : Buf) :
    (∃ g, sameName (classify b) = some g ∧ Passes f.filter g) ↔ classify b = ddsName f := by
  cases f <;> rcases classify b with _ | _ | _ | _ | _ | _ | _ | _ | _ | _ | _ | _ <;>
    simp [sameName, Passes, DebugIo.Format.filter, ddsName]

/-- **C66** (file): no file, directory or counter is changed by the test of a file, nothing panics, and the test succeeds
exactly for the files that can be tested; a texture that runs out of memory is not told from a file of another format, but a file
that cannot be read is reported. -/
theorem C66_file {σ : Type} (os : Os) (pl : Platform) (hw : Wide pl) (hc : pl.overflowChecks = false)
    (heap : Heap) (hh : heap.Wf) (f : DebugIo.Format) (p : Path) (files : Path → Option Buf)
    (hl : ∀ b, files p = some b → b.length < 2 ^ 32 ∧ b.length ≤ os.usizeMax) :
    ∃ r : Except CliError Unit, Reads os files (testRoundtripFile (σ := σ) os pl heap f p) r ∧
      (r = .ok () ↔ ∃ b, CanBeTested os files heap f p b) ∧
      (∀ b, files p = some b → os.canOpen p = true → os.canSize p = true → os.canMap p b.length = true →
        (extractLowercaseExtension os p = none ∨ extractLowercaseExtension os p = some "dds") → HoldsTexture f b →
        (∃ j, j < buffersNeeded f ∧ heap j (reckoned b) = none) →
        r = .error (.fileOperation (.transform .noSupportedHandler)) ∧ debugErrorPrinted r = false) ∧
      ((¬ ∃ b, files p = some b ∧ os.canOpen p = true ∧ os.canSize p = true ∧ os.canMap p b.length = true) →
        debugErrorPrinted r = true) := by
  by_cases hr : ∃ b, files p = some b ∧ os.canOpen p = true ∧ os.canSize p = true ∧ os.canMap p b.length = true
  swap
  · obtain ⟨e, he⟩ := reads_withInput_error (σ := σ) (fun b hb => (hl b hb).2) hr
      (fun data => extractLoop data (extractLowercaseExtension os p) f.filter
        (fun data _ => (Prog.op (.call fun st => (f.testRoundtrip pl.m heap data).map fun r => (st, r)) Prog.ret).bind fun r =>
          .ret (r.mapError fun _ => .noSupportedHandler)) (DebugIo.allHandlers pl))
    refine ⟨.error (.fileOperation (.io e)), he.bind (.ret _), ⟨nofun, ?_⟩, ?_, fun _ => rfl⟩
    · rintro ⟨b, h⟩
      exact absurd ⟨b, h.file, h.canOpen, h.canSize, h.canMap⟩ hr
    · intro b h1 h2 h3 h4
      exact absurd ⟨b, h1, h2, h3, h4⟩ hr
  obtain ⟨b, hf, h1, h2, h3⟩ := hr
  obtain ⟨hl1, hl2⟩ := hl b hf
  -- everything but the mapping of the file
  suffices h : ∃ r : Except FileError Unit, Reads os files (extractLoop (σ := σ) b (extractLowercaseExtension os p) f.filter
        (fun data _ => (Prog.op (.call fun st => (f.testRoundtrip pl.m heap data).map fun r => (st, r)) Prog.ret).bind fun r =>
          .ret (r.mapError fun _ => .noSupportedHandler)) (DebugIo.allHandlers pl)) r ∧
      (r = .ok () ↔ (extractLowercaseExtension os p = none ∨ extractLowercaseExtension os p = some "dds") ∧ HoldsTexture f b ∧
        ∀ j, j < buffersNeeded f → (heap j (reckoned b)).isSome) ∧
      ((extractLowercaseExtension os p = none ∨ extractLowercaseExtension os p = some "dds") → HoldsTexture f b →
        (∃ j, j < buffersNeeded f ∧ heap j (reckoned b) = none) → r = .error (.transform .noSupportedHandler)) by
    obtain ⟨r, hr, hok, hne⟩ := h
    refine ⟨r.mapError .fileOperation, (reads_withInput_ok hf h1 h2 h3 hl2 hr).bind (.ret _), ?_, ?_, fun hn =>
      absurd ⟨b, hf, h1, h2, h3⟩ hn⟩
    · have : r.mapError CliError.fileOperation = .ok () ↔ r = .ok () := by
        cases r <;> simp [Except.mapError]
      rw [this, hok]
      constructor
      · rintro ⟨a1, a2, a3⟩
        exact ⟨b, hf, h1, h2, h3, a1, a2, a3⟩
      · rintro ⟨b', h⟩
        obtain rfl : b = b' := Option.some.inj (hf.symm.trans h.file)
        exact ⟨h.extension, h.texture, h.memory⟩
    · intro b' hf' _ _ _ he ht hm
      obtain rfl : b = b' := Option.some.inj (hf.symm.trans hf')
      rw [hne he ht hm]
      exact ⟨rfl, rfl⟩
  obtain ⟨yes, hy⟩ : ∃ yes, canHandle pl b (extractLowercaseExtension os p) = some yes := by
    have := C33_detection pl b (extractLowercaseExtension os p)
    by_cases he : extractLowercaseExtension os p = none ∨ extractLowercaseExtension os p = some "dds"
    · by_cases hd : IsDds b
      · exact ⟨_, ((this.2 he).2 hd).2 hc⟩
      · exact ⟨_, (this.2 he).1 hd⟩
    · rw [not_or] at he
      exact ⟨_, this.1 he.1 he.2⟩
  cases yes with
  | false =>
    have hno : ¬ ((extractLowercaseExtension os p = none ∨ extractLowercaseExtension os p = some "dds") ∧ IsDds b) := by
      rintro ⟨he, hd⟩
      exact (((C33_detection pl b _).2 he).2 hd).1 hy
    refine ⟨.error (.transform .noSupportedHandler), reads_call hy (.ret _), ⟨nofun, ?_⟩, fun _ _ _ => rfl⟩
    rintro ⟨h1, h2, _⟩
    exact absurd ⟨h1, h2.dds⟩ hno
  | true =>
    have hyes : (extractLowercaseExtension os p = none ∨ extractLowercaseExtension os p = some "dds") ∧ IsDds b := by
      have h33 := C33_detection pl b (extractLowercaseExtension os p)
      have he : extractLowercaseExtension os p = none ∨ extractLowercaseExtension os p = some "dds" := by
        by_contra hn
        rw [not_or] at hn
        rw [h33.1 hn.1 hn.2] at hy
        exact nomatch hy
      refine ⟨he, ?_⟩
      by_contra hd
      rw [(h33.2 he).1 hd] at hy
      exact nomatch hy
    obtain ⟨he, hd⟩ := hyes
    obtain ⟨info, hi, hlen⟩ := (C32_size_reported pl b hd).2 (.inl hc)
    have h54 := (C54_extraction pl hw b f.filter).2 info hi
    by_cases hcl : classify b = ddsName f
    · obtain ⟨g, hg, hp⟩ := (passes_filter f b).2 hcl
      obtain ⟨_, hshort, hlong⟩ := (h54.2 g hg).2 hp
      by_cases hcomp : headerSize b + reckoned b ≤ b.length
      · have hcap : info.dataLength.toNat = reckoned b := by
          rw [hlen]
          exact Nat.min_eq_left (by unfold reckoned at hcomp; omega)
        rw [hcap] at hlong
        have hsl : (slice b (headerSize b) (reckoned b)).length = reckoned b := slice_length_of_le (by omega)
        have h66 := C66_texture pl.m heap hh f (slice b (headerSize b) (reckoned b)) (by rw [hsl]; exact reckoned_mod hcl)
        rw [hsl] at h66
        by_cases hm : ∀ j, j < buffersNeeded f → (heap j (reckoned b)).isSome
        · refine ⟨.ok (), reads_call hy (reads_call (hlong hcomp) ?_), ⟨fun _ => ⟨he, ⟨hd, hcl, hcomp⟩, hm⟩, fun _ => rfl⟩, ?_⟩
          · exact Reads.bind (a := .ok ()) (reads_call (h66.1 hm) (.ret _)) (.ret _)
          · rintro _ _ ⟨j, hj, hn⟩
            have := hm j hj
            rw [hn] at this
            exact absurd this (by simp)
        · have hm' : ∃ j, j < buffersNeeded f ∧ heap j (reckoned b) = none := by
            by_contra hno
            refine hm fun j hj => ?_
            rcases hx : heap j (reckoned b) with _ | _
            · exact absurd ⟨j, hj, hx⟩ hno
            · rfl
          refine ⟨.error (.transform .noSupportedHandler), reads_call hy (reads_call (hlong hcomp) ?_), ⟨nofun, ?_⟩,
            fun _ _ _ => rfl⟩
          · exact Reads.bind (a := .error .noSupportedHandler) (reads_call (h66.2 hm') (.ret _)) (.ret _)
          · rintro ⟨_, _, h⟩
            exact absurd h hm
      · refine ⟨_, reads_call hy (reads_call (hshort ?_) (.ret _)), ⟨nofun, ?_⟩, ?_⟩
        · rw [hlen]
          unfold reckoned at hcomp
          have : 0 < headerSize b := by unfold headerSize; split <;> omega
          omega
        · rintro ⟨_, h, _⟩
          exact absurd h.complete hcomp
        · intro _ h
          exact absurd h.complete hcomp
    · have hnot : extractBlocks pl b f.filter = some (.error (.formatHandler .unknownFileFormat)) ∨
          extractBlocks pl b f.filter = some (.ok none) := by
        rcases hs : sameName (classify b) with _ | g
        · exact .inl (h54.1 hs).1
        · refine .inr ((h54.2 g hs).1 ?_).1
          intro hp
          exact hcl ((passes_filter f b).1 ⟨g, hs, hp⟩)
      have hno : ¬ HoldsTexture f b := fun h => hcl h.format
      rcases hnot with h | h
      · exact ⟨_, reads_call hy (reads_call h (.ret _)), ⟨nofun, fun h => absurd h.2.1 hno⟩, fun _ h => absurd h hno⟩
      · exact ⟨_, reads_call hy (reads_call h (.ret _)), ⟨nofun, fun h => absurd h.2.1 hno⟩, fun _ h => absurd h hno⟩

/-! ## The command -/

/-- A program that adds `d` to the counters and otherwise only reads. -/
inductive Yields (os : Os) (files : Path → Option Buf) : Prog Counters Unit → Nat × Nat → Prop where
  | ret : Yields os files (.ret ()) (0, 0)
  | op {β : Type} (s : Sys Counters β) (k : β → Prog Counters Unit) (b : β) (d e : Nat × Nat)
      (h : ∀ w : World Counters, w.files = files → exec os s w =
        ({ w with st := ⟨w.st.tested + BitVec.ofNat 64 d.1, w.st.passed + BitVec.ofNat 64 d.2⟩ }, some b))
      (hk : Yields os files (k b) e) : Yields os files (.op s k) (d.1 + e.1, d.2 + e.2)

theorem Reads.yields {α : Type} {os : Os} {files : Path → Option Buf} {x : Prog Counters α} {a : α} (hx : Reads os files x a)
    {f : α → Prog Counters Unit} {e : Nat × Nat} (hf : Yields os files (f a) e) : Yields os files (x.bind f) e := by
  induction hx with
  | ret a => exact hf
  | op s k c a h _ ih =>
    have := Yields.op (files := files) (os := os) s (fun b => (k b).bind f) c (0, 0) e
      (fun w hw => by rw [h w hw]; simp) (ih hf)
    simp only [Nat.zero_add] at this
    exact this

/-- One for a success. -/
def score : Except CliError Unit → Nat
  | .ok () => 1
  | .error _ => 0

theorem yields_job {os : Os} {pl : Platform} {heap : Heap} {f : DebugIo.Format} {p : Path} {files : Path → Option Buf}
    {r : Except CliError Unit} (h : Reads os files (testRoundtripFile (σ := Counters) os pl heap f p) r) :
    Yields os files (roundtripJob os pl heap f p) (1, score r) := by
  rw [show (1, score r) = ((1, 0) : Nat × Nat).map (· + (0, score r).1) (· + (0, score r).2) by simp [Prod.map]]
  refine Yields.op addTested _ () (1, 0) (0, score r) (fun w hw => by simp [exec, addTested]) (h.yields ?_)
  cases r with
  | error e => exact .ret
  | ok u => exact Yields.op addPassed _ () (0, 1) (0, 0) (fun w hw => by simp [exec, addPassed]) .ret

/-- The counters of a configuration in which program `i` will still add `e i`. -/
theorem yields_steps {n : Nat} {os : Os} {files : Path → Option Buf} {c c' : Config (Fin n) Counters Unit}
    (hs : Steps os c c') (hf : c.world.files = files) (e : Fin n → Nat × Nat)
    (he : ∀ i, Yields os files (c.progs i) (e i)) :
    c'.world.files = files ∧ c'.world.dirs = c.world.dirs ∧ c'.world.counter = c.world.counter ∧
    ∃ e' : Fin n → Nat × Nat, (∀ i, Yields os files (c'.progs i) (e' i)) ∧
      c'.world.st.tested + BitVec.ofNat 64 (∑ i, (e' i).1) = c.world.st.tested + BitVec.ofNat 64 (∑ i, (e i).1) ∧
      c'.world.st.passed + BitVec.ofNat 64 (∑ i, (e' i).2) = c.world.st.passed + BitVec.ofNat 64 (∑ i, (e i).2) := by
  induction hs with
  | refl => exact ⟨hf, rfl, rfl, e, he, rfl, rfl⟩
  | @tail a b _ st ih =>
    obtain ⟨h1, h2, h3, e', h4, h5, h6⟩ := ih
    obtain ⟨i, s, k, hp⟩ := st
    have hy := h4 i
    rw [hp] at hy
    generalize hg : e' i = ei at hy
    cases hy with
    | op _ _ c d e2 hex hk =>
      rw [hex a.world h1]
      refine ⟨h1, h2, h3, Function.update e' i e2, ?_, ?_, ?_⟩
      · intro j
        by_cases hj : j = i
        · subst hj; simpa [resume] using hk
        · simpa [hj] using h4 j
      · rw [← h5]
        have : ∑ j, (e' j).1 = d.1 + ∑ j, (Function.update e' i e2 j).1 := by
          rw [← Finset.add_sum_erase _ _ (Finset.mem_univ i), ← Finset.add_sum_erase Finset.univ
            (fun j => (Function.update e' i e2 j).1) (Finset.mem_univ i), hg]
          simp only [Function.update_self]
          rw [Nat.add_assoc]
          congr 2
          refine Finset.sum_congr rfl fun j hj => ?_
          rw [Function.update_of_ne (Finset.ne_of_mem_erase hj)]
        rw [this, BitVec.ofNat_add]
        simp only [BitVec.add_assoc]
      · rw [← h6]
        have : ∑ j, (e' j).2 = d.2 + ∑ j, (Function.update e' i e2 j).2 := by
          rw [← Finset.add_sum_erase _ _ (Finset.mem_univ i), ← Finset.add_sum_erase Finset.univ
            (fun j => (Function.update e' i e2 j).2) (Finset.mem_univ i), hg]
          simp only [Function.update_self]
          rw [Nat.add_assoc]
          congr 2
          refine Finset.sum_congr rfl fun j hj => ?_
          rw [Function.update_of_ne (Finset.ne_of_mem_erase hj)]
        rw [this, BitVec.ofNat_add]
        simp only [BitVec.add_assoc]

/-- **C66** (command): in every interleaving of the threads, when all files have been dealt with, none has panicked, no file
or directory has changed, and the command reports success exactly if every file of the directory can be tested.  So a single
file of another kind makes the command fail. -/
theorem C66_command (os : Os) (pl : Platform) (hw : Wide pl) (hc : pl.overflowChecks = false)
    (f : DebugIo.Format) (entries : List Path) (hn : entries.length < 2 ^ 64)
    (heaps : Fin entries.length → Heap) (hh : ∀ i, (heaps i).Wf) (w : World Counters) (hw0 : w.st = ⟨0, 0⟩)
    (hl : ∀ p b, w.files p = some b → b.length < 2 ^ 32 ∧ b.length ≤ os.usizeMax)
    (c : Config (Fin entries.length) Counters Unit)
    (hs : Steps os ⟨w, fun i => roundtripJob os pl (heaps i) f entries[i]⟩ c) (hend : ∀ i, ended (c.progs i) ≠ none) :
    (∀ i, ended (c.progs i) = some (some ())) ∧ c.world.files = w.files ∧ c.world.dirs = w.dirs ∧
    (roundtripVerdict c.world.st = .ok () ↔ ∀ i, ∃ b, CanBeTested os w.files (heaps i) f entries[i] b) ∧
    (roundtripVerdict c.world.st ≠ .ok () →
      roundtripVerdict c.world.st = .error (.debug "Some roundtrip tests failed")) := by
  have hfile := fun i => C66_file (σ := Counters) os pl hw hc (heaps i) (hh i) f entries[i] w.files (hl entries[i])
  choose r hr hok _ using hfile
  obtain ⟨h1, h2, _, e', h4, h5, h6⟩ := yields_steps hs rfl (fun i => (1, score (r i)))
    (fun i => yields_job (hr i))
  have hdone : ∀ i, ended (c.progs i) = some (some ()) ∧ e' i = (0, 0) := by
    intro i
    have hy := h4 i
    have he := hend i
    generalize c.progs i = x at hy he
    generalize e' i = d at hy
    cases hy with
    | ret => exact ⟨rfl, rfl⟩
    | op => exact absurd rfl he
  have hz1 : ∑ i, (e' i).1 = 0 := Finset.sum_eq_zero fun i _ => by rw [(hdone i).2]
  have hz2 : ∑ i, (e' i).2 = 0 := Finset.sum_eq_zero fun i _ => by rw [(hdone i).2]
  have hsum : ∑ i : Fin entries.length, (1, score (r i)).1 = entries.length := by simp
  rw [hz1, hw0, hsum] at h5
  rw [hz2, hw0] at h6
  have hle : ∀ i : Fin entries.length, score (r i) ≤ 1 := by
    intro i; cases r i <;> simp [score]
  have hP : (∑ i : Fin entries.length, score (r i)) ≤ entries.length := by
    calc _ ≤ ∑ _i : Fin entries.length, 1 := Finset.sum_le_sum fun i _ => hle i
      _ = entries.length := by simp
  refine ⟨fun i => (hdone i).1, h1, h2, ?_, ?_⟩
  · have hv : roundtripVerdict c.world.st = .ok () ↔ c.world.st.passed = c.world.st.tested := by
      unfold roundtripVerdict
      by_cases h : c.world.st.passed = c.world.st.tested <;> simp [h]
    rw [hv]
    have hnum : c.world.st.passed = c.world.st.tested ↔
        (∑ i : Fin entries.length, score (r i)) = entries.length := by
      simp only [BitVec.ofNat_eq_ofNat, BitVec.add_zero, BitVec.zero_add] at h5 h6
      rw [h5, h6]
      constructor
      · intro h
        have := congrArg BitVec.toNat h
        rw [BitVec.toNat_ofNat, BitVec.toNat_ofNat, Nat.mod_eq_of_lt (by omega), Nat.mod_eq_of_lt hn] at this
        exact this
      · intro h; rw [h]
    rw [hnum]
    constructor
    · intro h i
      rw [← hok i]
      by_contra hne
      have hlt : (∑ i : Fin entries.length, score (r i)) <
          ∑ _i : Fin entries.length, 1 := by
        refine Finset.sum_lt_sum (fun i _ => hle i) ⟨i, Finset.mem_univ i, ?_⟩
        cases hri : r i with
        | ok u => exact absurd hri hne
        | error e => simp [score]
      simp at hlt
      omega
    · intro h
      have : ∀ i : Fin entries.length, score (r i) = 1 := by
        intro i
        rw [(hok i).2 (h i)]
        rfl
      simp [this]
  · intro h
    unfold roundtripVerdict at h ⊢
    split
    · rfl
    · next hx => rw [if_neg hx] at h; exact absurd rfl h

/-! ## A directory with a texture and a text -/

/-- Everything can be opened and mapped. -/
def openOs : Os :=
  { canOpen := fun _ => true, canSize := fun _ => true, canMap := fun _ _ => true, canMapWrite := fun _ _ => true,
    create := fun _ n _ => (some (List.replicate n 0), true), canMkdir := fun _ => true, lower := id, usizeMax := 2 ^ 64 - 1 }

/-- `/d/a.dds` is the texture `smallFile`, `/d/b.txt` a text. -/
def mixedWorld : World Counters :=
  { files := fun p => if p = ["d", "a.dds"] then some smallFile else if p = ["d", "b.txt"] then some (ascii "text") else none
    dirs := fun p => p = [] || p = ["d"], counter := 0, st := ⟨0, 0⟩ }

theorem mixed_canBeTested : CanBeTested openOs mixedWorld.files (fun _ n => some (List.replicate n 0)) .bc1 ["d", "a.dds"]
    smallFile :=
  ⟨rfl, rfl, rfl, rfl, .inr (by decide +kernel), ⟨by decide +kernel, by decide +kernel, by decide +kernel⟩, fun _ _ => rfl⟩

/-- Non-vacuity: the hypotheses of `C66_command` hold here, the texture passes and the text makes the command fail. -/
example :
    (∀ p b, mixedWorld.files p = some b → b.length < 2 ^ 32 ∧ b.length ≤ openOs.usizeMax) ∧
    (Prog.run openOs (roundtripJob openOs somePlatform (fun _ n => some (List.replicate n 0)) .bc1 ["d", "a.dds"])
      mixedWorld).1.st = ⟨1, 1⟩ ∧
    (Prog.run openOs (roundtripJob openOs somePlatform (fun _ n => some (List.replicate n 0)) .bc1 ["d", "b.txt"])
      mixedWorld).1.st = ⟨1, 0⟩ ∧
    roundtripVerdict ⟨1, 1⟩ = .ok () ∧ roundtripVerdict ⟨2, 1⟩ ≠ .ok () := by
  refine ⟨?_, by decide +kernel, by decide +kernel, rfl, by decide⟩
  intro p b h
  have : b = smallFile ∨ b = ascii "text" := by
    simp only [mixedWorld] at h
    split at h
    · exact .inl (Option.some.inj h).symm
    · split at h
      · exact .inr (Option.some.inj h).symm
      · exact nomatch h
  rcases this with rfl | rfl <;> exact ⟨by decide +kernel, by decide +kernel⟩

end Dlt.Props
