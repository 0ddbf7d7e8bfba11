import Verif.Props.FileIoExact
/-!
# C91: files that do not fit into the address space

On a 32 bit machine a file may be longer than `usize::MAX`.  The functions that read a file cast its size
(`input_handle.size()? as usize`, file.rs:40, 77, 145, 223 and file_to_slice.rs:46, 97, 178, 267) and map only the beginning.
-/

namespace Dlt.Props

open Dlt.FileFormats Dlt.FileIo Dlt.FileIo.Prog Dlt.Dds

variable {σ α β E : Type}

/-- The worlds differ at most in the contents of `p`. -/
structure Alike (p : Path) (w w' : World σ) : Prop where
  files : ∀ q, q ≠ p → w'.files q = w.files q
  dirs : w'.dirs = w.dirs
  counter : w'.counter = w.counter
  st : w'.st = w.st

/-- The system call does not look at `inp`. -/
def SysBeside (inp : Path) {β : Type} : Sys σ β → Prop
  | .openRead p => p ≠ inp
  | .size p => p ≠ inp
  | .mapRead p _ => p ≠ inp
  | .create p _ => p ≠ inp
  | .mapWrite p _ => p ≠ inp
  | .store p _ => p ≠ inp
  | .mkdir p => p ≠ inp
  | .fileLen p => p ≠ inp
  | .add _ => True
  | .call _ => True

/-- The program does not look at `inp`. -/
def Beside (inp : Path) : Prog σ α → Prop
  | .ret _ => True
  | .panic => True
  | .op s k => SysBeside inp s ∧ ∀ b, Beside inp (k b)

theorem alike_setFile {inp p : Path} {w w' : World σ} (h : Alike inp w w') (c : Option Buf) :
    Alike inp (w.setFile p c) (w'.setFile p c) := by
  refine ⟨fun q hq => ?_, h.dirs, h.counter, h.st⟩
  simp only [World.setFile]
  split
  · rfl
  · exact h.files q hq

theorem exec_beside {os : Os} {inp : Path} {β : Type} (s : Sys σ β) (hs : SysBeside inp s) {w w' : World σ} (h : Alike inp w w') :
    (exec os s w').2 = (exec os s w).2 ∧ Alike inp (exec os s w).1 (exec os s w').1 := by
  cases s with
  | openRead p => simp only [exec, h.files p hs]; exact ⟨trivial, h⟩
  | fileLen p => simp only [exec, h.files p hs]; exact ⟨trivial, h⟩
  | size p => simp only [exec, h.files p hs]; split <;> exact ⟨rfl, h⟩
  | mapRead p n => simp only [exec, h.files p hs]; (repeat' split) <;> exact ⟨rfl, h⟩
  | mapWrite p n => simp only [exec, h.files p hs]; (repeat' split) <;> exact ⟨rfl, h⟩
  | create p n =>
    simp only [exec, h.files p hs, h.dirs]
    split
    · exact ⟨rfl, alike_setFile h _⟩
    · exact ⟨rfl, h⟩
  | store p b =>
    simp only [exec, h.files p hs]
    (repeat' split)
    · exact ⟨rfl, h⟩
    · exact ⟨rfl, alike_setFile h _⟩
    · exact ⟨rfl, h⟩
  | mkdir p =>
    simp only [exec, h.files p hs, h.dirs]
    (repeat' split)
    · exact ⟨rfl, h⟩
    · exact ⟨rfl, h.files, rfl, h.counter, h.st⟩
    · exact ⟨rfl, h⟩
  | add n => exact ⟨rfl, h.files, h.dirs, by simp only [exec, h.counter], h.st⟩
  | call f =>
    simp only [exec, h.st]
    split
    · exact ⟨rfl, h⟩
    · exact ⟨rfl, h.files, h.dirs, h.counter, rfl⟩

theorem run_beside {os : Os} {inp : Path} : ∀ (x : Prog σ α) (_ : Beside inp x) {w w' : World σ} (_ : Alike inp w w'),
    (run os x w').2 = (run os x w).2 ∧ Alike inp (run os x w).1 (run os x w').1
  | .ret _, _, _, _, h => ⟨rfl, h⟩
  | .panic, _, _, _, h => ⟨rfl, h⟩
  | .op s k, hx, w, w', h => by
    have he := exec_beside (os := os) s hx.1 h
    rw [run_op, run_op]
    rcases h1 : exec os s w with ⟨w1, r1⟩
    rcases h2 : exec os s w' with ⟨w2, r2⟩
    rw [h1, h2] at he
    obtain ⟨rfl, ha⟩ := he
    rcases r2 with _ | b
    · exact ⟨rfl, ha⟩
    · exact run_beside (k b) (hx.2 b) ha

theorem beside_intoFile {inp out : Path} (h : inp ≠ out) {n : Nat} {f : Buf → σ → Option (Res σ α)} :
    Beside inp (intoFile out n f) := by
  refine ⟨fun e => h e.symm, fun b => ?_⟩
  rcases b with _ | _
  · trivial
  · refine ⟨fun e => h e.symm, fun b => ?_⟩
    rcases b with _ | _
    · trivial
    · exact ⟨trivial, fun _ => ⟨fun e => h e.symm, fun _ => trivial⟩⟩

theorem beside_intoSlice {inp : Path} {input output : Buf} {f : Buf → σ → Option (Res σ α)} :
    Beside inp (intoSlice input output f) := ⟨trivial, fun _ => trivial⟩

theorem beside_tryHandlers {inp : Path} {detect : Handler σ E → σ → Option (σ × Bool)} {go : Handler σ E → Prog σ α}
    {rejected : α} (hg : ∀ h, Beside inp (go h)) : ∀ hs, Beside inp (tryHandlers detect go rejected hs)
  | [] => trivial
  | h :: hs => ⟨trivial, fun b => by
    cases b
    · exact beside_tryHandlers hg hs
    · exact hg h⟩

/-- What a program does with the long file it does with the beginning alone: same answer, same effects, and the file stays. -/
def TakesBeginning (os : Os) (w : World σ) (inp : Path) (data pre : Buf) (x : Prog σ α) : Prop :=
  (run os x w).2 = (run os x (w.setFile inp (some pre))).2 ∧
  (run os x w).1.files inp = some data ∧
  Alike inp (run os x (w.setFile inp (some pre))).1 (run os x w).1

theorem Alike.symm {p : Path} {w w' : World σ} (h : Alike p w w') : Alike p w' w :=
  ⟨fun q hq => (h.files q hq).symm, h.dirs.symm, h.counter.symm, h.st.symm⟩

theorem alike_cut (w : World σ) (inp : Path) (c : Option Buf) : Alike inp w (w.setFile inp c) :=
  ⟨fun q hq => by simp [World.setFile, hq], rfl, rfl, rfl⟩

theorem cut_mod {os : Os} {pre rest : Buf} (h1 : pre.length ≤ os.usizeMax) (h2 : os.usizeMax + 1 ∣ rest.length) :
    (pre ++ rest).length % (os.usizeMax + 1) = pre.length ∧ pre.length % (os.usizeMax + 1) = pre.length := by
  obtain ⟨k, hk⟩ := h2
  have h3 : pre.length % (os.usizeMax + 1) = pre.length := Nat.mod_eq_of_lt (by omega)
  refine ⟨?_, h3⟩
  rw [List.length_append, hk, Nat.add_mul_mod_self_left, h3]

/-- Reading a file, the mapped part written out. -/
theorem run_withInput_part (os : Os) (w : World σ) (p : Path) {data : Buf} {n : Nat} (hf : w.files p = some data)
    (hn : data.length % (os.usizeMax + 1) = n) (k : Buf → Prog σ (Except FileError α)) :
    run os (withInput os p k) w =
      if os.canOpen p then
        if os.canSize p then
          if os.canMap p n then run os (k (data.take n)) w else (w, some (.error (.io .memoryMapping)))
        else (w, some (.error (.io .fileHandle)))
      else (w, some (.error (.io .fileHandle))) := by
  have hle : n ≤ data.length := hn ▸ Nat.mod_le _ _
  by_cases c1 : os.canOpen p = true
  · by_cases c2 : os.canSize p = true
    · by_cases c3 : os.canMap p n = true
      · simp [withInput, try', run, exec, hf, c1, c2, c3, hn, hle]
      · simp [withInput, try', run, exec, hf, c1, c2, c3, hn]
    · simp [withInput, try', run, exec, hf, c1, c2]
  · simp [withInput, try', run, exec, hf, c1]

theorem run_withInputFor_part (os : Os) (w : World σ) (p : Path) (output : Buf) {data : Buf} {n : Nat} (hf : w.files p = some data)
    (hn : data.length % (os.usizeMax + 1) = n) (k : Buf → Prog σ (Buf × Except FileError α)) :
    run os (withInputFor os p output k) w =
      if os.canOpen p then
        if os.canSize p then
          if os.canMap p n then
            if output.length < n then
              (w, some (output, .error (.transform (.formatHandler (.outputBufferTooSmall n output.length)))))
            else run os (k (data.take n)) w
          else (w, some (output, .error (.io .memoryMapping)))
        else (w, some (output, .error (.io .fileHandle)))
      else (w, some (output, .error (.io .fileHandle))) := by
  have hle : n ≤ data.length := hn ▸ Nat.mod_le _ _
  have hl : (data.take n).length = n := by simp; omega
  by_cases c1 : os.canOpen p = true
  · by_cases c2 : os.canSize p = true
    · by_cases c3 : os.canMap p n = true
      · simp only [withInputFor, run, exec, hf, c1, c2, c3, hn, Option.isSome_some, Bool.and_self, if_true, hle, hl]
        split <;> rfl
      · simp [withInputFor, run, exec, hf, c1, c2, c3, hn]
    · simp [withInputFor, run, exec, hf, c1, c2]
  · simp [withInputFor, run, exec, hf, c1]

/-- A program that changes `out` only and looks at `inp` only to map it. -/
theorem takesBeginning_withInput {os : Os} {w : World σ} {inp out : Path} (hne : inp ≠ out) {pre rest : Buf}
    (hf : w.files inp = some (pre ++ rest)) (h1 : pre.length ≤ os.usizeMax) (h2 : os.usizeMax + 1 ∣ rest.length)
    {k : Buf → Prog σ (Except FileError α)} (hk : ∀ b, Beside inp (k b)) (hk' : ∀ b, Only out (k b)) :
    TakesBeginning os w inp (pre ++ rest) pre (withInput os inp k) := by
  obtain ⟨m1, m2⟩ := cut_mod h1 h2
  have hf' : (w.setFile inp (some pre)).files inp = some pre := by simp [World.setFile]
  have ha := alike_cut w inp (some pre)
  have hb := run_beside (os := os) (k pre) (hk pre) ha
  have hl : (run os (withInput os inp k) w).1.files inp = some (pre ++ rest) := by
    rw [← hf]
    exact (run_only (os := os) _ (only_withInput (out := out) hk') w).1 inp hne
  unfold TakesBeginning
  refine ⟨?_, hl, ?_⟩
  all_goals
    rw [run_withInput_part os w inp hf m1, run_withInput_part os _ inp hf' m2, List.take_left, List.take_length]
    split
    · split
      · split
        · first | exact hb.1.symm | exact hb.2.symm
        · first | rfl | exact ha.symm
      · first | rfl | exact ha.symm
    · first | rfl | exact ha.symm

theorem takesBeginning_withInputFor {os : Os} {w : World σ} {inp : Path} {pre rest : Buf} (output : Buf)
    (hf : w.files inp = some (pre ++ rest)) (h1 : pre.length ≤ os.usizeMax) (h2 : os.usizeMax + 1 ∣ rest.length)
    {k : Buf → Prog σ (Buf × Except FileError α)} (hk : ∀ b, Beside inp (k b)) (hk' : ∀ b w, (run os (k b) w).1.files = w.files) :
    TakesBeginning os w inp (pre ++ rest) pre (withInputFor os inp output k) := by
  obtain ⟨m1, m2⟩ := cut_mod h1 h2
  have hf' : (w.setFile inp (some pre)).files inp = some pre := by simp [World.setFile]
  have ha := alike_cut w inp (some pre)
  have hb := run_beside (os := os) (k pre) (hk pre) ha
  have hl : (run os (k pre) w).1.files inp = some (pre ++ rest) := by rw [hk', hf]
  unfold TakesBeginning
  refine ⟨?_, ?_, ?_⟩
  all_goals
    rw [run_withInputFor_part os w inp output hf m1]
    first | rw [run_withInputFor_part os _ inp output hf' m2, List.take_left, List.take_length] | rw [List.take_left]
    split
    · split
      · split
        · split
          · first | rfl | exact ha.symm | exact hf
          · first | exact hb.1.symm | exact hb.2.symm | exact hl
        · first | rfl | exact ha.symm | exact hf
      · first | rfl | exact ha.symm | exact hf
    · first | rfl | exact ha.symm | exact hf

theorem files_intoSlice (os : Os) (input output : Buf) (f : Buf → σ → Option (Res σ α)) (w : World σ) :
    (run os (intoSlice input output f) w).1.files = w.files := by
  rw [run_intoSlice]
  split <;> rfl

theorem files_tryHandlers (os : Os) {detect : Handler σ E → σ → Option (σ × Bool)} {go : Handler σ E → Prog σ α}
    {rejected : α} (hg : ∀ h w, (run os (go h) w).1.files = w.files) :
    ∀ hs w, (run os (tryHandlers detect go rejected hs) w).1.files = w.files
  | [], _ => rfl
  | h :: hs, w => by
    rw [tryHandlers, run_op]
    simp only [exec]
    rcases detect h w.st with _ | ⟨st, _ | _⟩
    · rfl
    · exact files_tryHandlers os hg hs _
    · exact hg h _

/-- **C91.** A file that is longer than the address space is taken for its beginning: cut off a multiple of the size of the address
space at the end (`rest`).  Each function that reads a file answers and does the same as for a file with the rest missing. -/
theorem C91_takes_beginning (os : Os) (w : World σ) (h : Handler σ E) (hs : List (Handler σ E)) (inp out : Path) (hne : inp ≠ out)
    (output : Buf) (bundle : Bundle σ E) (pre rest : Buf) (hf : w.files inp = some (pre ++ rest))
    (h1 : pre.length ≤ os.usizeMax) (h2 : os.usizeMax + 1 ∣ rest.length) :
    TakesBeginning os w inp (pre ++ rest) pre (transformFileWithHandler os h inp out bundle) ∧
    TakesBeginning os w inp (pre ++ rest) pre (untransformFileWithHandler os h inp out) ∧
    TakesBeginning os w inp (pre ++ rest) pre (transformFileWithMultipleHandlers os hs inp out bundle) ∧
    TakesBeginning os w inp (pre ++ rest) pre (untransformFileWithMultipleHandlers os hs inp out) ∧
    TakesBeginning os w inp (pre ++ rest) pre (transformFileToSliceWithHandler os h inp output bundle) ∧
    TakesBeginning os w inp (pre ++ rest) pre (untransformFileToSliceWithHandler os h inp output) ∧
    TakesBeginning os w inp (pre ++ rest) pre (transformFileToSliceWithMultipleHandlers os hs inp output bundle) ∧
    TakesBeginning os w inp (pre ++ rest) pre (untransformFileToSliceWithMultipleHandlers os hs inp output) :=
  ⟨takesBeginning_withInput hne hf h1 h2 (fun _ => beside_intoFile hne) (fun _ => only_intoFile),
   takesBeginning_withInput hne hf h1 h2 (fun _ => beside_intoFile hne) (fun _ => only_intoFile),
   takesBeginning_withInput hne hf h1 h2 (fun _ => beside_tryHandlers (fun _ => beside_intoFile hne) hs)
     (fun _ => only_tryHandlers (fun _ => only_intoFile) hs),
   takesBeginning_withInput hne hf h1 h2 (fun _ => beside_tryHandlers (fun _ => beside_intoFile hne) hs)
     (fun _ => only_tryHandlers (fun _ => only_intoFile) hs),
   takesBeginning_withInputFor output hf h1 h2 (fun _ => beside_intoSlice) (fun _ _ => files_intoSlice _ _ _ _ _),
   takesBeginning_withInputFor output hf h1 h2 (fun _ => beside_intoSlice) (fun _ _ => files_intoSlice _ _ _ _ _),
   takesBeginning_withInputFor output hf h1 h2 (fun _ => beside_tryHandlers (fun _ => beside_intoSlice) hs)
     (fun _ => files_tryHandlers os (fun _ _ => files_intoSlice _ _ _ _ _) hs),
   takesBeginning_withInputFor output hf h1 h2 (fun _ => beside_tryHandlers (fun _ => beside_intoSlice) hs)
     (fun _ => files_tryHandlers os (fun _ _ => files_intoSlice _ _ _ _ _) hs)⟩

/-- **C91** (consequence): such a DDS file is transformed and restored with success, but what comes back is only the beginning. -/
theorem C91_rest_lost (p p' : Platform) (hm : p.m.endian = p'.m.endian)
    (hc : p'.overflowChecks = true → p.overflowChecks = true) (hu : 2 ^ 32 - 1 ≤ p.env.usizeMax)
    (dbg : E → String) (bundle : Bundle σ E) (os os' : Os) (w w1 : World σ) (inp mid out : Path)
    (hne : inp ≠ mid) (hne' : mid ≠ out) (pre rest fresh fresh' : Buf) (hin : pre.length ≤ p'.env.usizeMax)
    (hf : w.files inp = some (pre ++ rest)) (h1 : pre.length ≤ os.usizeMax) (h2 : os.usizeMax + 1 ∣ rest.length) (h3 : rest ≠ [])
    (hr : os.canOpen inp = true ∧ os.canSize inp = true ∧ os.canMap inp pre.length = true)
    (hcr : Creatable os w mid pre.length fresh)
    (hrun : run os (transformFileWithHandler os (handler p dbg) inp mid bundle) w = (w1, some (.ok ())))
    (hopen : os'.canOpen mid = true ∧ os'.canSize mid = true ∧ os'.canMap mid pre.length = true ∧
      pre.length ≤ os'.usizeMax)
    (hcr' : Creatable os' w1 out pre.length fresh') :
    run os' (untransformFileWithHandler os' (handler (E := E) p' dbg) mid out) w1 = (w1.after out pre w1.st, some (.ok ())) ∧
    pre ≠ pre ++ rest := by
  have ht := (C91_takes_beginning os w (handler p dbg) [] inp mid hne [] bundle pre rest hf h1 h2).1
  rw [TakesBeginning, hrun] at ht
  have hd : mid ≠ inp := fun e => hne e.symm
  have hcr1 : Creatable os (w.setFile inp (some pre)) mid pre.length fresh :=
    ⟨hcr.parent, hcr.notDir, by simpa [World.setFile, hd] using hcr.create, hcr.length, hcr.canMap⟩
  have hr1 : Readable os (w.setFile inp (some pre)) inp pre := ⟨by simp [World.setFile], hr.1, hr.2.1, hr.2.2, h1⟩
  rcases hx : run os (transformFileWithHandler os (handler p dbg) inp mid bundle) (w.setFile inp (some pre)) with ⟨w1', r⟩
  rw [hx] at ht
  obtain ⟨rfl, -, ha⟩ := ht
  exact ⟨(C37_dds_file_roundtrip p p' hm hc hu dbg bundle os os' _ w1' inp mid out hne hne' pre fresh fresh' hin hr1 hcr1 hx
    w1 (ha.files mid hd) hopen hcr').2.1, by simpa using fun h => h3 h⟩

/-- An operating system for 32 bit addresses that refuses nothing. -/
def kindOs32 : Os := { kindOs with usizeMax := 2 ^ 32 - 1 }

/-- A 32 bit platform. -/
def platform32 : Platform := { somePlatform with env := ⟨fun _ => true, 2 ^ 32 - 1⟩ }

/-- **C91**, concrete: a DDS file with 4 GiB of anything behind it is transformed with success on a 32 bit machine, and restored to
the same file without them. -/
theorem C91_four_gib_lost (rest : Buf) (hrest : rest.length = 2 ^ 32) :
    let r := run kindOs32 (transformFileWithHandler kindOs32 (handler platform32 fun _ : Unit => "") ["d", "a"] ["d", "b"]
      Bundle.defaultAll) (oneFile "a" (smallFile ++ rest))
    r.2 = some (.ok ()) ∧ r.1.files ["d", "a"] = some (smallFile ++ rest) ∧
    (run kindOs32 (untransformFileWithHandler kindOs32 (handler platform32 fun _ : Unit => "") ["d", "b"] ["d", "c"]) r.1).1.files
      ["d", "c"] = some smallFile := by
  intro r
  have hset : (oneFile "a" (smallFile ++ rest)).setFile ["d", "a"] (some smallFile) = oneFile "a" smallFile := by
    simp only [oneFile, World.setFile]
    congr 1
    funext q
    by_cases hq : q = ["d", "a"]
    · rw [if_pos hq, if_pos hq]
    · rw [if_neg hq, if_neg hq, if_neg hq]
  have hlen : smallFile.length ≤ kindOs32.usizeMax := by decide +kernel
  have hmax : kindOs32.usizeMax + 1 = 2 ^ 32 := by decide +kernel
  have hdvd : kindOs32.usizeMax + 1 ∣ rest.length := by
    rw [hrest, hmax]
    exact Nat.dvd_refl _
  have ht := (C91_takes_beginning kindOs32 (oneFile "a" (smallFile ++ rest)) (handler platform32 fun _ : Unit => "") []
    ["d", "a"] ["d", "b"] (by decide) [] Bundle.defaultAll smallFile rest (by simp only [oneFile, if_true]) hlen hdvd).1
  rw [TakesBeginning, hset] at ht
  obtain ⟨t1, t2, t3⟩ := ht
  have e1 : (run kindOs32 (transformFileWithHandler kindOs32 (handler platform32 fun _ : Unit => "") ["d", "a"] ["d", "b"]
      Bundle.defaultAll) (oneFile "a" smallFile)).2 = some (.ok ()) := by decide +kernel
  have e2 : (run kindOs32 (untransformFileWithHandler kindOs32 (handler platform32 fun _ : Unit => "") ["d", "b"] ["d", "c"])
      (run kindOs32 (transformFileWithHandler kindOs32 (handler platform32 fun _ : Unit => "") ["d", "a"] ["d", "b"]
      Bundle.defaultAll) (oneFile "a" smallFile)).1).1.files ["d", "c"] = some smallFile := by decide +kernel
  refine ⟨t1.trans e1, t2, ?_⟩
  rw [← e2]
  have hb : Beside (σ := Unit) ["d", "a"] (untransformFileWithHandler kindOs32 (handler platform32 fun _ : Unit => "") ["d", "b"] ["d", "c"]) := by
    refine ⟨by simp [SysBeside], fun b => ?_⟩
    rcases b with _ | _
    · trivial
    refine ⟨by simp [SysBeside], fun b => ?_⟩
    rcases b with _ | _
    · trivial
    refine ⟨by simp [SysBeside], fun b => ?_⟩
    rcases b with _ | _
    · trivial
    exact beside_intoFile (by decide)
  exact (run_beside (os := kindOs32) _ hb t3).2.files ["d", "c"] (by decide)

end Dlt.Props
