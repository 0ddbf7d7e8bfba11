import Verif.Props.FileIo
/-!
# C38: what every kind of failure leaves at the output path
-/

namespace Dlt.Props
open Dds FileIo FileFormats Prog

variable {σ E α : Type}

/-- What is at the path `out` after an operation that writes `n` bytes there has failed with an error.  `call` is the slice API on
the input and the given output buffer. -/
inductive Left (os : Os) (w : World σ) (out : Path) (n : Nat) (call : Buf → Option (Res σ α)) : FileError → Option Buf → Prop where
  /-- There is no directory for the file, or there is a directory of that name: what was there is there. -/
  | noPlace (h : w.dirs out.dropLast = false ∨ w.dirs out = true) : Left os w out n call (.io .fileHandle) (w.files out)
  /-- Creating the file failed: whatever the operating system leaves. -/
  | notCreated (c : Option Buf) (h1 : w.dirs out.dropLast = true) (h2 : w.dirs out = false)
      (h3 : os.create out n (w.files out) = (c, false)) : Left os w out n call (.io .fileHandle) c
  /-- Mapping it failed: the new file. -/
  | notMapped (fresh : Buf) (h1 : w.dirs out.dropLast = true) (h2 : w.dirs out = false)
      (h3 : os.create out n (w.files out) = (some fresh, true)) (h4 : os.canMapWrite out n = false) :
      Left os w out n call (.io .memoryMapping) (some fresh)
  /-- The transformation failed: a file with what the slice API left in its output buffer. -/
  | failed (fresh o : Buf) (st : σ) (e : TransformError) (hc : Creatable os w out n fresh) (hf : call fresh = some (o, st, .error e)) :
      Left os w out n call (.transform e) (some o)

theorem intoFile_left {os : Os} (hwf : os.Wf) (w : World σ) (out : Path) (n : Nat) (f : Buf → σ → Option (Res σ α))
    (hk : ∀ b st o st' r, f b st = some (o, st', r) → o.length = b.length) (e : FileError) (c : Option Buf) :
    ((run os (intoFile out n f) w).2 = some (.error e) ∧ (run os (intoFile out n f) w).1.files out = c) ↔
      Left os w out n (fun b => f b w.st) e c := by
  by_cases hp : w.dirs out.dropLast = false ∨ w.dirs out = true
  · rw [run_no_place hp n f]
    refine ⟨?_, fun h => ?_⟩
    · rintro ⟨h1, rfl⟩
      cases h1
      exact .noPlace hp
    · cases h with
      | noPlace => exact ⟨rfl, rfl⟩
      | notCreated _ h1 h2 => rcases hp with h | h <;> simp_all
      | notMapped _ h1 h2 => rcases hp with h | h <;> simp_all
      | failed _ _ _ _ hc => have h1 := hc.parent; have h2 := hc.notDir; rcases hp with h | h <;> simp_all
  · have h1 : w.dirs out.dropLast = true := by
      cases h : w.dirs out.dropLast
      · exact absurd (.inl h) hp
      · rfl
    have h2 : w.dirs out = false := by
      cases h : w.dirs out
      · rfl
      · exact absurd (.inr h) hp
    rcases hcr : os.create out n (w.files out) with ⟨c', _ | _⟩
    · have hrun : run os (intoFile out n f) w = (w.setFile out c', some (.error (.io .fileHandle))) := by
        simp [intoFile, try', run, exec, h1, h2, hcr]
      rw [hrun]
      have hfile : (w.setFile out c').files out = c' := by simp [World.setFile]
      refine ⟨?_, fun h => ?_⟩
      · rintro ⟨h3, rfl⟩
        cases h3
        rw [hfile]
        exact .notCreated c' h1 h2 hcr
      · cases h with
        | noPlace h => exact absurd h hp
        | notCreated _ _ _ h3 =>
          rw [hcr] at h3
          cases h3
          exact ⟨rfl, hfile⟩
        | notMapped _ _ _ h3 => rw [hcr] at h3; cases h3
        | failed _ _ _ _ hc => have h3 := hc.create; rw [hcr] at h3; cases h3
    · obtain ⟨fresh, hfr, hlen⟩ := hwf out n (w.files out) (by rw [hcr])
      rw [hcr] at hfr
      obtain rfl : c' = some fresh := hfr
      have hfile : (w.setFile out (some fresh)).files out = some fresh := by simp [World.setFile]
      by_cases hm : os.canMapWrite out n = true
      · have hcre : Creatable os w out n fresh := ⟨h1, h2, hcr, hlen, hm⟩
        obtain ⟨r1, r2⟩ := run_intoFile hcre f
        have huniq : ∀ fresh', Creatable os w out n fresh' → fresh' = fresh := fun fresh' h => by
          have := h.create
          rw [hcr] at this
          exact (Option.some.inj (Prod.mk.inj this).1).symm
        rcases hf : f fresh w.st with _ | ⟨o, st, r⟩
        · rw [r1 hf]
          refine ⟨fun h => ?_, fun h => ?_⟩
          · cases h.1
          · cases h with
            | noPlace h => exact absurd h hp
            | notCreated _ _ _ h3 => rw [hcr] at h3; cases h3
            | notMapped _ _ _ _ h4 => rw [hm] at h4; cases h4
            | failed fresh' _ _ _ hc hf' =>
              obtain rfl := huniq fresh' hc
              rw [hf] at hf'
              cases hf'
        · rw [r2 o st r hf (by rw [hk _ _ _ _ _ hf, hlen])]
          refine ⟨?_, fun h => ?_⟩
          · rintro ⟨h3, rfl⟩
            cases r with
            | ok a => cases h3
            | error e' =>
              cases h3
              have : (w.after out o st).files out = some o := by simp [World.after]
              rw [this]
              exact .failed fresh o st e' hcre hf
          · cases h with
            | noPlace h => exact absurd h hp
            | notCreated _ _ _ h3 => rw [hcr] at h3; cases h3
            | notMapped _ _ _ _ h4 => rw [hm] at h4; cases h4
            | failed fresh' _ _ _ hc hf' =>
              obtain rfl := huniq fresh' hc
              rw [hf] at hf'
              cases hf'
              exact ⟨rfl, by simp [World.after]⟩
      · have hm : os.canMapWrite out n = false := by simpa using hm
        have hrun : run os (intoFile out n f) w = (w.setFile out (some fresh), some (.error (.io .memoryMapping))) := by
          simp [intoFile, try', run, exec, h1, h2, hcr, hm, World.setFile]
        rw [hrun]
        refine ⟨?_, fun h => ?_⟩
        · rintro ⟨h3, rfl⟩
          cases h3
          rw [hfile]
          exact .notMapped fresh h1 h2 hcr hm
        · cases h with
          | noPlace h => exact absurd h hp
          | notCreated _ _ _ h3 => rw [hcr] at h3; cases h3
          | notMapped _ _ _ h3 =>
            rw [hcr] at h3
            cases h3
            exact ⟨rfl, hfile⟩
          | failed _ _ _ _ hc => have h3 := hc.canMap; rw [hm] at h3; cases h3

/-- A call of the slice API does not change the length of its output slice. -/
def KeepsLength (call : Buf → σ → Option (Res σ α)) : Prop :=
  ∀ b st o st' r, call b st = some (o, st', r) → o.length = b.length

/-- A file can be read or not. -/
theorem readable_cases (os : Os) (w : World σ) (p : Path) (hfit : ∀ data, w.files p = some data → data.length ≤ os.usizeMax) :
    Unreadable os w p ∨ ∃ data, Readable os w p data := by
  rcases hf : w.files p with _ | data
  · exact .inl (.inl hf)
  · by_cases h1 : os.canOpen p = true
    · by_cases h2 : os.canSize p = true
      · by_cases h3 : os.canMap p data.length = true
        · exact .inr ⟨data, hf, h1, h2, h3, hfit data hf⟩
        · exact .inl (.inr (.inr (.inr ⟨data, hf, hfit data hf, by simpa using h3⟩)))
      · exact .inl (.inr (.inr (.inl (by simpa using h2))))
    · exact .inl (.inr (.inl (by simpa using h1)))

/-- **C38**, exact (one handler).  If the input cannot be read, the call fails and changes nothing.  Otherwise it fails with an error `e`
and leaves `c` at the output path exactly in the cases of `Left`: nothing happens there if there is no place for the file; in all
other cases there is what creating the file or the slice API have left. -/
theorem C38_exact (os : Os) (hwf : os.Wf) (w : World σ) (h : Handler σ E) (inp out : Path) (hne : inp ≠ out) (bundle : Bundle σ E)
    (hfit : ∀ data, w.files inp = some data → data.length ≤ os.usizeMax)
    (hk : ∀ data, KeepsLength fun b st => transformSliceWithBundle h data b bundle st)
    (hk' : ∀ data, KeepsLength fun b st => untransformSlice h data b st) :
    (Unreadable os w inp ∧
      (∃ e, run os (transformFileWithHandler os h inp out bundle) w = (w, some (.error (.io e)))) ∧
      (∃ e, run os (untransformFileWithHandler os h inp out) w = (w, some (.error (.io e))))) ∨
    (∃ data, Readable os w inp data ∧ ∀ e c,
      (((run os (transformFileWithHandler os h inp out bundle) w).2 = some (.error e) ∧
        (run os (transformFileWithHandler os h inp out bundle) w).1.files out = c) ↔
        Left os w out data.length (fun b => transformSliceWithBundle h data b bundle w.st) e c) ∧
      (((run os (untransformFileWithHandler os h inp out) w).2 = some (.error e) ∧
        (run os (untransformFileWithHandler os h inp out) w).1.files out = c) ↔
        Left os w out data.length (fun b => untransformSlice h data b w.st) e c)) := by
  rcases readable_cases os w inp hfit with hu | ⟨data, hr⟩
  · exact .inl ⟨hu, run_unreadable hu _, run_unreadable hu _⟩
  · refine .inr ⟨data, hr, fun e c => ⟨?_, ?_⟩⟩
    · unfold transformFileWithHandler
      rw [run_withInput hr]
      simp only [if_neg hne]
      exact intoFile_left hwf w out data.length _ (hk data) e c
    · unfold untransformFileWithHandler
      rw [run_withInput hr]
      simp only [if_neg hne]
      exact intoFile_left hwf w out data.length _ (hk' data) e c

/-- **C38**, consequence: an error of the transformation itself always leaves a file of the size of the input, whatever was there. -/
theorem C38_always_left (os : Os) (hwf : os.Wf) (w : World σ) (h : Handler σ E) (inp out : Path) (hne : inp ≠ out)
    (bundle : Bundle σ E) (data : Buf) (hr : Readable os w inp data)
    (hk : KeepsLength fun b st => transformSliceWithBundle h data b bundle st)
    (hk' : KeepsLength fun b st => untransformSlice h data b st) (e : TransformError) :
    ((run os (transformFileWithHandler os h inp out bundle) w).2 = some (.error (.transform e)) →
      ∃ o, (run os (transformFileWithHandler os h inp out bundle) w).1.files out = some o ∧ o.length = data.length) ∧
    ((run os (untransformFileWithHandler os h inp out) w).2 = some (.error (.transform e)) →
      ∃ o, (run os (untransformFileWithHandler os h inp out) w).1.files out = some o ∧ o.length = data.length) := by
  have key : ∀ f : Buf → σ → Option (Res σ Unit), KeepsLength f → ∀ x : World σ × Option (Except FileError Unit),
      x = run os (intoFile out data.length f) w → x.2 = some (.error (.transform e)) →
      ∃ o, x.1.files out = some o ∧ o.length = data.length := by
    rintro f hf x rfl hx
    have := (intoFile_left hwf w out data.length f hf _ _).1 ⟨hx, rfl⟩
    generalize (run os (intoFile out data.length f) w).1.files out = c at this
    cases this with
    | failed fresh o st _ hc hf' => exact ⟨o, rfl, by rw [hf _ _ _ _ _ hf', hc.length]⟩
  refine ⟨fun hx => key _ hk _ ?_ hx, fun hx => key _ hk' _ ?_ hx⟩
  · unfold transformFileWithHandler
    rw [run_withInput hr]
    simp only [if_neg hne]
  · unfold untransformFileWithHandler
    rw [run_withInput hr]
    simp only [if_neg hne]

/-- **C38**, exact (several handlers, the file can be read): a handler that accepts the contents decides; otherwise nothing is left. -/
theorem C38_exact_multiple (os : Os) (hwf : os.Wf) (w : World σ) (hs : List (Handler σ E)) (inp out : Path) (hne : inp ≠ out)
    (bundle : Bundle σ E) (data : Buf) (ext : Option String) (he : IsExtension os inp ext) (hr : Readable os w inp data) (h : Handler σ E)
    (st' : σ) :
    (Chosen (fun h => h.canHandle data ext) hs w.st h st' → (KeepsLength fun b st => transformSliceWithBundle h data b bundle st) → ∀ e c,
      (((run os (transformFileWithMultipleHandlers os hs inp out bundle) w).2 = some (.error e) ∧
        (run os (transformFileWithMultipleHandlers os hs inp out bundle) w).1.files out = c) ↔
        Left os w out data.length (fun b => transformSliceWithBundle h data b bundle st') e c)) ∧
    (Chosen (fun h => h.canHandleUntransform data ext) hs w.st h st' → (KeepsLength fun b st => untransformSlice h data b st) → ∀ e c,
      (((run os (untransformFileWithMultipleHandlers os hs inp out) w).2 = some (.error e) ∧
        (run os (untransformFileWithMultipleHandlers os hs inp out) w).1.files out = c) ↔
        Left os w out data.length (fun b => untransformSlice h data b st') e c)) := by
  have hext := extension_spec he
  have key : ∀ (f : Buf → σ → Option (Res σ Unit)), KeepsLength f → ∀ e c,
      (((run os (intoFile out data.length fun b st => (f b st).map fun (o, st, r) => (o, st, r.map fun _ => h)) (withSt w st')).2 =
          some (.error e) ∧
        (run os (intoFile out data.length fun b st => (f b st).map fun (o, st, r) => (o, st, r.map fun _ => h)) (withSt w st')).1.files
          out = c) ↔ Left os w out data.length (fun b => f b st') e c) := by
    intro f hf e c
    have := intoFile_left hwf (withSt w st') out data.length (fun b st => (f b st).map fun (o, st, r) => (o, st, r.map fun _ => h))
      (fun b st o st2 r hb => by
        rcases hfb : f b st with _ | ⟨o', st3, r'⟩
        · rw [hfb] at hb; cases hb
        · rw [hfb] at hb; cases hb; exact hf _ _ _ _ _ hfb) e c
    refine this.trans ⟨fun hl => ?_, fun hl => ?_⟩
    · cases hl with
      | noPlace h => exact .noPlace h
      | notCreated _ h1 h2 h3 => exact .notCreated _ h1 h2 h3
      | notMapped _ h1 h2 h3 h4 => exact .notMapped _ h1 h2 h3 h4
      | failed fresh o st e hc hf' =>
        rcases hfb : f fresh st' with _ | ⟨o', st3, r'⟩
        · simp only [withSt, hfb] at hf'; cases hf'
        · simp only [withSt, hfb] at hf'
          cases r' with
          | ok a => cases hf'
          | error e' => cases hf'; exact .failed _ _ _ _ ⟨hc.1, hc.2, hc.3, hc.4, hc.5⟩ hfb
    · cases hl with
      | noPlace h => exact .noPlace (w := withSt w st') h
      | notCreated _ h1 h2 h3 => exact .notCreated (w := withSt w st') _ h1 h2 h3
      | notMapped _ h1 h2 h3 h4 => exact .notMapped (w := withSt w st') _ h1 h2 h3 h4
      | failed fresh o st e hc hf' =>
        exact .failed (w := withSt w st') fresh o st e ⟨hc.1, hc.2, hc.3, hc.4, hc.5⟩ (by simp only [withSt, hf']; rfl)
  refine ⟨fun hch hkl e c => ?_, fun hch hkl e c => ?_⟩
  · unfold transformFileWithMultipleHandlers
    rw [run_withInput hr, hext, (run_tryHandlers os _ _ _ hs w).1 h st' hch]
    simp only [if_neg hne]
    exact key _ hkl e c
  · unfold untransformFileWithMultipleHandlers
    rw [run_withInput hr, hext, (run_tryHandlers os _ _ _ hs w).1 h st' hch]
    simp only [if_neg hne]
    exact key _ hkl e c

/-- **C37** (several handlers, slice to file and file to slice): a panic of a detection is passed on, and no file changes. -/
theorem C37_detect_panics (os : Os) (w : World σ) (hs : List (Handler σ E)) (inp out : Path) (output : Buf) (bundle : Bundle σ E)
    (data : Buf) (ext ext' : Option String) (he : IsExtension os inp ext') (hr : Readable os w inp data)
    (hl : data.length ≤ output.length) :
    (DetectPanics (fun h => h.canHandle data ext) hs w.st →
      (run os (transformSliceToFileWithMultipleHandlers hs data out bundle ext) w).2 = none ∧
      (run os (transformSliceToFileWithMultipleHandlers hs data out bundle ext) w).1.files = w.files) ∧
    (DetectPanics (fun h => h.canHandleUntransform data ext) hs w.st →
      (run os (untransformSliceToFileWithMultipleHandlers hs data out ext) w).2 = none ∧
      (run os (untransformSliceToFileWithMultipleHandlers hs data out ext) w).1.files = w.files) ∧
    (DetectPanics (fun h => h.canHandle data ext') hs w.st →
      (run os (transformFileToSliceWithMultipleHandlers os hs inp output bundle) w).2 = none ∧
      (run os (transformFileToSliceWithMultipleHandlers os hs inp output bundle) w).1.files = w.files) ∧
    (DetectPanics (fun h => h.canHandleUntransform data ext') hs w.st →
      (run os (untransformFileToSliceWithMultipleHandlers os hs inp output) w).2 = none ∧
      (run os (untransformFileToSliceWithMultipleHandlers os hs inp output) w).1.files = w.files) := by
  unfold transformFileToSliceWithMultipleHandlers untransformFileToSliceWithMultipleHandlers
  rw [run_withInputFor hr, run_withInputFor hr, extension_spec he, if_neg (by omega), if_neg (by omega)]
  refine ⟨fun h => ?_, fun h => ?_, fun h => ?_, fun h => ?_⟩
  all_goals exact ⟨((run_tryHandlers os _ _ _ hs w).2.2 h).1, ((run_tryHandlers os _ _ _ hs w).2.2 h).2.2⟩

/-- All four cases of `Left` occur: no directory, a creation that fails after truncating the file, a mapping that fails, and a BC2
texture with settings for BC1 only. -/
example :
    (Left kindOs (oneFile "a.DDS" bc2File) ["e", "b"] bc2File.length (fun b => transformSliceWithBundle
        (handler somePlatform fun _ : Unit => "") bc2File b (Bundle.new.withBc1Manual .new) ()) (.io .fileHandle) none) ∧
    (Left { kindOs with create := fun _ _ _ => (some [], false) } (oneFile "a.DDS" bc2File) ["d", "a.DDS"] bc2File.length
      (fun b => transformSliceWithBundle (handler somePlatform fun _ : Unit => "") bc2File b (Bundle.new.withBc1Manual .new) ())
      (.io .fileHandle) (some [])) ∧
    (Left { kindOs with canMapWrite := fun _ _ => false } (oneFile "a.DDS" bc2File) ["d", "b"] bc2File.length
      (fun b => transformSliceWithBundle (handler somePlatform fun _ : Unit => "") bc2File b (Bundle.new.withBc1Manual .new) ())
      (.io .memoryMapping) (some (List.replicate bc2File.length 0))) ∧
    (∃ e, Left kindOs (oneFile "a.DDS" bc2File) ["d", "b"] bc2File.length (fun b => transformSliceWithBundle
        (handler somePlatform fun _ : Unit => "") bc2File b (Bundle.new.withBc1Manual .new) ()) (.transform e)
        (some (bc2File.take 128 ++ List.replicate 16 0))) := by
  refine ⟨.noPlace (.inl (by decide)), .notCreated _ (by decide) (by decide) rfl, .notMapped _ (by decide) (by decide) rfl rfl, ?_⟩
  have h1 : (transformSliceWithBundle (handler somePlatform fun _ : Unit => "") bc2File (List.replicate bc2File.length 0)
      (Bundle.new.withBc1Manual .new) ()).map (fun x : Res Unit Unit => (x.1, x.2.2.toOption.isSome)) =
      some (bc2File.take 128 ++ List.replicate 16 0, false) := by decide +kernel
  rcases h : transformSliceWithBundle (handler somePlatform fun _ : Unit => "") bc2File (List.replicate bc2File.length 0)
      (Bundle.new.withBc1Manual .new) () with _ | ⟨o, st, e | a⟩
  · rw [h] at h1; cases h1
  · rw [h] at h1
    obtain rfl : o = bc2File.take 128 ++ List.replicate 16 0 := congrArg Prod.fst (Option.some.inj h1)
    exact ⟨e, .failed _ _ _ e ⟨by decide, by decide, rfl, List.length_replicate, rfl⟩ h⟩
  · rw [h] at h1; exact absurd (congrArg Prod.snd (Option.some.inj h1)) (by simp [Except.toOption])

end Dlt.Props
