import Verif.Lemmas.FileIo
import Verif.Props.DdsTotal
/-!
# C37, C38: file operations
-/

namespace Dlt.Props

open Dlt.FileFormats Dlt.FileIo Dlt.FileIo.Prog Dlt.Dds

variable {σ α E : Type}

/-- The world after a run, compared with the result `r` of the slice API for output slices with contents `fresh`: the
output file holds what the slice holds, nothing else has changed, and the result is the same; a panic is a panic. -/
def FileLike (w : World σ) (out : Path) (fresh : Buf) (r : Option (Res σ α)) (x : World σ × Option (Except FileError α)) : Prop :=
  match r with
  | none => x.2 = none ∧ x.1.files out = some fresh
  | some (o, st, r) => o.length = fresh.length → x = (⟨fun q => if q = out then some o else w.files q, w.dirs, w.counter, st⟩,
      some (r.mapError .transform))

theorem intoFile_like {os : Os} {w : World σ} {p : Path} {n : Nat} {fresh : Buf} (h : Creatable os w p n fresh)
    (f : Buf → σ → Option (Res σ α)) : FileLike w p fresh (f fresh w.st) (run os (intoFile p n f) w) := by
  obtain ⟨h1, h2⟩ := run_intoFile h f
  unfold FileLike
  split
  · next hf => rw [h1 hf]; exact ⟨rfl, by simp [World.setFile]⟩
  · next o st r hf => intro ho; rw [h2 o st r hf (by rw [ho, h.length])]; rfl

/-- **C37** (one handler): transforming and untransforming a file does to the output file what the slice API does to a
slice of the same size, with the same result. -/
theorem C37_file_with_handler (os : Os) (w : World σ) (h : Handler σ E) (inp out : Path) (hne : inp ≠ out)
    (bundle : Bundle σ E) (data fresh : Buf) (hr : Readable os w inp data) (hc : Creatable os w out data.length fresh) :
    FileLike w out fresh (transformSliceWithBundle h data fresh bundle w.st)
      (run os (transformFileWithHandler os h inp out bundle) w) ∧
    FileLike w out fresh (untransformSlice h data fresh w.st) (run os (untransformFileWithHandler os h inp out) w) := by
  constructor
  · unfold transformFileWithHandler
    rw [run_withInput hr]
    simpa only [if_neg hne] using intoFile_like hc fun output st =>
      if inp = out then none else transformSliceWithBundle h data output bundle st
  · unfold untransformFileWithHandler
    rw [run_withInput hr]
    simpa only [if_neg hne] using intoFile_like hc fun output st =>
      if inp = out then none else untransformSlice h data output st

/-- **C37** (slice to file, one handler). -/
theorem C37_slice_to_file_with_handler (os : Os) (w : World σ) (h : Handler σ E) (out : Path)
    (bundle : Bundle σ E) (data fresh : Buf) (hc : Creatable os w out data.length fresh) :
    FileLike w out fresh (transformSliceWithBundle h data fresh bundle w.st)
      (run os (transformSliceToFileWithHandler h data out bundle) w) ∧
    FileLike w out fresh (untransformSlice h data fresh w.st)
      (run os (untransformSliceToFileWithHandler h data out) w) :=
  ⟨intoFile_like hc fun output st => transformSliceWithBundle h data output bundle st,
    intoFile_like hc fun output st => untransformSlice h data output st⟩

/-- A run that fills a slice, compared with the result `r` of the slice API on the first `n` bytes of the slice: no file
has changed. -/
def SliceLike (w : World σ) (output : Buf) (n : Nat) (r : Option (Res σ α))
    (x : World σ × Option (Buf × Except FileError α)) : Prop :=
  match r with
  | none => x = (w, none)
  | some (o, st, r) => x = (⟨w.files, w.dirs, w.counter, st⟩, some (o ++ output.drop n, r.mapError .transform))

theorem intoSlice_like (os : Os) (w : World σ) (input output : Buf) (f : Buf → σ → Option (Res σ α)) :
    SliceLike w output input.length (f (output.take input.length) w.st) (run os (intoSlice input output f) w) := by
  rw [run_intoSlice]
  unfold SliceLike
  split <;> simp_all

/-- **C37** (file to slice, one handler): a slice that is too short is refused; otherwise the slice API is applied to the
contents of the file and the first part of the slice. -/
theorem C37_file_to_slice_with_handler (os : Os) (w : World σ) (h : Handler σ E) (inp : Path) (output : Buf)
    (bundle : Bundle σ E) (data : Buf) (hr : Readable os w inp data) :
    (output.length < data.length →
      run os (transformFileToSliceWithHandler os h inp output bundle) w = (w, some (output, .error (.transform
        (.formatHandler (.outputBufferTooSmall data.length output.length))))) ∧
      run os (untransformFileToSliceWithHandler os h inp output) w = (w, some (output, .error (.transform
        (.formatHandler (.outputBufferTooSmall data.length output.length)))))) ∧
    (data.length ≤ output.length →
      SliceLike w output data.length (transformSliceWithBundle h data (output.take data.length) bundle w.st)
        (run os (transformFileToSliceWithHandler os h inp output bundle) w) ∧
      SliceLike w output data.length (untransformSlice h data (output.take data.length) w.st)
        (run os (untransformFileToSliceWithHandler os h inp output) w)) := by
  unfold transformFileToSliceWithHandler untransformFileToSliceWithHandler
  rw [run_withInputFor hr, run_withInputFor hr]
  refine ⟨fun hl => ?_, fun hl => ?_⟩
  · rw [if_pos hl, if_pos hl]; exact ⟨rfl, rfl⟩
  · rw [if_neg (by omega), if_neg (by omega)]
    exact ⟨intoSlice_like os w data output fun output st => transformSliceWithBundle h data output bundle st,
      intoSlice_like os w data output fun output st => untransformSlice h data output st⟩

/-! ## Several handlers -/

/-- The world with another state. -/
def withSt (w : World σ) (st : σ) : World σ := ⟨w.files, w.dirs, w.counter, st⟩

theorem run_tryHandlers_skip (os : Os) (detect : Handler σ E → σ → Option (σ × Bool)) (go : Handler σ E → Prog σ α)
    (rejected : α) (rest : List (Handler σ E)) (st' : σ) : ∀ (pre : List (Handler σ E)) (w : World σ),
      AllReject detect pre w.st st' →
      run os (tryHandlers detect go rejected (pre ++ rest)) w = run os (tryHandlers detect go rejected rest) (withSt w st')
  | [], w, h => by cases h; rfl
  | h :: hs, w, ⟨st1, h1, h2⟩ => by
    rw [List.cons_append, tryHandlers, run_op]
    simp only [exec, h1]
    exact run_tryHandlers_skip os detect go rejected rest st' hs (withSt w st1) h2

theorem run_tryHandlers (os : Os) (detect : Handler σ E → σ → Option (σ × Bool)) (go : Handler σ E → Prog σ α)
    (rejected : α) (hs : List (Handler σ E)) (w : World σ) :
    (∀ h st', Chosen detect hs w.st h st' →
      run os (tryHandlers detect go rejected hs) w = run os (go h) (withSt w st')) ∧
    (∀ st', AllReject detect hs w.st st' →
      run os (tryHandlers detect go rejected hs) w = (withSt w st', some rejected)) ∧
    (DetectPanics detect hs w.st → (run os (tryHandlers detect go rejected hs) w).2 = none ∧
      SameBut [] w (run os (tryHandlers detect go rejected hs) w).1 ∧
      (run os (tryHandlers detect go rejected hs) w).1.files = w.files) := by
  refine ⟨?_, ?_, ?_⟩
  · rintro h st' ⟨pre, post, st1, rfl, h1, h2⟩
    rw [run_tryHandlers_skip os detect go rejected _ st1 pre w h1, tryHandlers, run_op]
    simp only [exec, withSt, h2, if_true]
  · intro st' h
    have := run_tryHandlers_skip os detect go rejected [] st' hs w h
    rw [List.append_nil] at this
    rw [this]; rfl
  · rintro ⟨pre, h, post, st1, rfl, h1, h2⟩
    rw [run_tryHandlers_skip os detect go rejected _ st1 pre w h1, tryHandlers, run_op]
    simp only [exec, withSt, h2]
    exact ⟨trivial, ⟨fun _ _ => rfl, rfl, rfl⟩, trivial⟩

/-- The extension of a path, as the handlers see it: the text behind the last dot of the file name in lower case; nothing
if there is no dot behind the first character. -/
def IsExtension (os : Os) (p : Path) (ext : Option String) : Prop :=
  (∃ dir stem e, p = dir ++ [String.ofList (stem ++ '.' :: e)] ∧ stem ≠ [] ∧ '.' ∉ e ∧ (stem = ['.'] → e ≠ []) ∧
    ext = some (os.lower (String.ofList e))) ∨
  (ext = none ∧ (p = [] ∨ ∃ dir name, p = dir ++ [name] ∧ (name = ".." ∨ '.' ∉ name.toList.drop 1)))

theorem takeWhile_dot (stem e : List Char) (he : '.' ∉ e) :
    ((stem ++ '.' :: e).reverse.takeWhile (· ≠ '.')).reverse = e := by
  have : (stem ++ '.' :: e).reverse = e.reverse ++ '.' :: stem.reverse := by simp
  rw [this]
  have h2 : ∀ (l : List Char) (r : List Char), '.' ∉ l → (l ++ '.' :: r).takeWhile (· ≠ '.') = l := by
    intro l r hl
    induction l with
    | nil => simp
    | cons a l ih =>
      simp only [List.mem_cons, not_or] at hl
      have ha : (a ≠ '.') := fun h => hl.1 h.symm
      rw [List.cons_append, List.takeWhile_cons_of_pos (by simpa using ha), ih hl.2]
  rw [h2 _ _ (by simpa using he), List.reverse_reverse]

theorem extension_spec {os : Os} {p : Path} {ext : Option String} (h : IsExtension os p ext) :
    extractLowercaseExtension os p = ext := by
  unfold extractLowercaseExtension
  rcases h with ⟨dir, stem, e, rfl, hs, he, hdd, rfl⟩ | ⟨rfl, rfl | ⟨dir, name, rfl, hn⟩⟩
  · rw [List.getLast?_concat, Option.bind_some]
    have h1 : String.ofList (stem ++ '.' :: e) ≠ ".." := by
      intro h
      have := congrArg String.toList h
      rw [String.toList_ofList] at this
      have h3 : "..".toList = ['.', '.'] := by decide
      rw [h3] at this
      match stem, hs with
      | [a], _ =>
        simp at this
        obtain ⟨rfl, rfl⟩ := this
        exact hdd rfl rfl
      | a :: b :: stem, _ =>
        have := congrArg List.length this
        simp at this
    unfold extensionOf
    simp only [String.toList_ofList, takeWhile_dot stem e he]
    have hl : 0 < stem.length := List.length_pos_iff.2 hs
    rw [if_neg h1, if_neg]
    · rfl
    · simp
      omega
  · rfl
  · rw [List.getLast?_concat, Option.bind_some]
    unfold extensionOf
    simp only
    rcases hn with rfl | hn
    · rfl
    · split
      · rfl
      rw [if_pos]
      · rfl
      · match hc : name.toList, hn with
        | [], _ => simp
        | a :: l, hn =>
          simp only [List.drop_succ_cons, List.drop_zero] at hn
          by_cases ha : a = '.'
          · subst ha
            right
            have := takeWhile_dot [] l hn
            rw [List.nil_append] at this
            rw [this]
            simp
          · left
            have h3 : ∀ l : List Char, (∀ x ∈ l, (x ≠ '.' : Bool) = true) → l.takeWhile (· ≠ '.') = l := by
              intro l hl
              induction l with
              | nil => rfl
              | cons a l ih =>
                rw [List.takeWhile_cons_of_pos (p := fun x => decide (x ≠ '.')) (hl a (by simp)), ih fun x hx => hl x (by simp [hx])]
            have h2 : ((a :: l).reverse.takeWhile (· ≠ '.')) = (a :: l).reverse := by
              apply h3
              intro x hx
              simp only [List.mem_reverse, List.mem_cons] at hx
              rcases hx with rfl | hx
              · simpa using ha
              · simp only [decide_eq_true_eq]
                rintro rfl
                exact hn hx
            rw [h2, List.reverse_reverse]

/-- Every path is covered. -/
theorem extension_exists (os : Os) (p : Path) : ∃ ext, IsExtension os p ext := by
  rcases List.eq_nil_or_concat p with rfl | ⟨dir, name, rfl⟩
  · exact ⟨none, .inr ⟨rfl, .inl rfl⟩⟩
  · by_cases hdd : name = ".."
    · exact ⟨none, .inr ⟨rfl, .inr ⟨dir, name, List.concat_eq_append, .inl hdd⟩⟩⟩
    by_cases hn : '.' ∈ name.toList.drop 1
    · match hc : name.toList, hn with
      | a :: l, hn =>
        simp only [List.drop_succ_cons, List.drop_zero] at hn
        obtain ⟨x, y, h1, h2⟩ := List.eq_append_cons_of_mem (List.mem_reverse.2 hn)
        have hl : l = y.reverse ++ '.' :: x.reverse := by
          have := congrArg List.reverse h1
          simpa using this
        have hname : name = String.ofList ((a :: y.reverse) ++ '.' :: x.reverse) := by
          rw [← String.ofList_toList (s := name), hc, hl]; rfl
        refine ⟨_, .inl ⟨dir, a :: y.reverse, x.reverse, by rw [← hname, List.concat_eq_append], by simp, by simpa using h2,
          fun e1 e2 => hdd ?_, rfl⟩⟩
        rw [hname, e1, e2]; rfl
    · exact ⟨none, .inr ⟨rfl, .inr ⟨dir, name, List.concat_eq_append, .inr hn⟩⟩⟩

example (os : Os) : extractLowercaseExtension os ["tmp", "a.b.DDS"] = some (os.lower "DDS") ∧
    extractLowercaseExtension os ["tmp.dds", ".dds"] = none :=
  ⟨extension_spec (.inl ⟨["tmp"], ['a', '.', 'b'], ['D', 'D', 'S'], by decide, by decide, by decide, by decide, rfl⟩),
    extension_spec (.inr ⟨rfl, .inr ⟨["tmp.dds"], ".dds", rfl, by decide⟩⟩)⟩

/-- **C37** (several handlers, file to file).  `ext` is the extension of the input path.  The first handler that accepts
the contents is used as in `C37_file_with_handler` and returned; if none does, `NoSupportedHandler` is the result and no file
changes; a panic of a detection is passed on before any file changes. -/
theorem C37_file_with_multiple_handlers (os : Os) (w : World σ) (hs : List (Handler σ E)) (inp out : Path) (hne : inp ≠ out)
    (bundle : Bundle σ E) (data fresh : Buf) (ext : Option String) (he : IsExtension os inp ext)
    (hr : Readable os w inp data) (hc : Creatable os w out data.length fresh) :
    ((∀ h st', Chosen (fun h => h.canHandle data ext) hs w.st h st' →
        FileLike w out fresh ((transformSliceWithBundle h data fresh bundle st').map fun (o, st, r) => (o, st, r.map fun _ => h))
          (run os (transformFileWithMultipleHandlers os hs inp out bundle) w)) ∧
      (∀ st', AllReject (fun h => h.canHandle data ext) hs w.st st' →
        run os (transformFileWithMultipleHandlers os hs inp out bundle) w =
          (withSt w st', some (.error (.transform .noSupportedHandler)))) ∧
      (DetectPanics (fun h => h.canHandle data ext) hs w.st →
        (run os (transformFileWithMultipleHandlers os hs inp out bundle) w).2 = none ∧
        (run os (transformFileWithMultipleHandlers os hs inp out bundle) w).1.files = w.files)) ∧
    ((∀ h st', Chosen (fun h => h.canHandleUntransform data ext) hs w.st h st' →
        FileLike w out fresh ((untransformSlice h data fresh st').map fun (o, st, r) => (o, st, r.map fun _ => h))
          (run os (untransformFileWithMultipleHandlers os hs inp out) w)) ∧
      (∀ st', AllReject (fun h => h.canHandleUntransform data ext) hs w.st st' →
        run os (untransformFileWithMultipleHandlers os hs inp out) w =
          (withSt w st', some (.error (.transform .noSupportedHandler)))) ∧
      (DetectPanics (fun h => h.canHandleUntransform data ext) hs w.st →
        (run os (untransformFileWithMultipleHandlers os hs inp out) w).2 = none ∧
        (run os (untransformFileWithMultipleHandlers os hs inp out) w).1.files = w.files)) := by
  unfold transformFileWithMultipleHandlers untransformFileWithMultipleHandlers
  rw [run_withInput hr, run_withInput hr, extension_spec he]
  constructor
  · obtain ⟨h1, h2, h3⟩ := run_tryHandlers os (fun h => h.canHandle data ext)
      (fun h => intoFile out data.length fun output st =>
        if inp = out then none
        else (transformSliceWithBundle h data output bundle st).map fun (o, st, r) => (o, st, r.map fun _ => h))
      (.error (.transform .noSupportedHandler)) hs w
    refine ⟨fun h st' hch => ?_, h2, fun hp => ⟨(h3 hp).1, (h3 hp).2.2⟩⟩
    rw [h1 h st' hch]
    have hc' : Creatable os (withSt w st') out data.length fresh := ⟨hc.1, hc.2, hc.3, hc.4, hc.5⟩
    have := intoFile_like hc' fun output st =>
        if inp = out then none
        else (transformSliceWithBundle h data output bundle st).map fun (o, st, r) => (o, st, r.map fun _ => h)
    rw [if_neg hne] at this
    exact this
  · obtain ⟨h1, h2, h3⟩ := run_tryHandlers os (fun h => h.canHandleUntransform data ext)
      (fun h => intoFile out data.length fun output st =>
        if inp = out then none
        else (untransformSlice h data output st).map fun (o, st, r) => (o, st, r.map fun _ => h))
      (.error (.transform .noSupportedHandler)) hs w
    refine ⟨fun h st' hch => ?_, h2, fun hp => ⟨(h3 hp).1, (h3 hp).2.2⟩⟩
    rw [h1 h st' hch]
    have hc' : Creatable os (withSt w st') out data.length fresh := ⟨hc.1, hc.2, hc.3, hc.4, hc.5⟩
    have := intoFile_like hc' fun output st =>
        if inp = out then none
        else (untransformSlice h data output st).map fun (o, st, r) => (o, st, r.map fun _ => h)
    rw [if_neg hne] at this
    exact this

/-- **C37** (several handlers, slice to file; the caller supplies the extension). -/
theorem C37_slice_to_file_with_multiple_handlers (os : Os) (w : World σ) (hs : List (Handler σ E)) (out : Path)
    (bundle : Bundle σ E) (data fresh : Buf) (ext : Option String) (hc : Creatable os w out data.length fresh) :
    ((∀ h st', Chosen (fun h => h.canHandle data ext) hs w.st h st' →
        FileLike w out fresh ((transformSliceWithBundle h data fresh bundle st').map fun (o, st, r) => (o, st, r.map fun _ => h))
          (run os (transformSliceToFileWithMultipleHandlers hs data out bundle ext) w)) ∧
      (∀ st', AllReject (fun h => h.canHandle data ext) hs w.st st' →
        run os (transformSliceToFileWithMultipleHandlers hs data out bundle ext) w =
          (withSt w st', some (.error (.transform .noSupportedHandler))))) ∧
    ((∀ h st', Chosen (fun h => h.canHandleUntransform data ext) hs w.st h st' →
        FileLike w out fresh ((untransformSlice h data fresh st').map fun (o, st, r) => (o, st, r.map fun _ => h))
          (run os (untransformSliceToFileWithMultipleHandlers hs data out ext) w)) ∧
      (∀ st', AllReject (fun h => h.canHandleUntransform data ext) hs w.st st' →
        run os (untransformSliceToFileWithMultipleHandlers hs data out ext) w =
          (withSt w st', some (.error (.transform .noSupportedHandler))))) := by
  constructor
  · obtain ⟨h1, h2, _⟩ := run_tryHandlers os (fun h => h.canHandle data ext)
      (fun h => intoFile out data.length fun output st =>
        (transformSliceWithBundle h data output bundle st).map fun (o, st, r) => (o, st, r.map fun _ => h))
      (.error (.transform .noSupportedHandler)) hs w
    refine ⟨fun h st' hch => ?_, h2⟩
    unfold transformSliceToFileWithMultipleHandlers
    rw [h1 h st' hch]
    have hc' : Creatable os (withSt w st') out data.length fresh := ⟨hc.1, hc.2, hc.3, hc.4, hc.5⟩
    exact intoFile_like hc' fun output st =>
        (transformSliceWithBundle h data output bundle st).map fun (o, st, r) => (o, st, r.map fun _ => h)
  · obtain ⟨h1, h2, _⟩ := run_tryHandlers os (fun h => h.canHandleUntransform data ext)
      (fun h => intoFile out data.length fun output st =>
        (untransformSlice h data output st).map fun (o, st, r) => (o, st, r.map fun _ => h))
      (.error (.transform .noSupportedHandler)) hs w
    refine ⟨fun h st' hch => ?_, h2⟩
    unfold untransformSliceToFileWithMultipleHandlers
    rw [h1 h st' hch]
    have hc' : Creatable os (withSt w st') out data.length fresh := ⟨hc.1, hc.2, hc.3, hc.4, hc.5⟩
    exact intoFile_like hc' fun output st =>
        (untransformSlice h data output st).map fun (o, st, r) => (o, st, r.map fun _ => h)

/-- **C37** (several handlers, file to slice). -/
theorem C37_file_to_slice_with_multiple_handlers (os : Os) (w : World σ) (hs : List (Handler σ E)) (inp : Path)
    (output : Buf) (bundle : Bundle σ E) (data : Buf) (ext : Option String) (he : IsExtension os inp ext)
    (hr : Readable os w inp data) :
    (output.length < data.length →
      run os (transformFileToSliceWithMultipleHandlers os hs inp output bundle) w = (w, some (output, .error (.transform
        (.formatHandler (.outputBufferTooSmall data.length output.length))))) ∧
      run os (untransformFileToSliceWithMultipleHandlers os hs inp output) w = (w, some (output, .error (.transform
        (.formatHandler (.outputBufferTooSmall data.length output.length)))))) ∧
    (data.length ≤ output.length →
      (∀ h st', Chosen (fun h => h.canHandle data ext) hs w.st h st' →
        SliceLike (withSt w st') output data.length
          ((transformSliceWithBundle h data (output.take data.length) bundle st').map fun (o, st, r) => (o, st, r.map fun _ => h))
          (run os (transformFileToSliceWithMultipleHandlers os hs inp output bundle) w)) ∧
      (∀ st', AllReject (fun h => h.canHandle data ext) hs w.st st' →
        run os (transformFileToSliceWithMultipleHandlers os hs inp output bundle) w =
          (withSt w st', some (output, .error (.transform .noSupportedHandler)))) ∧
      (∀ h st', Chosen (fun h => h.canHandleUntransform data ext) hs w.st h st' →
        SliceLike (withSt w st') output data.length
          ((untransformSlice h data (output.take data.length) st').map fun (o, st, r) => (o, st, r.map fun _ => h))
          (run os (untransformFileToSliceWithMultipleHandlers os hs inp output) w)) ∧
      (∀ st', AllReject (fun h => h.canHandleUntransform data ext) hs w.st st' →
        run os (untransformFileToSliceWithMultipleHandlers os hs inp output) w =
          (withSt w st', some (output, .error (.transform .noSupportedHandler))))) := by
  unfold transformFileToSliceWithMultipleHandlers untransformFileToSliceWithMultipleHandlers
  rw [run_withInputFor hr, run_withInputFor hr, extension_spec he]
  refine ⟨fun hl => ?_, fun hl => ?_⟩
  · rw [if_pos hl, if_pos hl]; exact ⟨rfl, rfl⟩
  · rw [if_neg (by omega), if_neg (by omega)]
    obtain ⟨h1, h2, _⟩ := run_tryHandlers os (fun h => h.canHandle data ext)
      (fun h => intoSlice data output fun output st =>
        (transformSliceWithBundle h data output bundle st).map fun (o, st, r) => (o, st, r.map fun _ => h))
      (output, .error (.transform .noSupportedHandler)) hs w
    obtain ⟨g1, g2, _⟩ := run_tryHandlers os (fun h => h.canHandleUntransform data ext)
      (fun h => intoSlice data output fun output st =>
        (untransformSlice h data output st).map fun (o, st, r) => (o, st, r.map fun _ => h))
      (output, .error (.transform .noSupportedHandler)) hs w
    refine ⟨fun h st' hch => ?_, h2, fun h st' hch => ?_, g2⟩
    · rw [h1 h st' hch]
      exact intoSlice_like os (withSt w st') data output fun output st =>
        (transformSliceWithBundle h data output bundle st).map fun (o, st, r) => (o, st, r.map fun _ => h)
    · rw [g1 h st' hch]
      exact intoSlice_like os (withSt w st') data output fun output st =>
        (untransformSlice h data output st).map fun (o, st, r) => (o, st, r.map fun _ => h)

/-- **C37** (frame): whatever the operating system answers and the handlers do, also if they fail or panic, no function
changes a file other than its output file, or a directory. -/
theorem C37_frame (os : Os) (w : World σ) (h : Handler σ E) (hs : List (Handler σ E)) (inp out : Path) (data : Buf)
    (bundle : Bundle σ E) (ext : Option String) :
    SameBut out w (run os (transformFileWithHandler os h inp out bundle) w).1 ∧
    SameBut out w (run os (untransformFileWithHandler os h inp out) w).1 ∧
    SameBut out w (run os (transformFileWithMultipleHandlers os hs inp out bundle) w).1 ∧
    SameBut out w (run os (untransformFileWithMultipleHandlers os hs inp out) w).1 ∧
    SameBut out w (run os (transformSliceToFileWithHandler h data out bundle) w).1 ∧
    SameBut out w (run os (untransformSliceToFileWithHandler h data out) w).1 ∧
    SameBut out w (run os (transformSliceToFileWithMultipleHandlers hs data out bundle ext) w).1 ∧
    SameBut out w (run os (untransformSliceToFileWithMultipleHandlers hs data out ext) w).1 :=
  ⟨run_only _ (only_withInput fun _ => only_intoFile) w, run_only _ (only_withInput fun _ => only_intoFile) w,
    run_only _ (only_withInput fun _ => only_tryHandlers (fun _ => only_intoFile) hs) w,
    run_only _ (only_withInput fun _ => only_tryHandlers (fun _ => only_intoFile) hs) w,
    run_only _ only_intoFile w, run_only _ only_intoFile w,
    run_only _ (only_tryHandlers (fun _ => only_intoFile) hs) w,
    run_only _ (only_tryHandlers (fun _ => only_intoFile) hs) w⟩

/-! ## Round trip of DDS files -/

theorem dds_can_handle {p : Platform} {dbg : E → String} {input : Buf} {ext : Option String}
    (hx : ext = none ∨ ext = some "dds") (st : σ) :
    (handler (E := E) p dbg).canHandle input ext st = (handler (E := E) p dbg).canHandle input none st ∧
    (handler (E := E) p dbg).canHandleUntransform input ext st =
      (handler (E := E) p dbg).canHandleUntransform input none st := by
  rcases hx with rfl | rfl
  · exact ⟨rfl, rfl⟩
  · constructor
    · change (canHandle p input (some "dds")).map _ = (canHandle p input none).map _
      unfold canHandle
      rfl
    · change (canHandleUntransform p input (some "dds")).map _ = (canHandleUntransform p input none).map _
      unfold canHandleUntransform
      rfl

/-- What a list of one handler does if it succeeds. -/
theorem one_handler {h r : Handler σ E} {input output o : Buf} {bundle : Bundle σ E} {st st' : σ}
    (hl : input.length ≤ output.length)
    (ht : transformSliceWithMultipleHandlers [h] input output bundle st = some (o, st', .ok r)) :
    ∃ st1, h.canHandle input none st = some (st1, true) := by
  unfold transformSliceWithMultipleHandlers at ht
  rw [if_neg (by omega), tryTransform] at ht
  rcases hc : h.canHandle input none st with _ | ⟨st1, _ | _⟩
  · rw [hc] at ht; simp at ht
  · rw [hc] at ht; simp [tryTransform] at ht
  · exact ⟨st1, rfl⟩

theorem one_handler_untransform {h r : Handler σ E} {input output o : Buf} {st st' : σ}
    (hl : input.length ≤ output.length)
    (ht : untransformSliceWithMultipleHandlers [h] input output st = some (o, st', .ok r)) :
    ∃ st1, h.canHandleUntransform input none st = some (st1, true) := by
  unfold untransformSliceWithMultipleHandlers at ht
  rw [if_neg (by omega), tryUntransform] at ht
  rcases hc : h.canHandleUntransform input none st with _ | ⟨st1, _ | _⟩
  · rw [hc] at ht; simp at ht
  · rw [hc] at ht; simp [tryUntransform] at ht
  · exact ⟨st1, rfl⟩

/-- **C37** (round trip): a DDS file `inp` has been transformed to the file `mid` with success (`hrun`).  Then untransforming
`mid` to `out` writes the contents of `inp` there and changes nothing else, in one step with the handler or by detection
(if the names of the files have the extension `dds` or none), on any machine of the same byte order. -/
theorem C37_dds_file_roundtrip (p p' : Platform) (hm : p.m.endian = p'.m.endian)
    (hc : p'.overflowChecks = true → p.overflowChecks = true) (hu : 2 ^ 32 - 1 ≤ p.env.usizeMax)
    (dbg : E → String) (bundle : Bundle σ E) (os os' : Os) (w w1 : World σ) (inp mid out : Path)
    (h1 : inp ≠ mid) (h2 : mid ≠ out) (data fresh fresh' : Buf) (hin : data.length ≤ p'.env.usizeMax)
    (hr : Readable os w inp data) (hcr : Creatable os w mid data.length fresh)
    (hrun : run os (transformFileWithHandler os (handler p dbg) inp mid bundle) w = (w1, some (.ok ())))
    (w2 : World σ) (hsame : w2.files mid = w1.files mid)
    (hopen : os'.canOpen mid = true ∧ os'.canSize mid = true ∧ os'.canMap mid data.length = true ∧
      data.length ≤ os'.usizeMax)
    (hcr' : Creatable os' w2 out data.length fresh') :
    (∃ o, w1.files mid = some o ∧ o.length = data.length ∧ (∀ q, q ≠ mid → w1.files q = w.files q)) ∧
    run os' (untransformFileWithHandler os' (handler (E := E) p' dbg) mid out) w2 = (w2.after out data w2.st, some (.ok ())) ∧
    (∀ ext, ext = none ∨ ext = some "dds" → IsExtension os inp ext → ∃ h,
      run os (transformFileWithMultipleHandlers os [handler p dbg] inp mid bundle) w = (w1, some (.ok h))) ∧
    (∀ ext, ext = none ∨ ext = some "dds" → IsExtension os' mid ext → ∃ h,
      run os' (untransformFileWithMultipleHandlers os' [handler (E := E) p' dbg] mid out) w2 =
        (w2.after out data w2.st, some (.ok h))) := by
  obtain ⟨hf, _⟩ := C37_file_with_handler os w (handler p dbg) inp mid h1 bundle data fresh hr hcr
  rw [hrun] at hf
  rcases ht : transformSliceWithBundle (handler p dbg) data fresh bundle w.st with _ | ⟨o, st', r⟩
  · rw [ht] at hf
    exact nomatch hf.1
  rw [ht] at hf
  have hfl := hcr.length
  obtain ⟨ho, rfl, rfl⟩ : o.length = fresh.length ∧ r = .ok () ∧ w1 = w.after mid o st' := by
    have hu' : transformBundle p dbg bundle data fresh w.st = some (o, st', r) := by
      unfold transformSliceWithBundle at ht
      rw [if_neg (by omega)] at ht
      exact ht
    have hlen : o.length = fresh.length := dds_keeps_length hu hu'
    have := hf hlen
    simp only [Prod.mk.injEq, Option.some.injEq] at this
    refine ⟨hlen, ?_, this.1⟩
    cases r with
    | error e => exact nomatch this.2
    | ok u => rfl
  have key := fun st2 => C26_dds_api_roundtrip p p' hm hc hu dbg bundle data fresh o w.st st' st2 hin (by omega) ht
  have hmid : w2.files mid = some o := by rw [hsame]; simp [World.after]
  have hr2 : Readable os' w2 mid o := ⟨hmid, hopen.1, hopen.2.1, by rw [ho, hfl]; exact hopen.2.2.1,
    by rw [ho, hfl]; exact hopen.2.2.2⟩
  have hcr2 : Creatable os' w2 out o.length fresh' := by rw [ho, hfl]; exact hcr'
  have hfl' := hcr'.length
  refine ⟨⟨o, by simp [World.after], by omega, fun q hq => by simp [World.after, hq]⟩, ?_, fun ext hx hext => ?_,
    fun ext hx hext => ?_⟩
  · obtain ⟨_, hg⟩ := C37_file_with_handler os' w2 (handler (E := E) p' dbg) mid out h2 bundle o fresh' hr2 hcr2
    rw [(key w2.st fresh' (by omega)).1] at hg
    exact hg (by omega)
  · obtain ⟨_, ⟨r, hmul⟩, _⟩ := key w.st fresh (by omega)
    obtain ⟨st1, hcan⟩ := one_handler (by omega) hmul
    have hst : st1 = w.st := by
      change (canHandle p data none).map _ = _ at hcan
      rcases hc : canHandle p data none with _ | b
      · rw [hc] at hcan; simp at hcan
      · rw [hc] at hcan; simp at hcan; exact hcan.1.symm
    subst hst
    obtain ⟨⟨hch, _⟩, _⟩ := C37_file_with_multiple_handlers os w [handler p dbg] inp mid h1 bundle data fresh ext hext hr hcr
    have := hch (handler p dbg) w.st ⟨[], [], w.st, rfl, rfl, (dds_can_handle hx w.st).1.trans hcan⟩
    rw [ht] at this
    exact ⟨_, this (by omega)⟩
  · obtain ⟨_, _, ⟨r, hmul⟩⟩ := key w2.st fresh' (by omega)
    obtain ⟨st1, hcan⟩ := one_handler_untransform (by omega) hmul
    have hst : st1 = w2.st := by
      change (canHandleUntransform p' o none).map _ = _ at hcan
      rcases hc : canHandleUntransform p' o none with _ | b
      · rw [hc] at hcan; simp at hcan
      · rw [hc] at hcan; simp at hcan; exact hcan.1.symm
    subst hst
    obtain ⟨_, ⟨hch, _⟩⟩ := C37_file_with_multiple_handlers os' w2 [handler (E := E) p' dbg] mid out h2 bundle o fresh'
      ext hext hr2 hcr2
    have := hch (handler p' dbg) w2.st ⟨[], [], w2.st, rfl, rfl, (dds_can_handle hx w2.st).2.trans hcan⟩
    rw [(key w2.st fresh' (by omega)).1] at this
    exact ⟨_, this (by omega)⟩

/-! ## Examples -/

/-- An operating system that refuses nothing; new files are zero. -/
def kindOs : Os where
  canOpen _ := true
  canSize _ := true
  canMap _ _ := true
  canMapWrite _ _ := true
  create _ n _ := (some (List.replicate n 0), true)
  canMkdir _ := true
  lower s := if s = "DDS" then "dds" else s
  usizeMax := 2 ^ 64 - 1

/-- A directory with one file. -/
def oneFile (name : String) (data : Buf) : World Unit :=
  ⟨fun q => if q = ["d", name] then some data else none, fun q => q = [] || q = ["d"], 0, ()⟩

/-- Non-vacuity: the hypotheses of the theorems hold, and the file goes there and back. -/
example :
    Readable kindOs (oneFile "a.DDS" smallFile) ["d", "a.DDS"] smallFile ∧
    Creatable kindOs (oneFile "a.DDS" smallFile) ["d", "b"] smallFile.length (List.replicate smallFile.length 0) ∧
    (let r := run kindOs (transformFileWithMultipleHandlers kindOs [handler somePlatform fun _ : Unit => ""] ["d", "a.DDS"]
        ["d", "b"] Bundle.defaultAll) (oneFile "a.DDS" smallFile)
     (r.1.files ["d", "b"]).map (List.take 4) = some [64, 0, 0, 0] ∧ r.2.isSome ∧
     (run kindOs (untransformFileWithHandler kindOs (handler somePlatform fun _ : Unit => "") ["d", "b"] ["d", "c"]) r.1).1.files
       ["d", "c"] = some smallFile) := by
  refine ⟨⟨by simp [oneFile], rfl, rfl, rfl, by decide +kernel⟩, ⟨by decide, by decide, rfl, List.length_replicate, rfl⟩, by decide +kernel⟩

/-! ## C38: failures -/

/-- **C38** is false, in general: whenever a file can be read, the output can be created and the transformation fails, the
function reports the error and leaves a file at the output path, with the size of the input; what was there is lost. -/
theorem C38_left_behind (os : Os) (w : World σ) (h : Handler σ E) (inp out : Path) (hne : inp ≠ out)
    (bundle : Bundle σ E) (data fresh : Buf) (hr : Readable os w inp data) (hc : Creatable os w out data.length fresh) :
    (∀ o st e, transformSliceWithBundle h data fresh bundle w.st = some (o, st, .error e) → o.length = fresh.length →
      (run os (transformFileWithHandler os h inp out bundle) w).2 = some (.error (.transform e)) ∧
      (run os (transformFileWithHandler os h inp out bundle) w).1.files out = some o) ∧
    (∀ o st e, untransformSlice h data fresh w.st = some (o, st, .error e) → o.length = fresh.length →
      (run os (untransformFileWithHandler os h inp out) w).2 = some (.error (.transform e)) ∧
      (run os (untransformFileWithHandler os h inp out) w).1.files out = some o) := by
  obtain ⟨h1, h2⟩ := C37_file_with_handler os w h inp out hne bundle data fresh hr hc
  refine ⟨fun o st e ht hl => ?_, fun o st e ht hl => ?_⟩
  · rw [ht] at h1
    rw [h1 hl]
    exact ⟨rfl, by simp⟩
  · rw [ht] at h2
    rw [h2 hl]
    exact ⟨rfl, by simp⟩

/-- A BC2 texture. -/
def bc2File : Buf := ddsHeader 0x1007#32 4#32 4#32 1#32 4#32 "DXT3" [] ++ List.replicate 16 5

/-- **C38** is false for what the command line tool does with a BC2 texture (its bundles have a builder for BC1 only,
src/tools/dxt-lossless-transform-cli/src/commands/transform/mod.rs:117-187): the call fails, and there is a file that was
not there before, with the header of the input and zeros instead of the texture.  So does the input without texture data
behind its header. -/
theorem C38_violated :
    (let r := run kindOs (transformFileWithMultipleHandlers kindOs [handler somePlatform fun _ : Unit => ""] ["d", "a.DDS"]
        ["d", "b"] (Bundle.new.withBc1Manual .new)) (oneFile "a.DDS" bc2File)
     (oneFile "a.DDS" bc2File).files ["d", "b"] = none ∧
     r.2.map (fun r => r.toOption.isNone) = some true ∧
     r.1.files ["d", "b"] = some (bc2File.take 128 ++ List.replicate 16 0)) ∧
    (let r := run kindOs (transformFileWithMultipleHandlers kindOs [handler somePlatform fun _ : Unit => ""] ["d", "a.DDS"]
        ["d", "b"] Bundle.defaultAll) (oneFile "a.DDS" (bc2File.take 130))
     r.2.map (fun r => r.toOption.isNone) = some true ∧ (r.1.files ["d", "b"]).isSome) := by
  decide +kernel

/-- The input cannot be opened, measured or mapped. -/
def Unreadable (os : Os) (w : World σ) (p : Path) : Prop :=
  w.files p = none ∨ os.canOpen p = false ∨ os.canSize p = false ∨
    ∃ data, w.files p = some data ∧ data.length ≤ os.usizeMax ∧ os.canMap p data.length = false

theorem run_unreadable {os : Os} {w : World σ} {p : Path} (h : Unreadable os w p)
    (k : Buf → Prog σ (Except FileError α)) : ∃ e, run os (withInput os p k) w = (w, some (.error (.io e))) := by
  rcases hf : w.files p with _ | data
  · exact ⟨_, by simp [withInput, try', run, exec, hf]; rfl⟩
  by_cases h1 : os.canOpen p
  · by_cases h2 : os.canSize p
    · obtain ⟨h3, h4⟩ : data.length ≤ os.usizeMax ∧ os.canMap p data.length = false := by
        rcases h with h | h | h | ⟨d, h, h'⟩
        · simp [h] at hf
        · simp [h] at h1
        · simp [h] at h2
        · obtain rfl : d = data := by rw [hf] at h; exact (Option.some.inj h).symm
          exact h'
      have h5 : data.length % (os.usizeMax + 1) = data.length := Nat.mod_eq_of_lt (by omega)
      exact ⟨_, by simp [withInput, try', run, exec, hf, h1, h2, h4, h5]; rfl⟩
    · exact ⟨_, by simp [withInput, try', run, exec, hf, h1, h2]; rfl⟩
  · exact ⟨_, by simp [withInput, try', run, exec, hf, h1]; rfl⟩

theorem run_no_place {os : Os} {w : World σ} {p : Path} (h : w.dirs p.dropLast = false ∨ w.dirs p = true) (n : Nat)
    (f : Buf → σ → Option (Res σ α)) : run os (intoFile p n f) w = (w, some (.error (.io .fileHandle))) := by
  have : (w.dirs p.dropLast && !w.dirs p) = false := by rcases h with h | h <;> simp [h]
  simp [intoFile, try', run, exec, this]

/-- **C38** (what holds): nothing is left behind if the input cannot be read, if no handler accepts it
(`NoSupportedHandler`), or if there is no place for the output.  Missing: failures of the transformation itself, for which
the claim is false (`C38_left_behind`, `C38_violated`). -/
theorem C38_nothing_left_partial (os : Os) (w : World σ) (h : Handler σ E) (hs : List (Handler σ E)) (inp out : Path)
    (bundle : Bundle σ E) :
    (Unreadable os w inp →
      (∃ e, run os (transformFileWithHandler os h inp out bundle) w = (w, some (.error (.io e)))) ∧
      (∃ e, run os (untransformFileWithHandler os h inp out) w = (w, some (.error (.io e)))) ∧
      (∃ e, run os (transformFileWithMultipleHandlers os hs inp out bundle) w = (w, some (.error (.io e)))) ∧
      (∃ e, run os (untransformFileWithMultipleHandlers os hs inp out) w = (w, some (.error (.io e))))) ∧
    (∀ data ext, Readable os w inp data → IsExtension os inp ext →
      (∀ st', AllReject (fun h => h.canHandle data ext) hs w.st st' →
        run os (transformFileWithMultipleHandlers os hs inp out bundle) w =
          (withSt w st', some (.error (.transform .noSupportedHandler)))) ∧
      (∀ st', AllReject (fun h => h.canHandleUntransform data ext) hs w.st st' →
        run os (untransformFileWithMultipleHandlers os hs inp out) w =
          (withSt w st', some (.error (.transform .noSupportedHandler))))) ∧
    (∀ data, Readable os w inp data → w.dirs out.dropLast = false ∨ w.dirs out = true →
      run os (transformFileWithHandler os h inp out bundle) w = (w, some (.error (.io .fileHandle))) ∧
      run os (untransformFileWithHandler os h inp out) w = (w, some (.error (.io .fileHandle))) ∧
      (run os (transformFileWithMultipleHandlers os hs inp out bundle) w).1.files = w.files ∧
      (run os (untransformFileWithMultipleHandlers os hs inp out) w).1.files = w.files) := by
  refine ⟨fun hu => ⟨run_unreadable hu _, run_unreadable hu _, run_unreadable hu _, run_unreadable hu _⟩,
    fun data ext hr he => ?_, fun data hr hp => ?_⟩
  · unfold transformFileWithMultipleHandlers untransformFileWithMultipleHandlers
    rw [run_withInput hr, run_withInput hr, extension_spec he]
    exact ⟨(run_tryHandlers os _ _ _ hs w).2.1, (run_tryHandlers os _ _ _ hs w).2.1⟩
  · have key : ∀ (detect : Handler σ E → σ → Option (σ × Bool)) (f : Handler σ E → Buf → σ → Option (Res σ (Handler σ E)))
        (n : Nat), (run os (tryHandlers detect (fun h => intoFile out n (f h)) (.error (.transform .noSupportedHandler)) hs)
          w).1.files = w.files := by
      intro detect f n
      obtain ⟨h1, h2, h3⟩ := run_tryHandlers os detect (fun h => intoFile out n (f h))
        (.error (.transform .noSupportedHandler)) hs w
      rcases selection_cases detect hs w.st with ⟨st', hc⟩ | ⟨h, st', hc⟩ | hc
      · rw [h2 st' hc]; rfl
      · rw [h1 h st' hc, run_no_place (w := withSt w st') hp]; rfl
      · exact (h3 hc).2.2
    unfold transformFileWithHandler untransformFileWithHandler transformFileWithMultipleHandlers
      untransformFileWithMultipleHandlers
    rw [run_withInput hr, run_withInput hr, run_withInput hr, run_withInput hr]
    exact ⟨run_no_place hp _ _, run_no_place hp _ _, key _ _ _, key _ _ _⟩

/-- Non-vacuity: no such file; a file that is no texture. -/
example : Unreadable kindOs (oneFile "a" smallFile) ["d", "x"] ∧
    AllReject (fun h => h.canHandle [1, 2, 3] (some "dds")) [handler somePlatform fun _ : Unit => ""] () () ∧
    (oneFile "a" smallFile).dirs ["e"] = false :=
  ⟨.inl (by decide), ⟨(), by decide +kernel, rfl⟩, by decide⟩

/-- With equal paths (excluded in the theorems above) the file is destroyed before the handler sees it. -/
theorem C37_same_path_destroys (os : Os) (w : World σ) (h : Handler σ E) (p : Path) (bundle : Bundle σ E) (data fresh : Buf)
    (hr : Readable os w p data) (hc : Creatable os w p data.length fresh) :
    run os (transformFileWithHandler os h p p bundle) w = (w.setFile p (some fresh), none) := by
  unfold transformFileWithHandler
  rw [run_withInput hr]
  exact (run_intoFile hc _).1 (if_pos rfl)

end Dlt.Props
