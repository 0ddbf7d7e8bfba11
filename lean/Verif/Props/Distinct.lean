import Verif.Props.Again
/-!
# C100: different files stay different
-/

namespace Dlt.Props

open Dlt.FileFormats Dlt.FileIo Dlt.FileIo.Prog Dlt.Cli Dlt.Dds

variable {σ τ E F : Type}

/-- **C100.** Two DDS files have been transformed with success, perhaps with different settings or estimators and on different platforms of the
same byte order, each into a buffer of the size of the file.  If the results are equal the files were. -/
theorem C100_different_files (p p' : Platform) (hm : p.m.endian = p'.m.endian) (hu : 2 ^ 32 - 1 ≤ p.env.usizeMax)
    (hu' : 2 ^ 32 - 1 ≤ p'.env.usizeMax) (dbg : E → String) (dbg' : F → String) (bundle : Bundle σ E) (bundle' : Bundle τ F)
    (file file' out out' o : Buf) (st st1 : σ) (st' st1' : τ) (hl : out.length = file.length) (hl' : out'.length = file'.length)
    (h : transformBundle p dbg bundle file out st = some (o, st1, .ok ()))
    (h' : transformBundle p' dbg' bundle' file' out' st' = some (o, st1', .ok ())) : file = file' := by
  let q : Platform := ⟨{ p.env with usizeMax := file.length + file'.length }, p.m, false⟩
  obtain ⟨a1, a2⟩ := C26_dds_roundtrip p q rfl (fun e => nomatch e) hu dbg bundle file out o st st1 (Nat.le_add_right ..) hl h out hl
  have key := C26_dds_roundtrip p' q hm.symm (fun e => nomatch e) hu' dbg' bundle' file' out' o st' st1' (Nat.le_add_left ..) hl' h'
  have b2 := (key out (by have := (key out' hl').1; omega)).2
  rw [a2] at b2
  cases b2
  rfl

/-- A file that differs from `smallFile` in its colours. -/
def otherFile : Buf := smallFile.take 128 ++ [0x72, 0xA8, 5, 57, 1, 2, 3, 4, 99]

theorem some_of_map {x : Option (Res Unit Unit)} {o : Buf} (h : x.map (fun y => (y.1, y.2.2.toOption)) = some (o, some ())) :
    x = some (o, (), .ok ()) := by
  rcases x with _ | ⟨o', ⟨⟩, e | ⟨⟨⟩⟩⟩
  · cases h
  · simp [Except.toOption] at h
  · simp [Except.toOption] at h; rw [h]

/-- Byte orders matter: on a little-endian and on a big-endian machine two different files of the same size become the same
transformed file, with the same settings. -/
theorem C100_byte_order_matters : ∃ (p p' : Platform) (file file' o : Buf),
    p.m.endian ≠ p'.m.endian ∧ file ≠ file' ∧ file.length = file'.length ∧
    transformBundle p (fun _ : Unit => "") (Bundle.new.withBc1Manual .new) file (List.replicate file.length 0) () =
      some (o, (), .ok ()) ∧
    transformBundle p' (fun _ : Unit => "") (Bundle.new.withBc1Manual .new) file' (List.replicate file'.length 0) () =
      some (o, (), .ok ()) := by
  refine ⟨somePlatform, { somePlatform with m := .other .big fun _ => 0 }, smallFile, otherFile,
    [64, 0, 0, 0] ++ (smallFile.drop 4).take 124 ++ [209, 191, 65, 248, 1, 2, 3, 4, 99], ?_, ?_, ?_, ?_, ?_⟩
  · decide
  · decide +kernel
  · decide +kernel
  · exact some_of_map (by decide +kernel)
  · exact some_of_map (by decide +kernel)

/-- Non-vacuity: `smallFile` and `otherFile` on one machine, with the same and with other settings; all the results are successful, and the results of
different files differ. -/
example :
    let t (file : Buf) (b : Bundle Unit Unit) :=
      (transformBundle somePlatform (fun _ => "") b file (List.replicate 137 0) ()).map fun x => (x.1, x.2.2.toOption)
    let b := Bundle.new.withBc1Manual .new
    let b' := Bundle.new.withBc1Manual ⟨⟨.none, false⟩⟩
    (t smallFile b).map (·.2) = some (some ()) ∧ (t smallFile b').map (·.2) = some (some ()) ∧ (t otherFile b').map (·.2) = some (some ()) ∧
    t smallFile b ≠ t smallFile b' ∧ t smallFile b ≠ t otherFile b' ∧ t smallFile b' ≠ t otherFile b' := by
  decide +kernel

/-- **C100** (commands).  Two executions of the `transform` command, perhaps with different settings, in any directories, under any schedules, whatever the
operating systems answer.  If the outputs of two files that were converted with success are equal, the files were. -/
theorem C100_commands {os os' : Os} (hwf : os.Wf) (hwf' : os'.Wf) (p p' : Platform) (hm : p.m.endian = p'.m.endian) (hw : Wide p) (hw' : Wide p')
    (dbg : E → String) (dbg' : F → String) (bundle : Bundle Unit E) (bundle' : Bundle Unit F) {ls ls' : Listing} {w0 w0' : World Unit}
    {inputDir outputDir inputDir' outputDir' : Path} {entries entries' : List Path}
    (hl : Listed ls w0 inputDir entries) (hl' : Listed ls' w0' inputDir' entries')
    (c : Config (Fin entries.length) Unit (Except FileError Nat))
    (hs : Steps os ⟨w0, transformJobs os (allHandlers p dbg) bundle inputDir outputDir entries⟩ c)
    (c' : Config (Fin entries'.length) Unit (Except FileError Nat))
    (hs' : Steps os' ⟨w0', transformJobs os' (allHandlers p' dbg') bundle' inputDir' outputDir' entries'⟩ c')
    (i : Fin entries.length) (i' : Fin entries'.length)
    (hfree : ∀ j : Fin entries.length, targetOf inputDir outputDir entries[j] ≠ entries[i])
    (hfree' : ∀ j : Fin entries'.length, targetOf inputDir' outputDir' entries'[j] ≠ entries'[i'])
    (data data' : Buf) (hd : w0.files entries[i] = some data) (hd' : w0'.files entries'[i'] = some data')
    (hfit : data.length ≤ os.usizeMax) (hfit' : data'.length ≤ os'.usizeMax)
    (n n' : Nat) (he : ended (c.progs i) = some (some (.ok n))) (he' : ended (c'.progs i') = some (some (.ok n')))
    (heq : c.world.files (targetOf inputDir outputDir entries[i]) = c'.world.files (targetOf inputDir' outputDir' entries'[i'])) :
    data = data' := by
  have f := command_fate p dbg (.transform bundle) hwf hw hl hs i hfree hd hfit he
  have f' := command_fate p' dbg' (.transform bundle') hwf' hw' hl' hs' i' hfree' hd' hfit' he'
  rw [← heq] at f'
  obtain ⟨fresh, o, h1, h2, h3⟩ := f.converted
  obtain ⟨fresh', o', h1', h2', h3'⟩ := f'.converted
  obtain rfl : o = o' := Option.some.inj (h2.symm.trans h2')
  simp only [worked, transformSliceWithBundle] at h3 h3'
  rw [if_neg (by omega)] at h3 h3'
  exact C100_different_files p p' hm (by unfold Wide at hw; omega) (by unfold Wide at hw'; omega) dbg dbg' bundle bundle' data data' fresh fresh' o
    () () () () h1 h1' h3 h3'

end Dlt.Props
