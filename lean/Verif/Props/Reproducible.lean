import Verif.Props.AutoBlind
import Verif.Props.DdsBuilds
import Verif.Props.DdsDamage
import Verif.Model.Commands
/-!
# C97: the CPU and the previous contents of the output do not matter for files either

C11, C12 and C13 are about one transform with given settings.  Here are the automatic transforms, the builders, the file format handler and
the command line: on two CPUs of one byte order they do exactly the same, in all results, errors and panics included; and the bytes of a
file do not depend on what the output buffer held before.
-/

namespace Dlt.Props

open Dlt.FileFormats Dlt.Dds Dlt.Embed

variable {S σ E : Type}

namespace Auto

open Dlt.Auto

/-- Two transforms that give the same lead the loop to the same. -/
theorem loop_congr {P : Buf → Prop} {tr₁ tr₂ : Buf → S → Option Buf} {T : S → Buf} (h₁ : Runs P tr₁ T) (h₂ : Runs P tr₂ T)
    (m : σ → Buf → σ × Except E Nat) :
    ∀ (order : List S) (o : Buf) (st : σ) (best : S) (bs : Nat) (last : S), P o →
      ∃ o' st' r, loop tr₁ m order o st best bs last = some (o', st', r) ∧
        loop tr₂ m order o st best bs last = some (o', st', r) ∧ P o'
  | [], o, st, _, _, _, hP => ⟨o, st, _, rfl, rfl, hP⟩
  | s :: rest, o, st, best, bs, last, hP => by
    simp only [loop, h₁.eq o s hP, h₂.eq o s hP, Option.bind_eq_bind, Option.bind_some]
    cases m st (T s) with
    | mk a r1 =>
      cases r1 with
      | error e => exact ⟨_, _, _, rfl, rfl, h₁.keep s⟩
      | ok n =>
        dsimp only
        split
        · exact loop_congr h₁ h₂ m rest _ _ _ _ _ (h₁.keep s)
        · exact loop_congr h₁ h₂ m rest _ _ _ _ _ (h₁.keep s)

theorem search_congr [DecidableEq S] {P : Buf → Prop} {tr₁ tr₂ : Buf → S → Option Buf} {T : S → Buf} (h₁ : Runs P tr₁ T)
    (h₂ : Runs P tr₂ T) (m : σ → Buf → σ × Except E Nat) (env : Env) (order : List S) (dflt : S) (o : Buf) (st : σ) (hP : P o) :
    search env order dflt tr₁ m o st = search env order dflt tr₂ m o st := by
  obtain ⟨o', a, r, e1, e2, e3⟩ := loop_congr h₁ h₂ m order o st dflt env.usizeMax dflt hP
  simp only [search, e1, e2, Option.bind_eq_bind, Option.bind_some]
  rcases r with e | ⟨best, last⟩
  · rfl
  · dsimp only
    rw [h₁.eq _ _ e3, h₂.eq _ _ e3]

end Auto

/-- **C97** (BC1): on CPUs of one byte order `transform_bc1_auto` does the same: output, settings or error, and the state of the estimator. -/
theorem C97_bc1_auto (env : Env) (m m' : Machine) (hm : m'.endian = m.endian) (est : Estimator σ E) (useAll : Bool) (data out : Buf)
    (st : σ) : Bc1.transformAutoSafe env m' est useAll data out st = Bc1.transformAutoSafe env m est useAll data out st := by
  unfold Bc1.transformAutoSafe
  by_cases h8 : data.length % 8 = 0
  swap
  · rw [if_pos h8, if_pos h8]
  by_cases ho : out.length < data.length
  · rw [if_neg (by omega), if_pos ho, if_neg (by omega), if_pos ho]
  rw [if_neg (by omega), if_neg ho, if_neg (by omega), if_neg ho]
  have h : Bc1.transformAuto env m' est useAll data out data.length st = Bc1.transformAuto env m est useAll data out data.length st := by
    unfold Bc1.transformAuto
    have r1 := runs1 m (data := data) (out := out) h8 (by omega)
    have r2 := runs1 m' (data := data) (out := out) h8 (by omega)
    rw [hm] at r2
    congr 1
    funext k st'
    exact Auto.search_congr r2 r1 _ _ _ _ _ _ ⟨rfl, rfl⟩
  rw [h]

/-- **C97** (BC2). -/
theorem C97_bc2_auto (env : Env) (m m' : Machine) (hm : m'.endian = m.endian) (est : Estimator σ E) (useAll : Bool) (data out : Buf)
    (st : σ) : Bc2.transformAutoSafe env m' est useAll data out st = Bc2.transformAutoSafe env m est useAll data out st := by
  unfold Bc2.transformAutoSafe
  by_cases h8 : data.length % 16 = 0
  swap
  · rw [if_pos h8, if_pos h8]
  by_cases ho : out.length < data.length
  · rw [if_neg (by omega), if_pos ho, if_neg (by omega), if_pos ho]
  rw [if_neg (by omega), if_neg ho, if_neg (by omega), if_neg ho]
  have h : Bc2.transformAuto env m' est useAll data out data.length st = Bc2.transformAuto env m est useAll data out data.length st := by
    unfold Bc2.transformAuto
    have r1 := runs2 m (data := data) (out := out) h8 (by omega)
    have r2 := runs2 m' (data := data) (out := out) h8 (by omega)
    rw [hm] at r2
    congr 1
    funext k st'
    exact Auto.search_congr r2 r1 _ _ _ _ _ _ ⟨rfl, rfl⟩
  rw [h]

/-- **C97** (BC3). -/
theorem C97_bc3_auto (env : Env) (m m' : Machine) (hm : m'.endian = m.endian) (est : Estimator σ E) (useAll : Bool) (data out : Buf)
    (st : σ) : Bc3.transformAutoSafe env m' est useAll data out st = Bc3.transformAutoSafe env m est useAll data out st := by
  unfold Bc3.transformAutoSafe
  by_cases h8 : data.length % 16 = 0
  swap
  · rw [if_pos h8, if_pos h8]
  by_cases ho : out.length < data.length
  · rw [if_neg (by omega), if_pos ho, if_neg (by omega), if_pos ho]
  rw [if_neg (by omega), if_neg ho, if_neg (by omega), if_neg ho]
  have h : Bc3.transformAuto env m' est useAll data out data.length st = Bc3.transformAuto env m est useAll data out data.length st := by
    unfold Bc3.transformAuto
    have r1 := runs3 m (data := data) (out := out) h8 (by omega)
    have r2 := runs3 m' (data := data) (out := out) h8 (by omega)
    rw [hm] at r2
    congr 1
    funext k st'
    exact Auto.search_congr r2 r1 _ _ _ _ _ _ ⟨rfl, rfl⟩
  rw [h]

theorem bc1_safe_cpu (m m' : Machine) (hm : m'.endian = m.endian) (s : ColourSettings) (a out : Buf) :
    Bc1.transformSafe m' a out s = Bc1.transformSafe m a out s := by
  unfold Bc1.transformSafe
  by_cases h8 : a.length % 8 = 0
  swap
  · rw [if_pos h8, if_pos h8]
  by_cases ho : out.length < a.length
  · rw [if_neg (by omega), if_pos ho, if_neg (by omega), if_pos ho]
  rw [if_neg (by omega), if_neg ho, if_neg (by omega), if_neg ho]
  have e1 := (Bc1.transform_impl m s a out h8 (by omega)).2
  have e2 := (Bc1.transform_impl m' s a out h8 (by omega)).2
  rw [hm, ← e1] at e2
  simp only [] at e2
  rw [e2]

theorem bc2_safe_cpu (m m' : Machine) (hm : m'.endian = m.endian) (s : ColourSettings) (a out : Buf) :
    Bc2.transformSafe m' a out s = Bc2.transformSafe m a out s := by
  unfold Bc2.transformSafe
  by_cases h8 : a.length % 16 = 0
  swap
  · rw [if_pos h8, if_pos h8]
  by_cases ho : out.length < a.length
  · rw [if_neg (by omega), if_pos ho, if_neg (by omega), if_pos ho]
  rw [if_neg (by omega), if_neg ho, if_neg (by omega), if_neg ho]
  have e1 := (Bc2.transform_impl m s a out h8 (by omega)).2
  have e2 := (Bc2.transform_impl m' s a out h8 (by omega)).2
  rw [hm, ← e1] at e2
  simp only [] at e2
  rw [e2]

theorem dispatchTransform_cpu (env : Env) (m m' : Machine) (hm : m'.endian = m.endian) (dbg : E → String) (bundle : Bundle σ E)
    (f : TransformFormat) (a out : Buf) (st : σ) :
    bundle.dispatchTransform env m' dbg f a out st = bundle.dispatchTransform env m dbg f a out st := by
  unfold Bundle.dispatchTransform
  split
  · rfl
  cases f with
  | bc1 =>
    dsimp only
    cases bundle.bc1 with
    | none => rfl
    | some b =>
      cases b with
      | manual b =>
        simp only [Bc1Builder.transformSliceWithDetails, Bc1.ManualBuilder.transform, bc1_safe_cpu m m' hm]
      | auto b =>
        simp only [Bc1Builder.transformSliceWithDetails, Bc1.AutoBuilder.transform, C97_bc1_auto env m m' hm]
  | bc2 =>
    dsimp only
    cases bundle.bc2 with
    | none => rfl
    | some b =>
      cases b with
      | manual b =>
        simp only [Bc2Builder.transformSliceWithDetails, Bc2.ManualBuilder.transform, bc2_safe_cpu m m' hm]
      | auto b =>
        simp only [Bc2Builder.transformSliceWithDetails, Bc2.AutoBuilder.transform, C97_bc2_auto env m m' hm]
  | _ => rfl

theorem dispatchUntransform_cpu (m m' : Machine) (hm : m'.endian = m.endian) (h : TransformHeader) (a out : Buf) :
    dispatchUntransform m' h a out = dispatchUntransform m h a out := by
  unfold dispatchUntransform
  by_cases ho : out.length < a.length
  · rw [if_pos ho, if_pos ho]
  rw [if_neg ho, if_neg ho]
  cases h.format with
  | none => rfl
  | some f =>
    cases f with
    | bc1 =>
      dsimp only
      cases Embed.bc1.fromHeader h with
      | error e => rfl
      | ok s =>
        dsimp only
        by_cases h8 : a.length % 8 = 0
        swap
        · rw [if_pos h8, if_pos h8]
        rw [if_neg (by omega), if_neg (by omega)]
        have e1 := (Bc1.untransform_impl m s a out h8 (by omega)).2
        have e2 := (Bc1.untransform_impl m' s a out h8 (by omega)).2
        rw [hm, ← e1] at e2
        simp only [] at e2
        rw [e2]
    | bc2 =>
      dsimp only
      cases Embed.bc2.fromHeader h with
      | error e => rfl
      | ok s =>
        dsimp only
        by_cases h8 : a.length % 16 = 0
        swap
        · rw [if_pos h8, if_pos h8]
        rw [if_neg (by omega), if_neg (by omega)]
        have e1 := (Bc2.untransform_impl m s a out h8 (by omega)).2
        have e2 := (Bc2.untransform_impl m' s a out h8 (by omega)).2
        rw [hm, ← e1] at e2
        simp only [] at e2
        rw [e2]
    | _ => rfl

/-- The platform with another CPU. -/
def withCpu (p : Platform) (m : Machine) : Platform := { p with m := m }

theorem parse_cpu (p : Platform) (m : Machine) (b : Buf) : parseIgnoreMagic (withCpu p m) b = parseIgnoreMagic p b := by
  rw [parseIgnoreMagic_spec, parseIgnoreMagic_spec]
  rfl

theorem parseDds_cpu (p : Platform) (m : Machine) (b : Buf) : parseDds (withCpu p m) b = parseDds p b := by
  rw [parseDds_eq, parseDds_eq, parse_cpu]

/-- **C97.** With another CPU of the same byte order the DDS handler is the same in all that it does: which files it accepts, what it writes,
what it returns, when it panics. -/
theorem C97_handler (p : Platform) (m : Machine) (hm : m.endian = p.m.endian) (dbg : E → String) :
    (handler (withCpu p m) dbg : Handler σ E) = handler p dbg := by
  have hadd : ∀ a b, (withCpu p m).addUsize a b = p.addUsize a b := fun _ _ => rfl
  have t1 : ∀ (bundle : Bundle σ E) (input output : Buf) (st : σ),
      transformBundle (withCpu p m) dbg bundle input output st = transformBundle p dbg bundle input output st := by
    intro bundle input output st
    unfold transformBundle
    simp only [parseDds_cpu, hadd]
    simp only [show (withCpu p m).m = m from rfl, show (withCpu p m).env = p.env from rfl, dispatchTransform_cpu p.env p.m m hm, hm]
  have t2 : ∀ input output : Buf, untransform (withCpu p m) input output = untransform p input output := by
    intro input output
    unfold untransform
    simp only [parse_cpu, hadd]
    simp only [show (withCpu p m).m = m from rfl, dispatchUntransform_cpu p.m m hm, hm]
  have t3 : ∀ (input : Buf) ext, canHandle (withCpu p m) input ext = canHandle p input ext := by
    intro input ext
    unfold canHandle
    simp only [parseDds_cpu]
  have t4 : ∀ (input : Buf) ext, canHandleUntransform (withCpu p m) input ext = canHandleUntransform p input ext := by
    intro input ext
    unfold canHandleUntransform
    simp only [parse_cpu]
  unfold handler
  simp only [t1, t2, t3, t4]

/-- **C97.** A run of the commands `transform` and `untransform` has the same possible ends on another CPU of the same byte order: the same
files with the same contents and the same exit status. -/
theorem C97_commands (lib : DebugStats.Lib) (os : FileIo.Os) (sight : Cli.Sight) (p : Platform) (m : Machine) (hm : m.endian = p.m.endian)
    (dbg : Nat → String) (ls : Cli.Listing) (inputFirst : Bool) (input output : FileIo.Path) (cmd : Cli.Command)
    (w w' : FileIo.World Unit) (e : Cli.Exit) :
    Cli.Process lib os sight (withCpu p m) dbg ls inputFirst input output cmd w w' e ↔
      Cli.Process lib os sight p dbg ls inputFirst input output cmd w w' e := by
  have hh : ∀ isDir fuel i o, Cli.handle lib os (withCpu p m) dbg ls isDir fuel i o cmd =
      Cli.handle lib os p dbg ls isDir fuel i o cmd := by
    intro isDir fuel i o
    cases cmd <;> simp only [Cli.handle, Cli.handleTransform, Cli.handleUntransform, Cli.allHandlers, C97_handler p m hm]
  constructor
  · rintro (⟨w', e, h⟩ | ⟨w', i, o, fuel, h, hw⟩ | ⟨w', i, o, fuel, work, c, h, hw, hs, he⟩ | ⟨w', i, o, fuel, work, c, h, hw, hs, he⟩)
    · exact .argument w' e h
    · exact .failure w' i o fuel h (by rw [← hh]; exact hw)
    · exact .success w' i o fuel work c h (by rw [← hh]; exact hw) hs he
    · exact .panic w' i o fuel work c h (by rw [← hh]; exact hw) hs he
  · rintro (⟨w', e, h⟩ | ⟨w', i, o, fuel, h, hw⟩ | ⟨w', i, o, fuel, work, c, h, hw, hs, he⟩ | ⟨w', i, o, fuel, work, c, h, hw, hs, he⟩)
    · exact .argument w' e h
    · exact .failure w' i o fuel h (by rw [hh]; exact hw)
    · exact .success w' i o fuel work c h (by rw [hh]; exact hw) hs he
    · exact .panic w' i o fuel work c h (by rw [hh]; exact hw) hs he

/-! ## The previous contents of the output -/

/-- What is written is known from the settings, whatever was there before. -/
theorem bc1_written (m : Machine) (s : ColourSettings) {a out out' o o' : Buf} (h8 : a.length % 8 = 0) (h : out.length = a.length)
    (h' : out'.length = a.length) (e : Bc1.transformWithSettings m a out a.length s = some o)
    (e' : Bc1.transformWithSettings m a out' a.length s = some o') : o' = o := by
  have e1 := (Bc1.transform_impl m s a out h8 (by omega)).2
  have e2 := (Bc1.transform_impl m s a out' h8 (by omega)).2
  simp only [] at e1 e2
  rw [e, Option.some.injEq, List.drop_eq_nil_of_le (by omega)] at e1
  rw [e', Option.some.injEq, List.drop_eq_nil_of_le (by omega)] at e2
  rw [e1, e2]

theorem bc2_written (m : Machine) (s : ColourSettings) {a out out' o o' : Buf} (h8 : a.length % 16 = 0) (h : out.length = a.length)
    (h' : out'.length = a.length) (e : Bc2.transformWithSettings m a out a.length s = some o)
    (e' : Bc2.transformWithSettings m a out' a.length s = some o') : o' = o := by
  have e1 := (Bc2.transform_impl m s a out h8 (by omega)).2
  have e2 := (Bc2.transform_impl m s a out' h8 (by omega)).2
  simp only [] at e1 e2
  rw [e, Option.some.injEq, List.drop_eq_nil_of_le (by omega)] at e1
  rw [e', Option.some.injEq, List.drop_eq_nil_of_le (by omega)] at e2
  rw [e1, e2]

/-- The settings chosen, the errors and the state of the estimator do not depend on the output. -/
theorem dispatch_blind (env : Env) (m : Machine) (dbg : E → String) (bundle : Bundle σ E) (f : TransformFormat) (a out out' : Buf) (st : σ)
    (h : out.length = a.length) (h' : out'.length = a.length) :
    ∃ x y st' r, bundle.dispatchTransform env m dbg f a out st = some (x, st', r) ∧
      bundle.dispatchTransform env m dbg f a out' st = some (y, st', r) := by
  unfold Bundle.dispatchTransform
  rw [if_neg (by omega), if_neg (by omega)]
  cases f with
  | bc1 =>
    dsimp only
    cases bundle.bc1 with
    | none => exact ⟨_, _, _, _, rfl, rfl⟩
    | some b =>
      cases b with
      | manual b =>
        simp only [Bc1Builder.transformSliceWithDetails, Bc1.ManualBuilder.transform, Bc1.transformSafe]
        by_cases h8 : a.length % 8 = 0
        swap
        · rw [if_pos h8, if_pos h8]; exact ⟨_, _, _, _, rfl, rfl⟩
        rw [if_neg (by omega), if_neg (by omega), if_neg (by omega), if_neg (by omega)]
        have e1 := (Bc1.transform_impl m b.settings a out h8 (by omega)).2
        have e2 := (Bc1.transform_impl m b.settings a out' h8 (by omega)).2
        simp only [] at e1 e2
        rw [e1, e2]
        exact ⟨_, _, _, _, rfl, rfl⟩
      | auto b =>
        simp only [Bc1Builder.transformSliceWithDetails, Bc1.AutoBuilder.transform, Bc1.transformAutoSafe]
        by_cases h8 : a.length % 8 = 0
        swap
        · rw [if_pos h8, if_pos h8]; exact ⟨_, _, _, _, rfl, rfl⟩
        rw [if_neg (by omega), if_neg (by omega), if_neg (by omega), if_neg (by omega)]
        obtain ⟨x, y, st', r, e1, e2⟩ := C84_bc1 env m m rfl b.estimator b.useAll (a.length / 8) a a out out' st (by omega) (by omega)
          (by omega) (by omega) (fun _ _ => rfl)
        rw [e1, e2]
        cases r <;> exact ⟨_, _, _, _, rfl, rfl⟩
  | bc2 =>
    dsimp only
    cases bundle.bc2 with
    | none => exact ⟨_, _, _, _, rfl, rfl⟩
    | some b =>
      cases b with
      | manual b =>
        simp only [Bc2Builder.transformSliceWithDetails, Bc2.ManualBuilder.transform, Bc2.transformSafe]
        by_cases h8 : a.length % 16 = 0
        swap
        · rw [if_pos h8, if_pos h8]; exact ⟨_, _, _, _, rfl, rfl⟩
        rw [if_neg (by omega), if_neg (by omega), if_neg (by omega), if_neg (by omega)]
        have e1 := (Bc2.transform_impl m b.settings a out h8 (by omega)).2
        have e2 := (Bc2.transform_impl m b.settings a out' h8 (by omega)).2
        simp only [] at e1 e2
        rw [e1, e2]
        exact ⟨_, _, _, _, rfl, rfl⟩
      | auto b =>
        simp only [Bc2Builder.transformSliceWithDetails, Bc2.AutoBuilder.transform, Bc2.transformAutoSafe]
        by_cases h8 : a.length % 16 = 0
        swap
        · rw [if_pos h8, if_pos h8]; exact ⟨_, _, _, _, rfl, rfl⟩
        rw [if_neg (by omega), if_neg (by omega), if_neg (by omega), if_neg (by omega)]
        obtain ⟨x, y, st', r, e1, e2⟩ := C84_bc2 env m m rfl b.estimator b.useAll (a.length / 16) a a out out' st (by omega) (by omega)
          (by omega) (by omega) (fun _ _ => rfl)
        rw [e1, e2]
        cases r <;> exact ⟨_, _, _, _, rfl, rfl⟩
  | _ => exact ⟨_, _, _, _, rfl, rfl⟩

/-- And if it succeeds the bytes do not either. -/
theorem dispatch_written (env : Env) (m : Machine) (dbg : E → String) (bundle : Bundle σ E) (f : TransformFormat) (a out out' : Buf) (st : σ)
    (h : out.length = a.length) (h' : out'.length = a.length) :
    ∃ x y st' r, bundle.dispatchTransform env m dbg f a out st = some (x, st', r) ∧
      bundle.dispatchTransform env m dbg f a out' st = some (y, st', r) ∧ x.length = a.length ∧ y.length = a.length ∧
      ∀ w, r = .ok w → y = x := by
  obtain ⟨x, y, st', r, e1, e2⟩ := dispatch_blind env m dbg bundle f a out out' st h h'
  obtain ⟨_, _, _, f1, f2, _, f3⟩ := dispatchTransform_spec env m dbg bundle f a out st
  obtain ⟨_, _, _, g1, g2, _, g3⟩ := dispatchTransform_spec env m dbg bundle f a out' st
  rw [e1] at f1
  rw [e2] at g1
  cases f1
  cases g1
  refine ⟨x, y, st', r, e1, e2, by omega, by omega, fun w hw => ?_⟩
  obtain ⟨_, s, hs⟩ := f3 w hw
  obtain ⟨_, s', hs'⟩ := g3 w hw
  rcases hs with ⟨rfl, _, hw1, h8, t1⟩ | ⟨rfl, _, hw1, h8, t1⟩
  · rcases hs' with ⟨_, _, hw2, _, t2⟩ | ⟨hf, _⟩
    swap
    · cases hf
    have hss : s' = s := (C24_headers_distinct s' s).1 (hw2.symm.trans hw1)
    rw [hss] at t2
    exact bc1_written m s h8 h h' t1 t2
  · rcases hs' with ⟨hf, _⟩ | ⟨_, _, hw2, _, t2⟩
    · cases hf
    have hss : s' = s := (C24_headers_distinct s' s).2.1 (hw2.symm.trans hw1)
    rw [hss] at t2
    exact bc2_written m s h8 h h' t1 t2

theorem assemble_take {magic input tex rest rest' : Buf} {off n : Nat} (hm : magic.length = 4) (h4 : 4 ≤ off) (ho : off ≤ input.length)
    (h : n ≤ off + tex.length) : (assemble magic input tex rest off).take n = (assemble magic input tex rest' off).take n := by
  have hl := assemble_prefix_length (input := input) hm h4 ho
  have ht : (magic ++ slice input 4 (off - 4) ++ tex).length = off + tex.length := by rw [List.length_append, hl]
  have key : ∀ rest : Buf, (assemble magic input tex rest off).take n = (magic ++ slice input 4 (off - 4) ++ tex).take n :=
    fun rest => List.take_append_of_le_length (by omega)
  rw [key, key]

/-- **C97.** What `transform_bundle` returns and leaves in the estimator does not depend on what the output held, and if it succeeds the
transformed file does not either. -/
theorem C97_transform_buffer (p : Platform) (hu : 2 ^ 32 - 1 ≤ p.env.usizeMax) (dbg : E → String) (bundle : Bundle σ E)
    (input out out' o : Buf) (st st' : σ) (r : Except TransformError Unit) (hl : out'.length = out.length)
    (h : transformBundle p dbg bundle input out st = some (o, st', r)) :
    ∃ o', transformBundle p dbg bundle input out' st = some (o', st', r) ∧ (r = .ok () → o'.take input.length = o.take input.length) := by
  by_cases hs : out.length < input.length
  · unfold transformBundle at h ⊢
    rw [if_pos hs] at h
    rw [if_pos (by omega)]
    cases h
    exact ⟨out', by rw [hl], fun hr => by cases hr⟩
  cases hp : parseDds p input with
  | none => unfold transformBundle at h; rw [if_neg hs, hp] at h; simp at h
  | some i =>
    cases i with
    | none =>
      unfold transformBundle at h ⊢
      rw [if_neg hs, hp] at h
      rw [if_neg (by omega), hp]
      cases h
      exact ⟨out', rfl, fun hr => by cases hr⟩
    | some info =>
      have hle := parse_offset_le (parseDds_some hp).1
      rcases addUsize_cases p hu (off := info.dataOffset.toNat) (by omega) info.dataLength.isLt with ⟨ha, he⟩ | he | ⟨t, he, ht⟩
      · by_cases hin : input.length < info.dataOffset.toNat + info.dataLength.toNat
        · unfold transformBundle at h ⊢
          rw [if_neg hs, hp] at h
          rw [if_neg (by omega), hp]
          simp only [Option.bind_eq_bind, Option.bind_some, he] at h ⊢
          rw [if_pos hin] at h ⊢
          cases h
          exact ⟨out', rfl, fun hr => by cases hr⟩
        rw [transform_eq p dbg bundle input out st hp rfl rfl (by omega) (by omega) ha] at h
        rw [transform_eq p dbg bundle input out' st hp rfl rfl (by omega) (by omega) ha]
        generalize info.dataOffset.toNat = off at *
        generalize info.dataLength.toNat = len at *
        cases hf : toTransformFormat info.format false with
        | error e =>
          rw [hf] at h
          cases h
          exact ⟨_, rfl, fun hr => by cases hr⟩
        | ok f =>
          rw [hf] at h
          simp only [] at h ⊢
          have hsl : (slice input off len).length = len := slice_length_of_le (by omega)
          obtain ⟨x, y, s2, r2, e1, e2, lx, ly, hw⟩ := dispatch_written p.env p.m dbg bundle f (slice input off len) (slice out off len)
            (slice out' off len) st (by rw [hsl, slice_length_of_le (by omega)]) (by rw [hsl, slice_length_of_le (by omega)])
          rw [e1] at h
          rw [e2]
          cases r2 with
          | error e =>
            cases h
            exact ⟨_, rfl, fun hr => by cases hr⟩
          | ok w =>
            obtain rfl := hw w rfl
            simp only [] at h ⊢
            by_cases hx : off + len < input.length
            · rw [if_pos hx] at h ⊢
              by_cases hq : out.length = input.length
              · rw [if_pos hq] at h
                rw [if_pos (by omega)]
                cases h
                exact ⟨_, rfl, fun _ => rfl⟩
              · rw [if_neg hq] at h
                cases h
            · rw [if_neg hx] at h ⊢
              cases h
              exact ⟨_, rfl, fun _ => assemble_take (to32_length _ _) (by omega) (by omega) (by omega)⟩
      · unfold transformBundle at h
        rw [if_neg hs, hp] at h
        simp [he] at h
      · unfold transformBundle at h ⊢
        rw [if_neg hs, hp] at h
        rw [if_neg (by omega), hp]
        simp only [Option.bind_eq_bind, Option.bind_some, he] at h ⊢
        rw [if_neg (by omega), subslice_eq (by omega) (by omega), Option.bind_some,
          copyFromSlice_eq (by omega) (by omega) (by rw [slice_length_of_le (by omega)]), Option.bind_some] at h ⊢
        cases hf : toTransformFormat info.format false with
        | error e =>
          rw [hf] at h
          cases h
          exact ⟨_, rfl, fun hr => by cases hr⟩
        | ok f =>
          rw [hf] at h
          have hn : subslice input info.dataOffset.toNat t = none := by
            unfold subslice; rw [if_neg (by omega)]
          simp [hn] at h

/-- What a texture is restored to does not depend on the output. -/
theorem dispatchUntransform_written (m : Machine) (w : TransformHeader) (a out out' : Buf) (h : out.length = a.length)
    (h' : out'.length = a.length) :
    ∃ x y r, dispatchUntransform m w a out = some (x, r) ∧ dispatchUntransform m w a out' = some (y, r) ∧ x.length = a.length ∧
      y.length = a.length ∧ (r = .ok () → y = x) := by
  obtain ⟨_, h2⟩ := C36_dispatch_obeys_header m w a out
  obtain ⟨_, k2⟩ := C36_dispatch_obeys_header m w a out'
  obtain ⟨h3, h4, h5, h6⟩ := h2 (by omega)
  obtain ⟨k3, k4, k5, k6⟩ := k2 (by omega)
  by_cases ht : 2 ≤ w.word.toNat % 16
  · exact ⟨_, _, _, h3 ht, k3 ht, h, h', fun hr => by cases hr⟩
  by_cases hv : w.word.toNat / 16 % 4 = 0
  swap
  · exact ⟨_, _, _, h4 (by omega) hv, k4 (by omega) hv, h, h', fun hr => by cases hr⟩
  by_cases h0 : w.word.toNat % 16 = 0
  · obtain ⟨h7, h8⟩ := h5 h0 hv
    obtain ⟨k7, k8⟩ := k5 h0 hv
    by_cases ha : a.length % 8 = 0
    swap
    · exact ⟨_, _, _, h7 ha, k7 ha, h, h', fun hr => by cases hr⟩
    obtain ⟨x, h9, h10⟩ := h8 ha
    obtain ⟨y, k9, k10⟩ := k8 ha
    have e1 := Bc1.untransform_impl m (wordSettings w.word.toNat) a out ha (by omega)
    have e2 := Bc1.untransform_impl m (wordSettings w.word.toNat) a out' ha (by omega)
    simp only [] at e1 e2
    rw [h9, Option.some.injEq, List.drop_eq_nil_of_le (by omega), List.append_nil] at e1
    rw [k9, Option.some.injEq, List.drop_eq_nil_of_le (by omega), List.append_nil] at e2
    exact ⟨x, y, _, h10, k10, by rw [e1.2, e1.1], by rw [e2.2, e2.1], fun _ => by rw [e1.2, e2.2]⟩
  · have h1 : w.word.toNat % 16 = 1 := by omega
    obtain ⟨h7, h8⟩ := h6 h1 hv
    obtain ⟨k7, k8⟩ := k6 h1 hv
    by_cases ha : a.length % 16 = 0
    swap
    · exact ⟨_, _, _, h7 ha, k7 ha, h, h', fun hr => by cases hr⟩
    obtain ⟨x, h9, h10⟩ := h8 ha
    obtain ⟨y, k9, k10⟩ := k8 ha
    have e1 := Bc2.untransform_impl m (wordSettings w.word.toNat) a out ha (by omega)
    have e2 := Bc2.untransform_impl m (wordSettings w.word.toNat) a out' ha (by omega)
    simp only [] at e1 e2
    rw [h9, Option.some.injEq, List.drop_eq_nil_of_le (by omega), List.append_nil] at e1
    rw [k9, Option.some.injEq, List.drop_eq_nil_of_le (by omega), List.append_nil] at e2
    exact ⟨x, y, _, h10, k10, by rw [e1.2, e1.1], by rw [e2.2, e2.1], fun _ => by rw [e1.2, e2.2]⟩

/-- **C97.** The same for `untransform`. -/
theorem C97_untransform_buffer (p : Platform) (hu : 2 ^ 32 - 1 ≤ p.env.usizeMax) (input out out' o : Buf) (r : Except TransformError Unit)
    (hl : out'.length = out.length) (h : untransform p input out = some (o, r)) :
    ∃ o', untransform p input out' = some (o', r) ∧ (r = .ok () → o'.take input.length = o.take input.length) := by
  by_cases h4 : input.length < 4
  · unfold untransform at h ⊢
    rw [if_pos h4] at h ⊢
    cases h
    exact ⟨out', rfl, fun hr => by cases hr⟩
  by_cases hs : out.length < input.length
  · unfold untransform at h ⊢
    rw [if_neg h4, if_pos hs] at h
    rw [if_neg h4, if_pos (by omega)]
    cases h
    exact ⟨out', by rw [hl], fun hr => by cases hr⟩
  cases hp : parseIgnoreMagic p input with
  | none =>
    unfold untransform at h
    rw [if_neg h4, if_neg hs, read_eq _ _ _ (by omega), hp] at h
    simp at h
  | some i =>
    cases i with
    | none =>
      unfold untransform at h ⊢
      rw [if_neg h4, if_neg hs, read_eq _ _ _ (by omega), hp] at h
      rw [if_neg h4, if_neg (by omega), read_eq _ _ _ (by omega), hp]
      cases h
      exact ⟨out', rfl, fun hr => by cases hr⟩
    | some info =>
      have hle := parse_offset_le hp
      rcases addUsize_cases p hu (off := info.dataOffset.toNat) (by omega) info.dataLength.isLt with ⟨ha, he⟩ | he | ⟨t, he, ht⟩
      · by_cases hin : input.length < info.dataOffset.toNat + info.dataLength.toNat
        · unfold untransform at h ⊢
          rw [if_neg h4, if_neg hs, read_eq _ _ _ (by omega), hp] at h
          rw [if_neg h4, if_neg (by omega), read_eq _ _ _ (by omega), hp]
          simp only [Option.bind_eq_bind, Option.bind_some, he] at h ⊢
          rw [if_pos hin] at h ⊢
          cases h
          exact ⟨out', rfl, fun hr => by cases hr⟩
        rw [untransform_eq p input out hp rfl rfl (by omega) (by omega) ha] at h
        rw [untransform_eq p input out' hp rfl rfl (by omega) (by omega) ha]
        generalize info.dataOffset.toNat = off at *
        generalize info.dataLength.toNat = len at *
        have hsl : (slice input off len).length = len := slice_length_of_le (by omega)
        obtain ⟨x, y, r2, e1, e2, lx, ly, hw⟩ := dispatchUntransform_written p.m ⟨of32 .little (slice input 0 4)⟩ (slice input off len)
          (slice out off len) (slice out' off len) (by rw [hsl, slice_length_of_le (by omega)])
          (by rw [hsl, slice_length_of_le (by omega)])
        rw [e1] at h
        rw [e2]
        cases r2 with
        | error e =>
          cases h
          exact ⟨_, rfl, fun hr => by cases hr⟩
        | ok w =>
          obtain rfl := hw rfl
          simp only [] at h ⊢
          by_cases hx : off + len < input.length
          · rw [if_pos hx] at h ⊢
            by_cases hq : out.length = input.length
            · rw [if_pos hq] at h
              rw [if_pos (by omega)]
              cases h
              exact ⟨_, rfl, fun _ => rfl⟩
            · rw [if_neg hq] at h
              cases h
          · rw [if_neg hx] at h ⊢
            cases h
            exact ⟨_, rfl, fun _ => assemble_take (to32_length _ _) (by omega) (by omega) (by omega)⟩
      · unfold untransform at h
        rw [if_neg h4, if_neg hs, read_eq _ _ _ (by omega), hp] at h
        simp [he] at h
      · exfalso
        unfold untransform at h
        have hn : subslice input info.dataOffset.toNat t = none := by
          unfold subslice; rw [if_neg (by omega)]
        rw [if_neg h4, if_neg hs, read_eq _ _ _ (by omega), hp] at h
        simp only [Option.bind_eq_bind, Option.bind_some] at h
        rw [he, Option.bind_some, if_neg (by omega), copyFromSlice_eq (by omega) (by omega) (by rw [to32_length]),
          Option.bind_some, subslice_eq (by omega) (by omega), Option.bind_some,
          copyFromSlice_eq (by omega) (by simp [to32_length]; omega) (by rw [slice_length_of_le (by omega)]), Option.bind_some,
          Option.bind_some, hn] at h
        simp at h

/-- An estimator that counts its questions and calls the sum of the bytes the size. -/
def summing : Estimator Nat Unit := ⟨fun k _ => (k + 1, .ok 0), fun k b _ => (k + 1, .ok (b.map BitVec.toNat).sum)⟩

/-- The file of `DdsDamage`, restored. -/
def restoredFile : Buf := ((untransform somePlatform (damagedFile 3) (List.replicate 146 0)).map fun x => x.1).getD []

/-- A case: the automatic transform of a DDS file into two buffers. -/
example :
    (transformBundle somePlatform (fun _ => "") (Bundle.new.withBc1Auto (.newUltra summing)) restoredFile (List.replicate 146 0) 0).map
      (fun x => (x.1.drop 128, x.2.1, x.2.2.toOption)) =
    (transformBundle somePlatform (fun _ => "") (Bundle.new.withBc1Auto (.newUltra summing)) restoredFile (List.replicate 146 77) 0).map
      (fun x => (x.1.drop 128, x.2.1, x.2.2.toOption)) ∧
    ((transformBundle somePlatform (fun _ => "") (Bundle.new.withBc1Auto (.newUltra summing)) restoredFile (List.replicate 146 0) 0).map
      fun x => (x.2.1, x.2.2.toOption)) = some (9, some ()) := by
  refine ⟨by decide +kernel, by decide +kernel⟩

/-- CPUs of one byte order. -/
example : (Machine.x86 ⟨true, true, true, true, true, true, 0⟩).endian = (Machine.other .little 0).endian := rfl

end Dlt.Props
