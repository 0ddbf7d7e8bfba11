import Verif.Props.Commands
import Verif.Props.CliNested
/-!
# C113: a directory onto itself

The commands with the same directory for `--input` and `--output`.
-/

namespace Dlt.Props

open Dlt.FileFormats Dlt.FileIo Dlt.FileIo.Prog Dlt.Cli Dlt.Dds Dlt.DebugStats

variable {α β : Type}

/-! ## What holds at every moment of a program -/

/-- `P` holds from now on until the program has ended. -/
def Always (os : Os) (P : World Unit → Prop) : Prog Unit α → World Unit → Prop
  | .ret _, w => P w
  | .panic, w => P w
  | .op s k, w => P w ∧
    match exec os s w with
    | (v, none) => P v
    | (v, some b) => Always os P (k b) v

theorem always_op {os : Os} {P : World Unit → Prop} {s : Sys Unit β} {k : β → Prog Unit α} {w : World Unit} :
    Always os P (.op s k) w ↔ P w ∧
      match exec os s w with
      | (v, none) => P v
      | (v, some b) => Always os P (k b) v := by
  rw [Always]

theorem Always.now {os : Os} {P : World Unit → Prop} {x : Prog Unit α} {w : World Unit} (h : Always os P x w) : P w := by
  cases x with
  | ret a => exact h
  | panic => exact h
  | op s k => exact (always_op.1 h).1

theorem Always.reach {os : Os} {P : World Unit → Prop} {x y : Prog Unit α} {w v : World Unit} (h : Always os P x w)
    (hr : Reach os x w y v) : Always os P y v := by
  induction hr with
  | refl => exact h
  | @call β s k v _ ih =>
    have := (always_op.1 ih).2
    rcases he : exec os s v with ⟨u, _ | b⟩
    · rw [he] at this; exact this
    · rw [he] at this; exact this

theorem Always.bind {os : Os} {P : World Unit → Prop} {f : α → Prog Unit β} (hf : ∀ a v, P v → Always os P (f a) v) :
    ∀ (x : Prog Unit α) (w : World Unit), Always os P x w → Always os P (x.bind f) w
  | .ret a, w, h => hf a w h
  | .panic, _, h => h
  | .op s k, w, h => by
    refine always_op.2 ⟨(always_op.1 h).1, ?_⟩
    have h2 := (always_op.1 h).2
    rcases he : exec os s w with ⟨u, _ | b⟩
    · rw [he] at h2; exact h2
    · rw [he] at h2; exact Always.bind hf (k b) u h2

/-- Calls that leave the files alone. -/
theorem Always.op {os : Os} {P : World Unit → Prop} {s : Sys Unit β} {k : β → Prog Unit α} {w : World Unit} (hw : P w)
    (hP : ∀ v : World Unit, v.files = w.files → P v) (hs : (exec os s w).1.files = w.files)
    (hk : ∀ v b, v.files = w.files → exec os s w = (v, some b) → Always os P (k b) v) : Always os P (.op s k) w := by
  refine always_op.2 ⟨hw, ?_⟩
  rcases he : exec os s w with ⟨u, _ | b⟩
  · rw [he] at hs; exact hP u hs
  · rw [he] at hs; exact hk u b hs he

theorem Always.try' {os : Os} {P : World Unit → Prop} {s : Sys Unit (Except IoError β)} {k : β → Prog Unit (Except FileError α)}
    {w : World Unit} (hP : ∀ v : World Unit, v.files = w.files → P v) (hs : (exec os s w).1.files = w.files)
    (hk : ∀ v b, v.files = w.files → exec os s w = (v, some (.ok b)) → Always os P (k b) v) : Always os P (Prog.try' s k) w := by
  refine Always.op (hP w rfl) hP hs fun v b hv he => ?_
  cases b with
  | error e => exact hP v hv
  | ok b => exact hk v b hv he

theorem Always.createDirAll {os : Os} {P : World Unit → Prop} {k : Prog Unit (Except FileError α)} {w0 : World Unit}
    (hP : ∀ v : World Unit, v.files = w0.files → P v) (hk : ∀ v : World Unit, v.files = w0.files → Always os P k v) :
    ∀ (rest : List String) (base : Path) (w : World Unit), w.files = w0.files → Always os P (createDirAll base rest k) w
  | [], base, w, hw => by
    refine Always.try' (fun v hv => hP v (hv.trans hw)) ?_ fun v b hv _ => hk v (hv.trans hw)
    rw [exec_mkdir]; split <;> rfl
  | name :: rest, base, w, hw => by
    refine Always.try' (fun v hv => hP v (hv.trans hw)) ?_ fun v b hv _ => Always.createDirAll hP hk rest _ v (hv.trans hw)
    rw [exec_mkdir]; split <;> rfl

/-! ## One file -/

/-- The part of a file that the tool sees (all of it unless it does not fit into the address space, C91). -/
def seen (os : Os) (data : Buf) : Buf := data.take (data.length % (os.usizeMax + 1))

/-- The tool takes the file for one that it can convert. -/
def Takes (p : Platform) (dbg : Nat → String) (os : Os) (cmd : Command) (q : Path) (input : Buf) : Prop :=
  match cmd with
  | .transform _ => (handler (σ := Unit) p dbg).canHandle input (extractLowercaseExtension os q) () = some ((), true)
  | .untransform => (handler (σ := Unit) p dbg).canHandleUntransform input (extractLowercaseExtension os q) () = some ((), true)

/-- The file is as it was, or it was one that the tool takes and holds what is left when a file of that size is created in its place. -/
def KeptOrLost (p : Platform) (dbg : Nat → String) (os : Os) (cmd : Command) (q : Path) (before after : Option Buf) : Prop :=
  after = before ∨ ∃ data, before = some data ∧ Takes p dbg os cmd q (seen os data) ∧
    after = (os.create q (seen os data).length before).1

/-- Converting a file onto itself with one handler. -/
theorem always_convert {os : Os} {q : Path} {h : Handler Unit Nat} (detect : Buf → Unit → Option (Unit × Bool))
    (f : Handler Unit Nat → Buf → Buf → Unit → Option (Res Unit (Handler Unit Nat)))
    (hf : ∀ h input o st, f h input o st = none) (rej : Except FileError (Handler Unit Nat)) (w : World Unit)
    (P : World Unit → Prop) (hP : ∀ v : World Unit, v.files = w.files → P v)
    (hP' : ∀ v : World Unit, ∀ data, w.files q = some data → detect (seen os data) () = some ((), true) →
      v.files q = (os.create q (seen os data).length (w.files q)).1 → P v) :
    Always os P (withInput os q fun input => tryHandlers (fun _ => detect input) (fun h => intoFile q input.length (f h input)) rej [h]) w := by
  unfold withInput
  refine Always.try' hP rfl fun v1 _ hv1 _ => ?_
  refine Always.try' (fun v hv => hP v (hv.trans hv1)) (by simp only [exec]; split <;> rfl) fun v2 n hv2 he2 => ?_
  refine Always.try' (fun v hv => hP v (hv.trans (hv2.trans hv1))) (by simp only [exec]; (repeat' split) <;> rfl)
    fun v3 input hv3 he3 => ?_
  have hfiles : v3.files = w.files := hv3.trans (hv2.trans hv1)
  obtain ⟨data, hd, rfl⟩ : ∃ data, w.files q = some data ∧ input = seen os data := by
    rcases hd : w.files q with _ | data
    · simp [exec, congrFun hv1 q, hd] at he2
    · refine ⟨data, rfl, ?_⟩
      have hq1 : v1.files q = some data := by rw [hv1, hd]
      have hq2 : v2.files q = some data := by rw [hv2, hq1]
      simp only [exec, hq1, Prod.mk.injEq, Option.some.injEq] at he2
      have hn : n = data.length := by
        have := he2.2
        split at this
        · exact (Except.ok.inj this).symm
        · exact nomatch this
      subst hn
      simp only [exec, hq2] at he3
      split at he3
      · split at he3
        · simp only [Prod.mk.injEq, Option.some.injEq, Except.ok.injEq] at he3
          exact he3.2.symm
        · simp at he3
      · simp at he3
  unfold tryHandlers
  refine Always.op (hP v3 hfiles) (fun v hv => hP v (hv.trans hfiles)) (by simp only [exec]; split <;> rfl) fun v4 yes hv4 he4 => ?_
  have hfiles4 : v4.files = w.files := hv4.trans hfiles
  cases yes with
  | false => exact hP v4 hfiles4
  | true =>
    rw [if_pos rfl]
    have hdet : detect (seen os data) () = some ((), true) := by
      simp only [exec] at he4
      rcases hx : detect (seen os data) v3.st with _ | ⟨_, b⟩
      · rw [hx] at he4; simp at he4
      · rw [hx] at he4
        simp only [Prod.mk.injEq, Option.some.injEq] at he4
        rw [he4.2]
    unfold intoFile Prog.try'
    refine always_op.2 ⟨hP v4 hfiles4, ?_⟩
    by_cases hdir : (v4.dirs q.dropLast && !v4.dirs q) = true
    · have hcr : exec os (.create q (seen os data).length) v4 = (v4.setFile q (os.create q (seen os data).length (v4.files q)).1,
          some (if (os.create q (seen os data).length (v4.files q)).2 then .ok () else .error .fileHandle)) := by
        simp only [exec, hdir, if_true]
      rw [hcr]
      have hlost : ∀ v : World Unit, v.files = (v4.setFile q (os.create q (seen os data).length (v4.files q)).1).files → P v := by
        intro v hv
        refine hP' v data hd hdet ?_
        rw [hv]
        simp [World.setFile, hfiles4]
      dsimp only
      split
      · next e _ => exact hlost _ rfl
      · refine Always.op (hlost _ rfl) hlost (by simp only [exec]; (repeat' split) <;> rfl) fun v5 b hv5 _ => ?_
        cases b with
        | error e => exact hlost v5 hv5
        | ok o =>
          refine Always.op (hlost v5 hv5) (fun v hv => hlost v (hv.trans hv5)) (by simp only [exec, hf]; rfl) fun v6 b _ he => ?_
          simp [exec, hf] at he
    · have hcr : exec os (.create q (seen os data).length) v4 = (v4, some (.error .fileHandle)) := by
        simp only [exec, if_neg hdir]
      rw [hcr]
      exact hP _ hfiles4

/-- The conversion of a file onto itself. -/
abbrev onto (os : Os) (q : Path) (h : Handler Unit Nat) (detect : Buf → Unit → Option (Unit × Bool))
    (f : Handler Unit Nat → Buf → Buf → Unit → Option (Res Unit (Handler Unit Nat))) (e : FileError) :
    Prog Unit (Except FileError (Handler Unit Nat)) :=
  withInput os q fun input => tryHandlers (fun _ => detect input) (fun h => intoFile q input.length (f h input)) (.error e) [h]

/-- It comes to an end as a panic only after the file has been created anew. -/
theorem run_onto_none {os : Os} (hwf : os.Wf) {q : Path} {h : Handler Unit Nat} {detect : Buf → Unit → Option (Unit × Bool)}
    {f : Handler Unit Nat → Buf → Buf → Unit → Option (Res Unit (Handler Unit Nat))} (hf : ∀ h input o st, f h input o st = none)
    (e : FileError) (w : World Unit) (hdet : ∀ b, detect b () ≠ none) (hr : (run os (onto os q h detect f e) w).2 = none) :
    ∃ data fresh, w.files q = some data ∧ detect (seen os data) () = some ((), true) ∧
      os.create q (seen os data).length (some data) = (some fresh, true) ∧
      (run os (onto os q h detect f e) w).1.files q = some fresh := by
  rcases withInput_cases os q (fun input => tryHandlers (fun _ => detect input) (fun h => intoFile q input.length (f h input)) (.error e) [h]) w with
    ⟨e', h'⟩ | ⟨data, n, hd, rfl, h'⟩
  · rw [h'] at hr; exact nomatch hr
  · change run os (onto os q h detect f e) w = run os (tryHandlers (fun _ => detect (seen os data)) (fun h => intoFile q (seen os data).length (f h (seen os data))) (.error e) [h]) w at h'
    rw [h'] at hr ⊢
    rw [tryHandlers, run_op] at hr ⊢
    rcases hx : detect (seen os data) () with _ | ⟨_, yes⟩
    · exact absurd hx (hdet _)
    have he : exec os (.call fun st => detect (seen os data) st) w = ({ w with st := () }, some yes) := by
      simp only [exec]
      rw [show w.st = () from rfl, hx]
    rw [he] at hr ⊢
    dsimp only at hr ⊢
    cases yes with
    | false => exact nomatch hr
    | true =>
      rw [if_pos rfl] at hr ⊢
      by_cases hdir : (w.dirs q.dropLast && !w.dirs q) = true
      · rcases hc : os.create q (seen os data).length (w.files q) with ⟨c, ok⟩
        cases ok with
        | false => simp [intoFile, Prog.try', run, exec, hdir, hc] at hr
        | true =>
          have := hwf q (seen os data).length (w.files q) (by rw [hc])
          rw [hc] at this
          obtain ⟨fresh, rfl, hl⟩ := this
          by_cases hm : os.canMapWrite q (seen os data).length = true
          · rw [Bool.and_eq_true, Bool.not_eq_true'] at hdir
            have := (run_intoFile (w := { w with st := () }) (os := os) ⟨hdir.1, hdir.2, hc, hl, hm⟩ (f h (seen os data))).1 (hf _ _ _ _)
            rw [this]
            exact ⟨data, fresh, hd, hx, hd ▸ hc, by simp [World.setFile]⟩
          · simp [intoFile, Prog.try', run, exec, hdir, hc, hm, World.setFile] at hr
      · simp [intoFile, Prog.try', run, exec, hdir] at hr

/-- If the system refuses nothing it does come to this end for a file that the tool takes. -/
theorem run_onto_taken {os : Os} {q : Path} {h : Handler Unit Nat} {detect : Buf → Unit → Option (Unit × Bool)}
    {f : Handler Unit Nat → Buf → Buf → Unit → Option (Res Unit (Handler Unit Nat))} (hf : ∀ h input o st, f h input o st = none)
    (e : FileError) {w : World Unit} {data fresh : Buf} (hd : Readable os w q data) (hc : Creatable os w q data.length fresh)
    (hdet : detect data () = some ((), true)) : (run os (onto os q h detect f e) w).2 = none := by
  rw [onto, run_withInput hd, tryHandlers, run_op]
  have he : exec os (.call fun st => detect data st) w = ({ w with st := () }, some true) := by
    simp only [exec]
    rw [show w.st = () from rfl, hdet]
  rw [he]
  dsimp only
  rw [if_pos rfl, (run_intoFile (w := { w with st := () }) (os := os) ⟨hc.parent, hc.notDir, hc.create, hc.length, hc.canMap⟩ (f h data)).1 (hf _ _ _ _)]

theorem transform_onto (os : Os) (p : Platform) (dbg : Nat → String) (q : Path) (bundle : Bundle Unit Nat) :
    transformFileWithMultipleHandlers os (allHandlers p dbg) q q bundle =
      onto os q (handler p dbg) (fun input => (handler (E := Nat) p dbg).canHandle input (extractLowercaseExtension os q)) (fun _ _ _ _ => none)
        (.transform .noSupportedHandler) := by
  unfold transformFileWithMultipleHandlers onto allHandlers
  congr 1
  funext input
  rw [tryHandlers, tryHandlers, tryHandlers, tryHandlers]
  simp only [if_true]

theorem untransform_onto (os : Os) (p : Platform) (dbg : Nat → String) (q : Path) :
    untransformFileWithMultipleHandlers os (allHandlers p dbg) q q =
      onto os q (handler p dbg) (fun input => (handler (E := Nat) p dbg).canHandleUntransform input (extractLowercaseExtension os q)) (fun _ _ _ _ => none)
        (.transform .noSupportedHandler) := by
  unfold untransformFileWithMultipleHandlers onto allHandlers
  congr 1
  funext input
  rw [tryHandlers, tryHandlers, tryHandlers, tryHandlers]
  simp only [if_true]

/-! ## The work on one entry -/

section
variable {os : Os} {convert : Path → Path → Prog Unit (Except FileError (Handler Unit Nat))} {d rel : Path} {w0 : World Unit}

theorem always_job {P : World Unit → Prop} (hrel : rel ≠ []) (hP : ∀ v : World Unit, v.files = w0.files → P v)
    (hadd : ∀ (v u : World Unit), v.files = u.files → P u → P v)
    (hconv : ∀ v : World Unit, v.files = w0.files → Always os P (convert (d ++ rel) (d ++ rel)) v) :
    Always os P (job (processFile convert d d (d ++ rel))) w0 := by
  unfold job
  refine Always.bind (fun r v hv => ?_) _ _ ?_
  · cases r with
    | error e => exact hv
    | ok n => exact Always.op hv (fun u hu => hadd u v hu hv) rfl fun u _ hu _ => hadd u v hu hv
  · unfold processFile
    rw [stripPrefix_append]
    dsimp only
    rw [if_neg (by simp [hrel])]
    refine Always.createDirAll hP (fun v hv => ?_) _ _ _ rfl
    refine Always.op (hP v hv) (fun u hu => hP u (hu.trans hv)) rfl fun u _ hu _ => ?_
    exact Always.bind (fun r v hv => hv) _ _ (hconv u (hu.trans hv))

theorem run_work (v : World Unit) : run os (.op (.fileLen (d ++ rel)) fun len => (convert (d ++ rel) (d ++ rel)).bind fun r => .ret (r.map fun _ => len.getD 0)) v =
    ((run os (convert (d ++ rel) (d ++ rel)) v).1,
      (run os (convert (d ++ rel) (d ++ rel)) v).2.map fun r => r.map fun _ => ((v.files (d ++ rel)).map List.length).getD 0) := by
  rw [run_op]
  simp only [exec]
  rw [run_bind]
  rcases run os (convert (d ++ rel) (d ++ rel)) v with ⟨u, _ | r⟩ <;> rfl

/-- If the work on an entry panics then the conversion does, after directories have been made. -/
theorem run_entry_none (hrel : rel ≠ []) (h : (run os (job (processFile convert d d (d ++ rel))) w0).2 = none) :
    ∃ v, v.files = w0.files ∧ (run os (convert (d ++ rel) (d ++ rel)) v).2 = none ∧
      (run os (job (processFile convert d d (d ++ rel))) w0).1.files = (run os (convert (d ++ rel) (d ++ rel)) v).1.files := by
  rw [run_job] at h ⊢
  unfold processFile at h ⊢
  rw [stripPrefix_append] at h ⊢
  dsimp only at h ⊢
  rw [if_neg (by simp [hrel])] at h ⊢
  rcases (createDirAll_cases os (.op (.fileLen (d ++ rel)) fun len => (convert (d ++ rel) (d ++ rel)).bind fun r => .ret (r.map fun _ => len.getD 0))
    (d ++ rel).dropLast [] w0).2 with ⟨w', e, h'⟩ | ⟨w', h', hw'⟩
  · rw [h'] at h; exact nomatch h
  · rw [h', run_work] at h ⊢
    exact ⟨w', hw', by simpa using h, rfl⟩

/-- With the directories there already the work on an entry is the conversion. -/
theorem run_entry_there (hrel : rel ≠ []) (hdirs : ∀ q, q <+: (d ++ rel).dropLast → w0.dirs q = true)
    (h : (run os (convert (d ++ rel) (d ++ rel)) w0).2 = none) :
    (run os (job (processFile convert d d (d ++ rel))) w0).2 = none := by
  rw [run_job]
  unfold processFile
  rw [stripPrefix_append]
  dsimp only
  rw [if_neg (by simp [hrel]), run_createDirAll_there os _ w0 _ [] fun q _ hq => hdirs q hq, run_work, h]
  rfl

end

/-! ## The commands -/

section
variable {lib : Lib} {os : Os} {sight : Sight} {p : Dds.Platform} {dbg : Nat → String} {ls : Listing} {inputFirst : Bool}
  {d : Path} {cmd : Command} {w w2 : World Unit} {e : Exit}

theorem target_self {entries : List Path} (hl : Listed ls w d entries) (i : Fin entries.length) : targetOf d d entries[i] = entries[i] := by
  obtain ⟨rel, _, h2, h3, _⟩ := hl.rel d i
  rw [h3, h2]

theorem entry_free {entries : List Path} (hl : Listed ls w d entries) (i j : Fin entries.length) (hij : j ≠ i) :
    targetOf d d entries[j] ≠ entries[i] := by
  rw [target_self hl]
  obtain ⟨fuel, hfd⟩ := hl.found
  have hnd := (C39_find_all_files ls hl.names w.dirs fuel d entries hfd).1
  intro h
  exact hij (Fin.ext ((List.Nodup.getElem_inj_iff hnd).1 h))

/-- The work of a command on an entry. -/
theorem work_always {work : Work} {fuel : Nat} (hh : handle lib os p dbg ls w.dirs fuel d d cmd = some (.ok work)) {rel : Path} (hrel : rel ≠ [])
    (i : Fin work.entries.length) (hi : work.entries[i] = d ++ rel) :
    Always os (fun v => KeptOrLost p dbg os cmd (d ++ rel) (w.files (d ++ rel)) (v.files (d ++ rel))) (work.job work.entries[i]) w := by
  obtain ⟨work', h1, _, h3, h4⟩ := handle_spec hh
  cases h1
  cases cmd with
  | transform preset =>
    obtain ⟨b, _, h⟩ := h3 preset rfl
    have h : work.job work.entries[i] = _ := congrFun h i
    rw [h]
    unfold transformJobs processFileTransform
    rw [hi]
    refine always_job hrel (fun v hv => .inl (by rw [hv])) (fun v u hv hu => by rw [hv]; exact hu) fun v hv => ?_
    rw [transform_onto]
    refine always_convert (h := handler p dbg) (fun input => (handler (E := Nat) p dbg).canHandle input (extractLowercaseExtension os (d ++ rel)))
      (fun _ _ _ _ => none) (fun _ _ _ _ => rfl) (.error (.transform .noSupportedHandler)) v
      (fun v => KeptOrLost p dbg os _ (d ++ rel) (w.files (d ++ rel)) (v.files (d ++ rel))) (fun u hu => .inl (by rw [hu, hv])) fun u data hd ht hu => ?_
    rw [hv] at hd hu
    exact .inr ⟨data, hd, ht, hu⟩
  | untransform =>
    have h : work.job work.entries[i] = _ := congrFun (h4 rfl) i
    rw [h]
    unfold untransformJobs processFileUntransform
    rw [hi]
    refine always_job hrel (fun v hv => .inl (by rw [hv])) (fun v u hv hu => by rw [hv]; exact hu) fun v hv => ?_
    rw [untransform_onto]
    refine always_convert (h := handler p dbg) (fun input => (handler (E := Nat) p dbg).canHandleUntransform input (extractLowercaseExtension os (d ++ rel)))
      (fun _ _ _ _ => none) (fun _ _ _ _ => rfl) (.error (.transform .noSupportedHandler)) v
      (fun v => KeptOrLost p dbg os _ (d ++ rel) (w.files (d ++ rel)) (v.files (d ++ rel))) (fun u hu => .inl (by rw [hu, hv])) fun u data hd ht hu => ?_
    rw [hv] at hd hu
    exact .inr ⟨data, hd, ht, hu⟩

/-- The same for the end of the work. -/
theorem work_none {work : Work} {fuel : Nat} (hwf : os.Wf) (hwide : Wide p) (hoc : p.overflowChecks = false)
    (hh : handle lib os p dbg ls w.dirs fuel d d cmd = some (.ok work)) {rel : Path} (hrel : rel ≠ [])
    (i : Fin work.entries.length) (hi : work.entries[i] = d ++ rel) :
    ((run os (work.job work.entries[i]) w).2 = none → ∃ data fresh, w.files (d ++ rel) = some data ∧ Takes p dbg os cmd (d ++ rel) (seen os data) ∧
      os.create (d ++ rel) (seen os data).length (some data) = (some fresh, true) ∧ (run os (work.job work.entries[i]) w).1.files (d ++ rel) = some fresh) ∧
    (∀ data fresh, Readable os w (d ++ rel) data → Creatable os w (d ++ rel) data.length fresh →
      (∀ q, q <+: (d ++ rel).dropLast → w.dirs q = true) → Takes p dbg os cmd (d ++ rel) data →
      (run os (work.job work.entries[i]) w).2 = none) := by
  obtain ⟨work', h1, _, h3, h4⟩ := handle_spec hh
  cases h1
  cases cmd with
  | transform preset =>
    obtain ⟨b, _, h⟩ := h3 preset rfl
    have h : work.job work.entries[i] = _ := congrFun h i
    rw [h]
    unfold transformJobs processFileTransform
    rw [hi]
    constructor
    · intro hn
      obtain ⟨v, hv, hn, hfiles⟩ := run_entry_none hrel hn
      rw [hfiles, ← hv]
      rw [transform_onto] at hn ⊢
      refine run_onto_none hwf (fun _ _ _ _ => rfl) _ v (fun b hb => ?_) hn
      obtain ⟨yes, hy⟩ := (C59_dds_total (E := Nat) p hwide hoc dbg Bundle.new b b () rfl).2.2.1 (extractLowercaseExtension os (d ++ rel))
      change (canHandle p b _).map _ = none at hb
      rw [hy] at hb
      exact nomatch hb
    · intro data fresh hd hc hdirs ht
      refine run_entry_there hrel hdirs ?_
      rw [transform_onto]
      exact run_onto_taken (fun _ _ _ _ => rfl) _ hd hc ht
  | untransform =>
    have h : work.job work.entries[i] = _ := congrFun (h4 rfl) i
    rw [h]
    unfold untransformJobs processFileUntransform
    rw [hi]
    constructor
    · intro hn
      obtain ⟨v, hv, hn, hfiles⟩ := run_entry_none hrel hn
      rw [hfiles, ← hv]
      rw [untransform_onto] at hn ⊢
      refine run_onto_none hwf (fun _ _ _ _ => rfl) _ v (fun b hb => ?_) hn
      obtain ⟨yes, hy⟩ := (C59_dds_total (E := Nat) p hwide hoc dbg Bundle.new b b () rfl).2.2.2 (extractLowercaseExtension os (d ++ rel))
      change (canHandleUntransform p b _).map _ = none at hb
      rw [hy] at hb
      exact nomatch hb
    · intro data fresh hd hc hdirs ht
      refine run_entry_there hrel hdirs ?_
      rw [untransform_onto]
      exact run_onto_taken (fun _ _ _ _ => rfl) _ hd hc ht

/-- At every moment of the work on a directory onto itself. -/
theorem steps_kept {work : Work} {fuel : Nat} (hls : ∀ d, (ls d).Nodup) (hh : handle lib os p dbg ls w.dirs fuel d d cmd = some (.ok work))
    {c : Config (Fin work.entries.length) Unit (Except FileError Nat)} (hs : Steps os ⟨w, fun i => work.job work.entries[i]⟩ c) (q : Path) :
    KeptOrLost p dbg os cmd q (w.files q) (c.world.files q) := by
  obtain ⟨hf, hb⟩ := handle_isBatch hh
  have hl : Listed ls w d work.entries := ⟨⟨fuel, hf⟩, hls⟩
  by_cases hq : ∃ i : Fin work.entries.length, q = work.entries[i]
  · obtain ⟨i, rfl⟩ := hq
    obtain ⟨rel, hrel, hi, ht, _⟩ := hl.rel d i
    obtain ⟨r, s, h⟩ := LocalInv.steps (hl.self d i) (fun j hij => hl.apart hij (entry_free hl i j (Ne.symm hij))) (hl.foot hb) hs
    have h1 := ((work_always hh hrel i hi).reach h.reach).now
    have h2 : c.world.files (areas d d work.entries i).out = s.files (areas d d work.entries i).out := h.alike.out
    rw [areas_eq hi] at h2
    change c.world.files (d ++ rel) = s.files (d ++ rel) at h2
    rw [hi, h2]
    exact h1
  · refine .inl ((C39_any_directory hl hb hs).1 q fun i h => hq ⟨i, ?_⟩)
    rw [h, target_self hl]

/-- **C113** (files): `transform` or `untransform` with the same directory for input and output, however it ends and whatever
the system answers: no file holds anything else than before, except files that the tool takes for ones that it can convert; these may hold
what is left when a file of their size is created in their place.  No file is ever converted. -/
theorem C113_files (hls : ∀ d, (ls d).Nodup) (h : Process lib os sight p dbg ls inputFirst d d cmd w w2 e) (q : Path) :
    KeptOrLost p dbg os cmd q (w.files q) (w2.files q) := by
  have key : ∀ {w' : World Unit} {i o : Path} {fuel : Nat} {work : Work} {c : Config (Fin work.entries.length) Unit (Except FileError Nat)},
      parsePaths os sight inputFirst d d w = (w', .ok (i, o)) → handle lib os p dbg ls w'.dirs fuel i o cmd = some (.ok work) →
      Steps os ⟨{ w' with counter := 0 }, fun i => work.job work.entries[i]⟩ c → KeptOrLost p dbg os cmd q (w.files q) (c.world.files q) := by
    intro w' i o fuel work c h hh hs
    obtain ⟨p1, _, _, p4⟩ := parsePaths_spec h
    obtain ⟨rfl, rfl, _⟩ := p4 i o rfl
    have := steps_kept (w := { w' with counter := 0 }) hls hh hs q
    rw [← p1]
    exact this
  cases h with
  | argument _ _ h => rw [(parsePaths_spec h).1]; exact .inl rfl
  | failure _ _ _ _ h => rw [(parsePaths_spec h).1]; exact .inl rfl
  | success w' i o fuel work c h hh hs => exact key h hh hs
  | panic w' i o fuel work c h hh hs => exact key h hh hs

/-- **C113** (loss): if the threads get into undefined behaviour (a panic of the model), in the tool for 64-bit addresses and without overflow checks, then
a file that the tool takes has been lost. -/
theorem C113_lost (hwf : os.Wf) (hwide : Wide p) (hoc : p.overflowChecks = false) (hls : ∀ d, (ls d).Nodup)
    (h : Process lib os sight p dbg ls inputFirst d d cmd w w2 .panic) :
    ∃ q data fresh, w.files q = some data ∧ Takes p dbg os cmd q (seen os data) ∧
      os.create q (seen os data).length (some data) = (some fresh, true) ∧ w2.files q = some fresh := by
  cases h with
  | panic w' i o fuel work c h hh hs he =>
    obtain ⟨p1, _, _, p4⟩ := parsePaths_spec h
    obtain ⟨ei, eo, _⟩ := p4 i o rfl
    rw [ei, eo] at hh
    obtain ⟨hf, hb⟩ := handle_isBatch hh
    obtain ⟨k, hk⟩ := he
    have hl : Listed ls { w' with counter := 0 } d work.entries := ⟨⟨fuel, hf⟩, hls⟩
    obtain ⟨rel, hrel, hi, ht, _⟩ := hl.rel d k
    obtain ⟨h1, h2⟩ := C39_one_file_partial hl hb hs k (fun j hj => entry_free hl k j hj) (by rw [hk]; rfl)
    rw [hk] at h1
    obtain ⟨data, fresh, d1, d2, d3, d4⟩ := (work_none (w := { w' with counter := 0 }) hwf hwide hoc hh hrel k hi).1 (Option.some.inj h1).symm
    rw [ht] at h2
    exact ⟨d ++ rel, data, fresh, by rw [← p1]; exact d1, d2, d3, h2.trans d4⟩

/-- **C113** (no way out): if the system lists what is there and refuses nothing, and the directory holds a file that the tool takes, then
the process does not come to a regular end, unless it rejects an argument. -/
theorem C113_no_success (hwf : os.Wf) (hwide : Wide p) (hoc : p.overflowChecks = false) (ht : IsTree w) (hin : w.dirs d = true)
    (hls : Shows ls (parsePaths os sight inputFirst d d w).1) {rel : Path} {data : Buf} (hd : w.files (d ++ rel) = some data)
    (hos : Willing os data.length) (htake : Takes p dbg os cmd (d ++ rel) data) :
    ¬ Process lib os sight p dbg ls inputFirst d d cmd w w2 .success := by
  intro h
  cases h with
  | success w' i o fuel work c h hh hs he =>
    rw [h] at hls
    obtain ⟨p1, p2, p3, p4⟩ := parsePaths_spec h
    obtain ⟨ei, eo, _⟩ := p4 i o rfl
    rw [ei, eo] at hh
    obtain ⟨hf, hb⟩ := handle_isBatch hh
    have hdirs : ∀ q, w'.dirs q = true ↔ w.dirs q = true := by
      intro q
      refine ⟨fun hq => ?_, p2 q⟩
      rcases p3 q hq with h | ⟨t, rfl⟩ | ⟨t, rfl⟩
      · exact h
      · exact ht.dirs_up q t hin
      · exact ht.dirs_up q t hin
    have hl : Listed ls { w' with counter := 0 } d work.entries := ⟨⟨fuel, hf⟩, hls.names⟩
    have hrel : rel ≠ [] := by
      rintro rfl
      rw [List.append_nil, ht.notBoth d hin] at hd
      exact nomatch hd
    have hnd : w'.dirs (d ++ rel) = false := by
      rw [Bool.eq_false_iff]
      intro h
      rw [ht.notBoth _ ((hdirs _).1 h)] at hd
      exact nomatch hd
    have hway : ∀ r, r <+: rel → r ≠ rel → w'.dirs (d ++ r) = true := by
      intro r hr hne
      obtain ⟨t, rfl⟩ := hr
      exact p2 _ (ht.above t (d ++ r) (by rw [List.append_assoc, hd]; rfl) (by rintro rfl; simp at hne))
    have hmem : d ++ rel ∈ work.entries := by
      refine ((C39_find_all_files ls hls.names w'.dirs fuel d work.entries hf).2 (d ++ rel)).2
        ⟨rel, hrel, rfl, hnd, fun r name hr => ?_, fun r _ hr hne => hway r hr hne⟩
      have hdir : w'.dirs (d ++ r) = true := hway r ((List.prefix_append _ _).trans hr) (by
        rintro rfl
        have := hr.length_le
        simp at this)
      rw [hls.all _ hdir, isThere_iff, p1, List.append_assoc]
      by_cases he : r ++ [name] = rel
      · exact .inl (by rw [he, hd]; rfl)
      · exact .inr (hway _ hr he)
    obtain ⟨k, hk, hk'⟩ := List.getElem_of_mem hmem
    have hi : work.entries[(⟨k, hk⟩ : Fin work.entries.length)] = d ++ rel := hk'
    obtain ⟨v, hv⟩ := he ⟨k, hk⟩
    obtain ⟨h1, _⟩ := C39_one_file_partial hl hb hs ⟨k, hk⟩ (fun j hj => entry_free hl _ j hj) (by rw [hv]; rfl)
    have hup : ∀ q, q <+: (d ++ rel).dropLast → w'.dirs q = true := by
      rintro q ⟨t, ht'⟩
      refine p2 q (ht.above (t ++ [(d ++ rel).getLast (by simp [hrel])]) q ?_ (by simp))
      rw [← List.append_assoc, ht', List.dropLast_concat_getLast, hd]
      rfl
    obtain ⟨fresh, hfr, hlen⟩ := hos.create (d ++ rel) (w'.files (d ++ rel))
    have hnone := (work_none (w := { w' with counter := 0 }) hwf hwide hoc hh hrel ⟨k, hk⟩ hi).2 data fresh
      ⟨by rw [← hd]; exact congrFun p1 _, hos.canOpen _, hos.canSize _, hos.canMap _, hos.fits⟩
      ⟨hup _ (List.prefix_refl _), hnd, hfr, hlen, hos.canMapWrite _⟩ hup htake
    rw [hv] at h1
    rw [hnone] at h1
    exact nomatch h1

end

/-- Non-vacuity: `transform --input a --output a` on two textures.  The hypotheses of the theorems hold, the process goes wrong, and one of the two files
has been lost. -/
example : ∃ ls w2, Shows ls (parsePaths kindOs clearSight true ["a"] ["a"] presetWorld).1 ∧ IsTree presetWorld ∧ Willing kindOs bc1File.length ∧
    Takes somePlatform (fun _ => "") kindOs (.transform .max) ["a", "x"] bc1File ∧
    Process sumLib kindOs clearSight somePlatform (fun _ => "") ls true ["a"] ["a"] (.transform .max) presetWorld w2 .panic ∧
    ∃ q ∈ [["a", "x"], ["a", "y"]], w2.files q ≠ presetWorld.files q ∧ ∃ n, w2.files q = some (List.replicate n 0) := by
  have hwf : kindOs.Wf := fun p n old _ => ⟨_, rfl, by simp⟩
  obtain ⟨ht, hfin⟩ := presetWorld_tree
  obtain ⟨w', hp⟩ := parsePaths_ok (os := kindOs) (sight := clearSight) (w := presetWorld) (input := ["a"]) (output := ["a"]) (fun _ => rfl)
    (fun q hq => by
      rw [← List.mem_inits] at hq
      simp at hq
      rcases hq with rfl | rfl <;> decide) true
  obtain ⟨p1, p2, p3, _⟩ := parsePaths_spec hp
  have hw' : w'.dirs = presetWorld.dirs := by
    funext q
    refine Bool.eq_iff_iff.2 ⟨fun h => ?_, p2 q⟩
    rcases p3 q h with h | h | h
    · exact h
    all_goals
      rw [← List.mem_inits] at h
      simp at h
      rcases h with rfl | rfl <;> decide
  have hfin' : Finitely w' := by
    obtain ⟨l, hl⟩ := hfin
    refine ⟨l, fun q hq => hl q ?_⟩
    rw [isThere_iff] at hq ⊢
    rwa [p1, hw'] at hq
  obtain ⟨ls, hls⟩ := hfin'.shows
  obtain ⟨n, hn⟩ := hfin.bounded
  have hls' : Shows ls (parsePaths kindOs clearSight true ["a"] ["a"] presetWorld).1 := by rw [hp]; exact hls
  have hos : Willing kindOs bc1File.length :=
    { canOpen := fun _ => rfl, canSize := fun _ => rfl, canMap := fun _ => rfl, canMapWrite := fun _ => rfl,
      create := fun _ _ => ⟨_, rfl, by simp⟩, fits := by decide +kernel, canMkdir := fun _ => rfl }
  have htake : Takes somePlatform (fun _ => "") kindOs (.transform .max) ["a", "x"] bc1File := by
    change (handler (σ := Unit) (E := Nat) somePlatform _).canHandle _ _ () = _
    decide +kernel
  obtain ⟨⟨w2, e, hpr⟩, hne⟩ := C76_ends (lib := sumLib) (os := kindOs) (sight := clearSight) (p := somePlatform) (dbg := fun _ => "") (ls := ls)
    (inputFirst := true) (input := ["a"]) (output := ["a"]) (cmd := .transform .max) (w := presetWorld) n hn
  have hwide : Wide somePlatform := by unfold Wide; decide
  have he : e = .panic := by
    cases e with
    | success => exact absurd hpr (C113_no_success hwf hwide rfl ht (by decide) hls' (rel := ["x"]) (by rfl) hos htake)
    | failure => exact absurd rfl (hne _ _ hpr)
    | panic => rfl
    | argument =>
      cases hpr with
      | argument w' t h => rw [hp] at h; exact nomatch h
  subst he
  refine ⟨ls, w2, hls', ht, hos, htake, hpr, ?_⟩
  obtain ⟨q, data, fresh, h1, _, h3, h4⟩ := C113_lost hwf hwide rfl hls'.names hpr
  have hq : q ∈ [["a", "x"], ["a", "y"]] := by
    simp only [presetWorld] at h1
    split at h1
    · simp_all
    · split at h1
      · simp_all
      · exact nomatch h1
  have hf : fresh = List.replicate (seen kindOs data).length 0 := (Option.some.inj (Prod.mk.inj h3).1).symm
  refine ⟨q, hq, ?_, _, hf ▸ h4⟩
  rw [h4, hf, h1]
  intro h
  have h0 := congrArg (fun l : Buf => l.headD 0) (Option.some.inj h)
  have hx : data = bc1File ∨ data = bc2File := by
    simp only [presetWorld] at h1
    split at h1
    · exact .inl (Option.some.inj h1).symm
    · split at h1
      · exact .inr (Option.some.inj h1).symm
      · exact nomatch h1
  rcases hx with rfl | rfl <;> exact absurd h0 (by decide +kernel)

end Dlt.Props
