import Verif.Model.DryRun
import Verif.Lemmas.Causal
import Verif.Props.BenchCommands
import Verif.Props.AutoQuestions
/-!
# C106: the benchmark with its parallel dry run
-/

namespace Dlt.Props

open Dlt.Cache Dlt.DebugIo Dlt.DebugStats Dlt.DebugBench Dlt.DryRun
open Dlt.Dds Dlt.FileFormats Dlt.FileIo Dlt.FileIo.Prog Dlt.Cli
open Dlt.StatsCommand (Tape Causal CausalCodec CausalEstimator Parted front)

/-! ## One texture -/

/-- What is used of the search of a format on `data`: it does not panic, it uses the estimator only by asking it, and it answers if the
estimator does. -/
structure DryWorks {S : Type} (c : BenchCodec S) (B : Nat) (data : Buf) : Prop where
  total : ∀ {σ : Type} (est : Estimator σ CliError) out st, out.length = data.length →
    ∃ o st' r, c.auto est data out data.length st = some (o, st', r)
  hom : ∀ {τ σ : Type} {f : τ → σ} {est' : Estimator τ CliError} {est : Estimator σ CliError}, Hom f est' est → ∀ out st,
    c.auto est data out data.length (f st) = mapState f (c.auto est' data out data.length st)
  causal : CausalCodec B c.toCodec

section
variable {S : Type} {c : BenchCodec S} {B : Nat} {D : Buf → Prop} {data : Buf} {T : S → Buf}

/-- A call of the dry run: a size, or the compression of data in `D`. -/
def DryCall (D : Buf → Prop) (level : BitVec 32) : Call → Prop
  | .size _ _ _ => True
  | .compress x l a => D x ∧ l = level ∧ a = .zstandard

/-- The thread has gone on and made only such calls. -/
def GoneOn (P : Call → Prop) (t t' : DryTape) : Prop := t'.view = t.view ∧ ∃ l, t'.log = t.log ++ l ∧ ∀ x ∈ l, P x

theorem GoneOn.refl {P : Call → Prop} (t : DryTape) : GoneOn P t t := ⟨rfl, [], by simp, by simp⟩

theorem GoneOn.trans {P : Call → Prop} {t t' t'' : DryTape} (h : GoneOn P t t') (h' : GoneOn P t' t'') : GoneOn P t t'' := by
  obtain ⟨h1, l, h2, h3⟩ := h
  obtain ⟨h1', l', h2', h3'⟩ := h'
  refine ⟨h1'.trans h1, l ++ l', by rw [h2', h2, List.append_assoc], fun x hx => ?_⟩
  rcases List.mem_append.1 hx with hx | hx
  · exact h3 x hx
  · exact h3' x hx

theorem GoneOn.make {P : Call → Prop} (t : DryTape) {x : Call} (hx : P x) : GoneOn P t (t.make x) :=
  ⟨rfl, [x], rfl, by simpa using hx⟩

theorem estimator_gone {P : Call → Prop} (hP : ∀ d l a, P (.size d l a)) (level : BitVec 32) (a : Algorithm) (inner : Estimator Unit CliError)
    (t : DryTape) (x : Buf) (k : Nat) : GoneOn P t ((estimator level a inner).estimate t x k).1 := by
  unfold estimator dryAsk
  dsimp only
  rcases t.view t.log.length with _ | m <;> exact .make t (hP _ _ _)

/-- The search only makes calls that dryAsk for a size. -/
theorem auto_gone (hw : DryWorks c B data) {P : Call → Prop} (hP : ∀ d l a, P (.size d l a)) (level : BitVec 32) (a : Algorithm)
    (inner : Estimator Unit CliError) (out : Buf) (t : DryTape) {o : Buf} {t' : DryTape} {r : Except (DetermineBestError CliError) S}
    (h : c.auto (estimator level a inner) data out data.length t = some (o, t', r)) : GoneOn P t t' := by
  let est' : Estimator {u : DryTape // GoneOn P t u} CliError :=
    { maxSize := fun u len => (u, (inner.maxSize () len).2)
      estimate := fun u x k => (⟨((estimator level a inner).estimate u.1 x k).1, u.2.trans (estimator_gone hP level a inner u.1 x k)⟩,
        ((estimator level a inner).estimate u.1 x k).2) }
  have he : Hom Subtype.val est' (estimator level a inner) := ⟨fun _ _ => rfl, fun _ _ _ => rfl⟩
  have h1 := hw.hom he out ⟨t, .refl t⟩
  dsimp only at h1
  rw [h] at h1
  rcases h2 : c.auto est' data out data.length ⟨t, .refl t⟩ with _ | ⟨o', u, r'⟩
  · rw [h2] at h1; exact nomatch h1
  · rw [h2] at h1
    simp only [mapState, Option.map_some, Option.some.injEq, Prod.mk.injEq] at h1
    rw [h1.2.1]
    exact u.2

theorem dryBest_total (hw : DryWorks c B data) {P : Call → Prop} (hP : ∀ d l a, P (.size d l a)) (lib : Lib) (level : BitVec 32)
    (a : Algorithm) (buf : Option Buf) (hb : ∀ b, buf = some b → b.length = data.length) (t : DryTape) :
    ∃ t' r, dryBest c.toCodec lib level a data buf t = some (t', r) ∧ GoneOn P t t' := by
  unfold dryBest
  rcases createSizeEstimator (σ := Unit) lib a level with e | inner
  · exact ⟨_, _, rfl, .refl t⟩
  rcases buf with _ | buf
  · exact ⟨_, _, rfl, .refl t⟩
  obtain ⟨o, t', r, h⟩ := hw.total (estimator level a inner) buf t (hb _ rfl)
  dsimp only
  rw [h]
  exact ⟨_, _, rfl, auto_gone hw hP level a inner buf t h⟩

theorem dryCompress_gone {P : Call → Prop} {x : Buf} {level : BitVec 32} {a : Algorithm} (hP : P (.compress x level a)) (t : DryTape) :
    GoneOn P t (dryCompress x level a t).1 := by
  unfold dryCompress dryAsk
  rcases t.view t.log.length with _ | m <;> exact .make t hP

theorem dryLoop_total (hwk : Works c D data T) {heap : Heap} (hh : heap.Wf) (level : BitVec 32) :
    ∀ (l : List (String × S)) (k : Nat) (t : DryTape),
    ∃ t' r, dryLoop c heap level .zstandard data l k t = some (t', r) ∧ GoneOn (DryCall D level) t t'
  | [], k, t => ⟨t, _, rfl, .refl t⟩
  | (name, s) :: rest, k, t => by
    unfold dryLoop dryScenario
    rcases hb : heap k data.length with _ | buf
    · exact ⟨_, _, rfl, .refl t⟩
    dsimp only
    rw [hwk.transform buf s (hh _ _ _ hb)]
    dsimp only
    have hg := dryCompress_gone (P := DryCall D level) (x := T s) (level := level) (a := .zstandard) ⟨hwk.shown s, rfl, rfl⟩ t
    rcases hr : dryCompress (T s) level .zstandard t with ⟨t', e | ⟨⟩⟩ <;> rw [hr] at hg
    · exact ⟨_, _, rfl, hg⟩
    · obtain ⟨t'', r, h1, h2⟩ := dryLoop_total hwk hh level rest (k + 1) t'
      exact ⟨t'', r, h1, hg.trans h2⟩

theorem dryTexture_total (hwk : Works c D data T) (hw : DryWorks c B data) {heap : Heap} (hh : heap.Wf) (lib : Lib)
    (opts : AlgorithmOptions) (ha : opts.algorithm = .zstandard) (t : DryTape) :
    ∃ t' r, dryTexture c heap lib opts data t = some (t', r) ∧ GoneOn (DryCall D opts.getLevel) t t' := by
  unfold dryTexture
  obtain ⟨t1, r1, h1, g1⟩ := dryBest_total (P := DryCall D opts.getLevel) hw (fun _ _ _ => trivial) lib opts.getEstimateLevel
    opts.getEstimateAlgorithm (heap 0 data.length) (fun b hb => hh _ _ _ hb) t
  rw [h1]
  rcases r1 with e | best
  · exact ⟨_, _, rfl, g1⟩
  dsimp only
  obtain ⟨t2, r2, h2, g2⟩ := dryLoop_total hwk hh opts.getLevel (("API Recommended", best) :: c.scenarios) 1 t1
  rw [ha, h2]
  rcases r2 with e | ⟨⟩
  · exact ⟨_, _, rfl, g1.trans g2⟩
  dsimp only
  exact ⟨_, _, rfl, (g1.trans g2).trans (dryCompress_gone ⟨hwk.given, rfl, rfl⟩ t2)⟩

/-! ## What a thread does next depends on what it has seen -/

theorem dryAsk_causal (x : Call) : Causal 1 (fun t => some (dryAsk t x)) := Causal.access x id

theorem estimator_causal (level : BitVec 32) (a : Algorithm) (inner : Estimator Unit CliError) :
    CausalEstimator (V := Option Nat) (K := Call) 2 (estimator level a inner) where
  maxSize len := .ret _
  estimate d k := by
    refine (((dryAsk_causal (.size d level a)).map fun x : Option Nat => match x with
      | some n => (.ok n : Except CliError Nat)
      | none => .error (.debug "estimation failed")).mono (by omega)).congr fun t => ?_
    unfold estimator
    dsimp only [Option.map_some]
    rcases dryAsk t (.size d level a) with ⟨t', _ | n⟩ <;> rfl

theorem dryCompress_causal (x : Buf) (level : BitVec 32) (a : Algorithm) : Causal 1 (fun t => some (dryCompress x level a t)) := by
  refine ((dryAsk_causal (.compress x level a)).map fun x : Option Nat => match x with
    | some _ => (.ok () : Except CliError Unit)
    | none => .error (.debug "compression failed")).congr fun t => ?_
  unfold dryCompress
  dsimp only [Option.map_some]
  rcases dryAsk t (.compress x level a) with ⟨t', _ | n⟩ <;> rfl

theorem dryBest_causal (hc : CausalCodec B c.toCodec) (lib : Lib) (level : BitVec 32) (a : Algorithm) (buf : Option Buf) :
    Causal B (fun t => dryBest c.toCodec lib level a data buf t) := by
  unfold dryBest
  rcases createSizeEstimator (σ := Unit) lib a level with e | inner
  · exact (Causal.ret _).mono (Nat.zero_le _)
  rcases buf with _ | buf
  · exact (Causal.ret _).mono (Nat.zero_le _)
  refine ((hc _ (estimator_causal level a inner) data buf data.length).map fun x =>
    x.2.mapError fun _ => CliError.debug "API recommendation failed").congr fun t => ?_
  dsimp only
  rcases c.auto (estimator level a inner) data buf data.length t with _ | ⟨o, t', r⟩ <;> rfl

theorem dryLoop_causal (heap : Heap) (level : BitVec 32) (a : Algorithm) : ∀ (l : List (String × S)) (k : Nat),
    Causal l.length (fun t => dryLoop c heap level a data l k t)
  | [], k => Causal.ret _
  | (name, s) :: rest, k => by
    unfold dryLoop dryScenario
    rcases heap k data.length with _ | buf
    · exact (Causal.ret (Except.error CliError.allocate)).mono (Nat.zero_le _)
    dsimp only
    rcases c.transform data buf data.length s with _ | x
    · exact Causal.fail.mono (Nat.zero_le _)
    dsimp only
    have hg : ∀ y : Except CliError Unit, Causal (V := Option Nat) (K := Call) (α := Except CliError Unit) rest.length (fun t => match y with
        | .error e => some (t, .error e)
        | .ok () => dryLoop c heap level a data rest (k + 1) t) := by
      rintro (e | ⟨⟩)
      · exact (Causal.ret _).mono (Nat.zero_le _)
      · exact dryLoop_causal heap level a rest (k + 1)
    refine (((dryCompress_causal x level a).bind hg).mono (by rw [List.length_cons]; omega)).congr fun t => ?_
    dsimp only [Option.bind_some]
    rcases dryCompress x level a t with ⟨t', e | ⟨⟩⟩ <;> rfl

theorem dryTexture_causal (hc : CausalCodec B c.toCodec) (heap : Heap) (lib : Lib) (opts : AlgorithmOptions) :
    Causal (B + (c.scenarios.length + 2)) (fun t => dryTexture c heap lib opts data t) := by
  have h2 : ∀ y : Except CliError Unit, Causal (V := Option Nat) (K := Call) (α := Except CliError Unit) 1 (fun t => match y with
      | .error e => some (t, .error e)
      | .ok () => some (dryCompress data opts.getLevel opts.algorithm t)) := by
    rintro (e | ⟨⟩)
    · exact (Causal.ret _).mono (Nat.zero_le _)
    · exact dryCompress_causal _ _ _
  have h1 : ∀ y : Except CliError S, Causal (V := Option Nat) (K := Call) (α := Except CliError Unit) (c.scenarios.length + 2) (fun t => match y with
      | .error e => some (t, .error e)
      | .ok best => (dryLoop c heap opts.getLevel opts.algorithm data (("API Recommended", best) :: c.scenarios) 1 t).bind fun r => match r.2 with
        | .error e => some (r.1, .error e)
        | .ok () => some (dryCompress data opts.getLevel opts.algorithm r.1)) := by
    rintro (e | best)
    · exact (Causal.ret _).mono (Nat.zero_le _)
    · exact ((dryLoop_causal heap opts.getLevel opts.algorithm (("API Recommended", best) :: c.scenarios) 1).bind h2).mono (by simp)
  refine ((dryBest_causal (data := data) hc lib opts.getEstimateLevel opts.getEstimateAlgorithm (heap 0 data.length)).bind h1).congr fun t => ?_
  unfold dryTexture
  rcases dryBest c.toCodec lib opts.getEstimateLevel opts.getEstimateAlgorithm data (heap 0 data.length) t with _ | ⟨t, e | best⟩
  · rfl
  · rfl
  dsimp only [Option.bind_some]
  rcases dryLoop c heap opts.getLevel opts.algorithm data (("API Recommended", best) :: c.scenarios) 1 t with _ | ⟨t, e | ⟨⟩⟩ <;> rfl

end

/-! ## Threads -/

/-- What the dry run relies on: addresses of more than 32 bits and a release build, files of less than 4 GiB, an allocator that gives the
size requested, a supported algorithm, and formats that work on the textures. -/
structure DrySetting {S : Type} (s : Setup S) (D : Buf → Prop) (T : Buf → S → Buf) (B : Nat) : Prop where
  wide : Wide s.pl
  release : s.pl.overflowChecks = false
  small : ∀ p ∈ s.entries, ∀ b, s.files p = some b → b.length < 2 ^ 32 ∧ b.length ≤ s.os.usizeMax
  heap : ∀ i, (s.heap i).Wf
  algorithm : s.opts.algorithm = .zstandard
  works : ∀ i p b, s.entries[i]? = some p → Found s.os s.files s.format p b →
    Works (s.codec i) D (textureOf b) (T (textureOf b)) ∧ DryWorks (s.codec i) B (textureOf b)

section
variable {S : Type} {s : Setup S} {D : Buf → Prop} {T : Buf → S → Buf} {B : Nat}

theorem calls_found (hs : DrySetting s D T B) {i : Nat} {p : Path} {b : Buf} (hp : s.entries[i]? = some p)
    (hb : Found s.os s.files s.format p b) (v : Nat → Option Nat) :
    calls s i v = (dryTexture (s.codec i) (s.heap i) s.lib s.opts (textureOf b) ⟨v, []⟩).map fun r => r.1.log := by
  unfold calls
  rw [hp]
  dsimp only
  obtain ⟨g, hrun⟩ := (C66_extract (σ := DryTape) s.os s.pl hs.wide hs.release s.format p (fun data _ =>
    .op (.call fun t => dryTexture (s.codec i) (s.heap i) s.lib s.opts data t) .ret)
    ⟨s.files, fun _ => false, 0, ⟨v, []⟩⟩ (hs.small p (List.mem_of_getElem? hp))).1 b hb
  unfold dryFile
  rw [hrun, run_bind', run_op]
  simp only [exec]
  rcases dryTexture (s.codec i) (s.heap i) s.lib s.opts (textureOf b) ⟨v, []⟩ with _ | ⟨t, r⟩ <;> rfl

theorem calls_none (hs : DrySetting s D T B) {i : Nat}
    (hno : ∀ p b, s.entries[i]? = some p → ¬ Found s.os s.files s.format p b) (v : Nat → Option Nat) : calls s i v = some [] := by
  unfold calls
  rcases hp : s.entries[i]? with _ | p
  · rfl
  dsimp only
  obtain ⟨e, hrun⟩ := (C66_extract (σ := DryTape) s.os s.pl hs.wide hs.release s.format p (fun data _ =>
    .op (.call fun t => dryTexture (s.codec i) (s.heap i) s.lib s.opts data t) .ret)
    ⟨s.files, fun _ => false, 0, ⟨v, []⟩⟩ (hs.small p (List.mem_of_getElem? hp))).2 (fun ⟨b, hb⟩ => hno p b hp hb)
  unfold dryFile
  rw [hrun]

/-- No thread panics, and its calls are as expected and not too many. -/
theorem calls_total (hs : DrySetting s D T B) (i : Nat) (v : Nat → Option Nat) :
    ∃ l, calls s i v = some l ∧ (∀ x ∈ l, DryCall D s.opts.getLevel x) ∧ l.length ≤ B + ((s.codec i).scenarios.length + 2) := by
  by_cases h : ∃ p b, s.entries[i]? = some p ∧ Found s.os s.files s.format p b
  · obtain ⟨p, b, hp, hb⟩ := h
    obtain ⟨hwk, hw⟩ := hs.works i p b hp hb
    obtain ⟨t, r, h1, h2, l, h3, h4⟩ := dryTexture_total hwk hw (hs.heap i) s.lib s.opts hs.algorithm ⟨v, []⟩
    rw [calls_found hs hp hb, h1]
    have h5 := ((dryTexture_causal hw.causal (s.heap i) s.lib s.opts).grows _ _ _ h1).2.2
    rw [List.nil_append] at h3
    exact ⟨t.log, rfl, by rw [h3]; exact h4, by simpa using h5⟩
  · refine ⟨[], calls_none hs (fun p b hp hb => h ⟨p, b, hp, hb⟩) v, by simp, by simp⟩

/-- What has been seen determines the next call. -/
theorem calls_agree (hs : DrySetting s D T B) (i : Nat) {n : Nat} {v v' : Nat → Option Nat} (hv : ∀ m, m < n → v m = v' m)
    {l l' : List Call} (h : calls s i v = some l) (h' : calls s i v' = some l') : l = l' ∨ Parted n l l' := by
  by_cases hf : ∃ p b, s.entries[i]? = some p ∧ Found s.os s.files s.format p b
  · obtain ⟨p, b, hp, hb⟩ := hf
    obtain ⟨_, hw⟩ := hs.works i p b hp hb
    rw [calls_found hs hp hb] at h h'
    obtain ⟨⟨t, x⟩, h1, rfl⟩ := Option.map_eq_some_iff.1 h
    obtain ⟨⟨t', x'⟩, h1', rfl⟩ := Option.map_eq_some_iff.1 h'
    exact ((dryTexture_causal hw.causal (s.heap i) s.lib s.opts).agree n ⟨v, []⟩ ⟨v', []⟩ _ _ _ _ rfl hv h1 h1').imp_left fun h => h.1
  · have hno := calls_none hs (i := i) (fun p b hp hb => hf ⟨p, b, hp, hb⟩)
    rw [hno] at h h'
    cases h; cases h'
    exact .inl rfl

/-- The calls of a thread so far. -/
def callsMade (t : Thread) : List Call := t.past.map Prod.fst ++ (t.now.map Prod.fst).toList

theorem State.set_same (st : DryRun.State) (i : Nat) (t : Thread) : (st.set i t).threads i = t := by simp [State.set]

theorem State.set_other (st : DryRun.State) {i j : Nat} (h : j ≠ i) (t : Thread) : (st.set i t).threads j = st.threads j := by
  simp [State.set, h]

/-- A thread has made the first of its calls, whatever happens after those that have ended. -/
theorem made_prefix (hs : DrySetting s D T B) {ok : Pc → Pc → Prop} {sizes : Sizes} {files : List Char → Option Buf} {st : DryRun.State}
    (h : Reached s ok sizes files st) : ∀ i v l, Saw (st.threads i).past v → calls s i v = some l → callsMade (st.threads i) <+: l := by
  induction h with
  | start => intro i v l _ _; exact List.nil_prefix
  | @step st st' h hstep ih =>
    cases hstep with
    | @call i view l0 c hi hn hv hl hc =>
      intro j v l hsaw hcl
      by_cases hj : j = i
      swap
      · rw [State.set_other _ hj] at hsaw ⊢; exact ih j v l hsaw hcl
      subst hj
      rw [State.set_same] at hsaw ⊢
      have hp := ih j v l hsaw hcl
      have hagree : ∀ m, m < (st.threads j).past.length → view m = v m := by
        intro m hm
        obtain ⟨⟨c', r⟩, hcr⟩ : ∃ e, (st.threads j).past[m]? = some e := ⟨_, List.getElem?_eq_getElem hm⟩
        rw [hv m c' r hcr, hsaw m c' r hcr]
      have hlen : l[(st.threads j).past.length]? = some c := by
        rcases calls_agree hs j hagree hl hcl with rfl | ⟨h1, h2, h3⟩
        · exact hc
        · have := congrArg (fun x : List Call => x[(st.threads j).past.length]?) h3
          simp only [List.getElem?_take] at this
          rw [if_pos (by omega), if_pos (by omega)] at this
          rw [← this]; exact hc
      have hm : callsMade (st.threads j) = (st.threads j).past.map Prod.fst := by simp [callsMade, hn]
      rw [hm] at hp
      obtain ⟨rest, rfl⟩ := hp
      rw [List.getElem?_append_right (by simp)] at hlen
      simp only [List.length_map, Nat.sub_self] at hlen
      cases rest with
      | nil => simp at hlen
      | cons x rest =>
        simp only [List.getElem?_cons_zero, Option.some.injEq] at hlen
        subst hlen
        exact ⟨rest, by simp [callsMade]⟩
    | @work i c pc pc' sh' hn _ _ _ =>
      intro j v l hsaw hcl
      by_cases hj : j = i
      swap
      · rw [State.set_other _ hj] at hsaw ⊢; exact ih j v l hsaw hcl
      subst hj
      rw [State.set_same] at hsaw ⊢
      have hp := ih j v l hsaw hcl
      rw [callsMade, hn] at hp
      exact hp
    | @back i c r hn =>
      intro j v l hsaw hcl
      by_cases hj : j = i
      swap
      · rw [State.set_other _ hj] at hsaw ⊢; exact ih j v l hsaw hcl
      subst hj
      rw [State.set_same] at hsaw ⊢
      have hp := ih j v l (fun k c' r' hk => hsaw k c' r' (by
        rw [List.getElem?_append_left (List.getElem?_eq_some_iff.1 hk).1]; exact hk)) hcl
      rw [callsMade, hn] at hp
      simpa [callsMade] using hp

/-- Every call that is made is as expected. -/
theorem made_ok (hs : DrySetting s D T B) {ok : Pc → Pc → Prop} {sizes : Sizes} {files : List Char → Option Buf} {st : DryRun.State}
    (h : Reached s ok sizes files st) (i : Nat) : ∀ x ∈ callsMade (st.threads i), DryCall D s.opts.getLevel x := by
  let v : Nat → Option Nat := fun k => ((st.threads i).past[k]?).bind fun e => outcome e.2
  obtain ⟨l, h1, h2, _⟩ := calls_total hs i v
  have hsaw : Saw (st.threads i).past v := by
    intro k c r hk
    simp only [v, hk, Option.bind_some]
  intro x hx
  exact h2 x ((made_prefix hs h i v l hsaw h1).subset hx)

/-! ## Executions of the caches -/

/-- The dry run is an execution of the caches: `pos i` is the place of the call that thread `i` makes. -/
theorem simulated {ok : Pc → Pc → Prop} {sizes : Sizes} {files : List Char → Option Buf} {st : DryRun.State}
    (h : Reached s ok sizes files st) : ∃ (cs : Cache.State) (pos : Nat → Nat), Steps s.hash (initial sizes files) cs ∧
      cs.shared = st.shared ∧ (∀ i e, (st.threads i).now = some e → cs.threads[pos i]? = some e) ∧
      (∀ i j e e', (st.threads i).now = some e → (st.threads j).now = some e' → pos i = pos j → i = j) ∧
      ∀ k c pc, cs.threads[k]? = some (c, pc) → (∃ i, (st.threads i).now = some (c, pc) ∧ pos i = k) ∨
        ∃ i r, pc = .done r ∧ (c, r) ∈ (st.threads i).past := by
  induction h with
  | start => exact ⟨_, id, .refl _, rfl, (fun _ _ h => nomatch h), (fun _ _ _ _ h => nomatch h), (fun _ _ _ h => by simp [initial] at h)⟩
  | @step st st' h hstep ih =>
    obtain ⟨cs, pos, h1, h2, h3, h4, h5⟩ := ih
    cases hstep with
    | @call i view l c hi hn hv hl hc =>
      refine ⟨⟨cs.shared, cs.threads ++ [(c, c.begin)]⟩, fun j => if j = i then cs.threads.length else pos j, .tail h1 (.start c), h2,
        ?_, ?_, ?_⟩
      · intro j e he
        by_cases hj : j = i
        · subst hj
          rw [State.set_same] at he
          cases he
          simp
        · rw [State.set_other _ hj] at he
          dsimp only
          rw [if_neg hj]
          have := h3 j e he
          rw [List.getElem?_append_left (List.getElem?_eq_some_iff.1 this).1]
          exact this
      · intro j k e e' he he' hjk
        dsimp only at hjk
        by_cases hj : j = i <;> by_cases hk : k = i
        · exact hj.trans hk.symm
        · rw [if_pos hj, if_neg hk] at hjk
          rw [State.set_other _ hk] at he'
          have := (List.getElem?_eq_some_iff.1 (h3 k e' he')).1
          omega
        · rw [if_neg hj, if_pos hk] at hjk
          rw [State.set_other _ hj] at he
          have := (List.getElem?_eq_some_iff.1 (h3 j e he)).1
          omega
        · rw [if_neg hj, if_neg hk] at hjk
          rw [State.set_other _ hj] at he
          rw [State.set_other _ hk] at he'
          exact h4 j k e e' he he' hjk
      · intro k c' pc hk
        by_cases hlt : k < cs.threads.length
        · rw [List.getElem?_append_left hlt] at hk
          rcases h5 k c' pc hk with ⟨j, hj1, hj2⟩ | ⟨j, r, hj1, hj2⟩
          · have hj : j ≠ i := by rintro rfl; rw [hn] at hj1; exact nomatch hj1
            exact .inl ⟨j, by rw [State.set_other _ hj]; exact hj1, by dsimp only; rw [if_neg hj]; exact hj2⟩
          · refine .inr ⟨j, r, hj1, ?_⟩
            by_cases hj : j = i
            · subst hj; rw [State.set_same]; exact hj2
            · rw [State.set_other _ hj]; exact hj2
        · rw [List.getElem?_append_right (by omega)] at hk
          have hk0 : k - cs.threads.length = 0 := by
            have := (List.getElem?_eq_some_iff.1 hk).1
            simp at this
            omega
          rw [hk0, List.getElem?_cons_zero] at hk
          cases hk
          exact .inl ⟨i, by rw [State.set_same], by dsimp only; rw [if_pos rfl]; omega⟩
    | @work i c pc pc' sh' hn hloc hr ho =>
      have hget := h3 i _ hn
      have hloc' : Local s.hash c cs.shared pc sh' pc' := by rw [h2]; exact hloc
      refine ⟨⟨sh', cs.threads.set (pos i) (c, pc')⟩, pos, .tail h1 (.work (pos i) hget hloc'), rfl, ?_, ?_, ?_⟩
      · intro j e he
        by_cases hj : j = i
        · subst hj
          rw [State.set_same] at he
          cases he
          rw [List.getElem?_set_self (List.getElem?_eq_some_iff.1 hget).1]
        · rw [State.set_other _ hj] at he
          have hne : pos i ≠ pos j := fun hp => hj (h4 j i e _ he hn hp.symm)
          rw [List.getElem?_set_ne hne]
          exact h3 j e he
      · intro j k e e' he he' hjk
        have back : ∀ j e, ((State.set ⟨sh', st.threads⟩ i ⟨(st.threads i).past, some (c, pc')⟩).threads j).now = some e →
            ∃ e, (st.threads j).now = some e := by
          intro j e he
          by_cases hj : j = i
          · subst hj; exact ⟨_, hn⟩
          · rw [State.set_other _ hj] at he; exact ⟨e, he⟩
        obtain ⟨a, ha⟩ := back j e he
        obtain ⟨b, hb⟩ := back k e' he'
        exact h4 j k a b ha hb hjk
      · intro k c' pc'' hk
        by_cases hp : pos i = k
        · subst hp
          rw [List.getElem?_set_self (List.getElem?_eq_some_iff.1 hget).1] at hk
          cases hk
          exact .inl ⟨i, by rw [State.set_same], rfl⟩
        · rw [List.getElem?_set_ne hp] at hk
          rcases h5 k c' pc'' hk with ⟨j, hj1, hj2⟩ | ⟨j, r, hj1, hj2⟩
          · have hj : j ≠ i := by rintro rfl; exact hp hj2
            exact .inl ⟨j, by rw [State.set_other _ hj]; exact hj1, hj2⟩
          · refine .inr ⟨j, r, hj1, ?_⟩
            by_cases hj : j = i
            · subst hj; rw [State.set_same]; exact hj2
            · rw [State.set_other _ hj]; exact hj2
    | @back i c r hn =>
      refine ⟨cs, pos, h1, h2, ?_, ?_, ?_⟩
      · intro j e he
        by_cases hj : j = i
        · subst hj; rw [State.set_same] at he; exact nomatch he
        · rw [State.set_other _ hj] at he; exact h3 j e he
      · intro j k e e' he he' hjk
        by_cases hj : j = i
        · subst hj; rw [State.set_same] at he; exact nomatch he
        by_cases hk : k = i
        · subst hk; rw [State.set_same] at he'; exact nomatch he'
        rw [State.set_other _ hj] at he
        rw [State.set_other _ hk] at he'
        exact h4 j k e e' he he' hjk
      · intro k c' pc hk
        rcases h5 k c' pc hk with ⟨j, hj1, hj2⟩ | ⟨j, r', hj1, hj2⟩
        · by_cases hj : j = i
          · subst hj
            rw [hn] at hj1
            cases hj1
            exact .inr ⟨j, r, rfl, by rw [State.set_same]; simp⟩
          · exact .inl ⟨j, by rw [State.set_other _ hj]; exact hj1, hj2⟩
        · refine .inr ⟨j, r', hj1, ?_⟩
          by_cases hj : j = i
          · subst hj; rw [State.set_same]; simp [hj2]
          · rw [State.set_other _ hj]; exact hj2

/-- What has been compressed is what the compressor gives. -/
theorem compressed_by {ok : Pc → Pc → Prop} {sizes : Sizes} {files : List Char → Option Buf} {st : DryRun.State}
    (h : Reached s ok sizes files st) : ∀ d l a out, .compressed d l a out ∈ st.shared.made → a = .zstandard ∧ s.raw.compress l d = some out := by
  induction h with
  | start => intro d l a out hm; cases hm
  | @step st st' h hstep ih =>
    cases hstep with
    | call => exact ih
    | back => exact ih
    | @work i c pc pc' sh' hn hloc hr ho =>
      change ∀ d l a out, _ ∈ sh'.made → _
      cases hloc with
      | @compressed d l a _ out ha =>
        intro d' l' a' out' hm
        rcases List.mem_cons.1 hm with hm | hm
        · obtain ⟨rfl, rfl, rfl, rfl⟩ := Made.compressed.inj hm
          cases a' with
          | losslessTransformUtils => exact nomatch ha
          | zstandard =>
            refine ⟨rfl, ?_⟩
            unfold FromCompressor at hr
            dsimp only at hr
            rcases hc : s.raw.compress l' d' with _ | o
            · rw [hc] at hr; exact nomatch hr
            · rw [hc] at hr; cases hr; rfl
        · exact ih d' l' a' out' hm
      | estimated =>
        intro d' l' a' out' hm
        rcases List.mem_cons.1 hm with hm | hm
        · cases hm
        · exact ih d' l' a' out' hm
      | writeFails =>
        intro d' l' a' out' hm
        rcases List.mem_cons.1 hm with hm | hm
        · cases hm
        · exact ih d' l' a' out' hm
      | _ => exact ih

/-- Only what is not in the cache is compressed. -/
theorem compressed_absent {hash : Buf → BitVec 128} {sizes : Sizes} {files : List Char → Option Buf} {cs : Cache.State}
    (h : Steps hash (initial sizes files) cs) : ∀ d l a out, .compressed d l a out ∈ cs.shared.made →
      files (fileName ⟨hash d, l, a⟩) = none := by
  refine (invariant (fun sh => (∀ n, files n ≠ none → sh.files n ≠ none) ∧ ∀ d l a out, .compressed d l a out ∈ sh.made →
      files (fileName ⟨hash d, l, a⟩) = none)
    (fun _ c pc => match c, pc with
      | .compress d l a, .compressing => files (fileName ⟨hash d, l, a⟩) = none
      | _, _ => True) h ⟨fun n hn => hn, fun d l a out hm => by cases hm⟩ (fun c pc hm => by cases hm) (fun sh c _ => ?_) ?_).1.2
  · cases c <;> trivial
  · intro c sh pc sh' pc' hl hI hT
    cases hl with
    | absent hf =>
      refine ⟨hI, ?_, fun _ _ h2 => h2⟩
      by_contra hne
      exact hI.1 _ hne hf
    | @compressed d l a _ out ha =>
      refine ⟨⟨hI.1, fun d' l' a' out' hm => ?_⟩, trivial, fun _ _ h2 => h2⟩
      rcases List.mem_cons.1 hm with hm | hm
      · cases hm; exact hT
      · exact hI.2 d' l' a' out' hm
    | estimated =>
      refine ⟨⟨hI.1, fun d' l' a' out' hm => ?_⟩, trivial, fun _ _ h2 => h2⟩
      rcases List.mem_cons.1 hm with hm | hm
      · cases hm
      · exact hI.2 d' l' a' out' hm
    | writeFails =>
      refine ⟨⟨hI.1, fun d' l' a' out' hm => ?_⟩, trivial, fun _ _ h2 => h2⟩
      rcases List.mem_cons.1 hm with hm | hm
      · cases hm
      · exact hI.2 d' l' a' out' hm
    | create =>
      refine ⟨⟨fun n hn => ?_, hI.2⟩, trivial, fun _ _ h2 => h2⟩
      dsimp only [setFile]
      split
      · simp
      · exact hI.1 n hn
    | write =>
      refine ⟨⟨fun n hn => ?_, hI.2⟩, trivial, fun _ _ h2 => h2⟩
      dsimp only [setFile]
      split
      · simp
      · exact hI.1 n hn
    | _ => exact ⟨hI, trivial, fun _ _ h2 => h2⟩

/-- A file that was not there holds something that has been compressed. -/
theorem present_compressed {hash : Buf → BitVec 128} {sizes : Sizes} {files : List Char → Option Buf} {cs : Cache.State}
    (h : Steps hash (initial sizes files) cs) (k : Key) (hk : cs.shared.files (fileName k) ≠ none) :
    files (fileName k) ≠ none ∨ ∃ d l a out, (⟨hash d, l, a⟩ : Key) = k ∧ .compressed d l a out ∈ cs.shared.made := by
  generalize hs : initial sizes files = s₀ at h
  induction h with
  | refl => subst hs; exact .inl hk
  | @tail s₁ s₂ h₁ st ih =>
    subst hs
    have old : s₁.shared.files (fileName k) ≠ none → files (fileName k) ≠ none ∨ ∃ d l a out, (⟨hash d, l, a⟩ : Key) = k ∧
        .compressed d l a out ∈ s₂.shared.made := fun h => (ih h).imp_right fun ⟨d, l, a, out, h2, h3⟩ =>
      ⟨d, l, a, out, h2, made_mono_steps (.tail (.refl _) st) _ h3⟩
    have hcalls := (calls_ok hash sizes files s₁ h₁).2
    cases st with
    | start c => exact old hk
    | @work i c pc sh' pc' hget hl =>
      have hmem := List.mem_of_getElem? hget
      cases hl with
      | @create d l a _ out =>
        by_cases hkey : (⟨hash d, l, a⟩ : Key) = k
        · exact .inr ⟨d, l, a, out, hkey, hcalls _ _ hmem⟩
        · refine old ?_
          change setFile s₁.shared.files (fileName ⟨hash d, l, a⟩) _ (fileName k) ≠ none at hk
          rwa [setFile_other (Ne.symm hkey)] at hk
      | @write d l a _ out off b m hf hm ho =>
        by_cases hkey : (⟨hash d, l, a⟩ : Key) = k
        · exact .inr ⟨d, l, a, out, hkey, hcalls _ _ hmem⟩
        · refine old ?_
          change setFile s₁.shared.files (fileName ⟨hash d, l, a⟩) _ (fileName k) ≠ none at hk
          rwa [setFile_other (Ne.symm hkey)] at hk
      | _ => exact old hk

open Classical in
/-- The file that belongs to a key. -/
noncomputable def completeFile (raw : Raw) (hash : Buf → BitVec 128) (D : Buf → Prop) (files : List Char → Option Buf) (k : Key) : Buf :=
  match files (fileName k) with
  | some b => b
  | none => if h : ∃ out d, D d ∧ hash d = k.hash ∧ raw.compress k.level d = some out then h.choose else []

theorem completeFile_eq {raw : Raw} {hash : Buf → BitVec 128} {D : Buf → Prop} (hi : NoCollision hash D) {files : List Char → Option Buf}
    {d : Buf} (hd : D d) {l : BitVec 32} {a : Algorithm} (hn : files (fileName ⟨hash d, l, a⟩) = none) {out : Buf}
    (hc : raw.compress l d = some out) : completeFile raw hash D files ⟨hash d, l, a⟩ = out := by
  unfold completeFile
  rw [hn]
  dsimp only
  have hex : ∃ out d', D d' ∧ hash d' = hash d ∧ raw.compress l d' = some out := ⟨out, d, hd, rfl, hc⟩
  rw [dif_pos hex]
  obtain ⟨d', h1, h2, h3⟩ := hex.choose_spec
  obtain rfl := hi d' d h1 hd h2
  rw [hc] at h3
  exact (Option.some.inj h3).symm

/-- When no thread is in the middle of a call and no write has failed, the cache holds for the data only what decompresses to them, and
what was there is still there. -/
theorem dry_faithful (hs : DrySetting s D T B) (hi : NoCollision s.hash D) (hinv : Inverse s.raw) {ok : Pc → Pc → Prop} {sizes : Sizes}
    {files : List Char → Option Buf} {st : DryRun.State} (h : Reached s ok sizes files st) (hidle : ∀ i, (st.threads i).now = none)
    (hfail : ∀ d l a, .writeFailed d l a ∉ st.shared.made) (h0 : Restorable s.raw s.hash D files) :
    Restorable s.raw s.hash D st.shared.files ∧
      ∀ k b, files (fileName k) = some b → st.shared.files (fileName k) = some b := by
  obtain ⟨cs, pos, h1, h2, _, _, h5⟩ := simulated h
  have hcall : ∀ c pc, (c, pc) ∈ cs.threads → DryCall D s.opts.getLevel c := by
    intro c pc hm
    obtain ⟨k, hk⟩ := List.getElem?_of_mem hm
    rcases h5 k c pc hk with ⟨i, hi1, _⟩ | ⟨i, r, _, hi2⟩
    · exact made_ok hs h i c (by simp [callsMade, hi1])
    · exact made_ok hs h i c (by simp only [callsMade, List.mem_append, List.mem_map]; exact .inl ⟨_, hi2, rfl⟩)
  have hend : ∀ c pc, (c, pc) ∈ cs.threads → Ended pc := by
    intro c pc hm
    obtain ⟨k, hk⟩ := List.getElem?_of_mem hm
    rcases h5 k c pc hk with ⟨i, hi1, _⟩ | ⟨i, r, rfl, _⟩
    · rw [hidle i] at hi1; exact nomatch hi1
    · trivial
  have hcomp : ∀ d l a out, .compressed d l a out ∈ cs.shared.made → D d ∧ a = .zstandard ∧ s.raw.compress l d = some out := by
    intro d l a out hm
    obtain ⟨pc, hpc⟩ := made_for_call s.hash sizes files cs h1 _ hm
    have hd := (hcall _ _ hpc).1
    rw [h2] at hm
    exact ⟨hd, compressed_by h d l a out hm⟩
  have hcons : Consistent s.hash (completeFile s.raw s.hash D files) cs.shared.made := by
    intro d l a out hm
    obtain ⟨h6, _, h7⟩ := hcomp d l a out hm
    exact (completeFile_eq hi h6 (compressed_absent h1 d l a out hm) h7).symm
  have hfiles : ∀ k b, files (fileName k) = some b → b = completeFile s.raw s.hash D files k := by
    intro k b hb
    unfold completeFile
    rw [hb]
  have hall := C64_dry_run s.hash (completeFile s.raw s.hash D files) sizes files hfiles cs h1 hcons hend
    (by rw [h2]; exact hfail)
  rw [h2] at hall
  refine ⟨?_, fun k b hb => ?_⟩
  · intro x hx level b hb
    have hb' := hall ⟨s.hash x, level, .zstandard⟩ b hb
    rcases present_compressed h1 ⟨s.hash x, level, .zstandard⟩ (by rw [h2, hb]; simp) with hp | ⟨d, l, a, out, hk, hm⟩
    · obtain ⟨b0, hb0⟩ := Option.ne_none_iff_exists'.1 hp
      rw [← hfiles _ _ hb0] at hb'
      rw [hb']
      exact h0 x hx level b0 hb0
    · obtain ⟨h6, _, h7⟩ := hcomp d l a out hm
      have h8 := compressed_absent h1 d l a out hm
      rw [← hk, completeFile_eq hi h6 h8 h7] at hb'
      injection hk with hh hl
      obtain rfl := hi d x h6 hx hh
      rw [hb']
      exact hinv l d out h7
  · have := (lookup_returns_file s.hash sizes files cs h1 k b hb).1
    rwa [h2] at this

/-! ## If nothing runs out and nothing fails -/

/-- The search answers if its estimator does. -/
def Settles (c : BenchCodec S) (data : Buf) : Prop := ∀ {σ : Type} (est : Estimator σ CliError), (∀ n, ∃ need, Answering est n need) →
  ∀ out st, out.length = data.length → ∃ o st' best, c.auto est data out data.length st = some (o, st', .ok best)

theorem dryBest_ok {c : BenchCodec S} {data : Buf} (hw : DryWorks c B data) (hs : Settles c data) {lib : Lib} (hl : Ample lib)
    {level : BitVec 32} {a : Algorithm} (he : Estimates lib a level) {buf : Buf} (hb : buf.length = data.length) (t : DryTape)
    (hv : ∀ k, t.view k ≠ none) : ∃ t' best, dryBest c.toCodec lib level a data (some buf) t = some (t', .ok best) := by
  obtain ⟨inner, hi⟩ := estimator_created he
  unfold dryBest
  rw [hi]
  dsimp only
  let est' : Estimator {u : DryTape // ∀ k, u.view k ≠ none} CliError :=
    { maxSize := fun u len => (u, (inner.maxSize () len).2)
      estimate := fun u x k => (⟨((estimator level a inner).estimate u.1 x k).1, by
          have h1 : ((estimator level a inner).estimate u.1 x k).1.view = u.1.view :=
            (estimator_gone (P := fun _ => True) (fun _ _ _ => trivial) level a inner u.1 x k).1
          rw [h1]
          exact u.2⟩, ((estimator level a inner).estimate u.1 x k).2) }
  have hh : Hom Subtype.val est' (estimator level a inner) := ⟨fun _ _ => rfl, fun _ _ _ => rfl⟩
  obtain ⟨o, u, best, h1⟩ := hs est' (fun n => ⟨neededMemory lib a n, fun u => by
      simp only [est']
      rw [(created lib hl a level inner hi).1], fun x u _ => by
      simp only [est']
      unfold estimator dryAsk
      dsimp only
      obtain ⟨m, hm⟩ := Option.ne_none_iff_exists'.1 (u.2 u.1.log.length)
      rw [hm]
      exact ⟨m, rfl⟩⟩) buf ⟨t, hv⟩ hb
  have h2 := hw.hom hh buf ⟨t, hv⟩
  dsimp only at h2
  rw [h2, h1]
  exact ⟨_, _, rfl⟩

theorem dryCompress_ok {x : Buf} {level : BitVec 32} {a : Algorithm} (t : DryTape) (hv : ∀ k, t.view k ≠ none) :
    dryCompress x level a t = (t.make (.compress x level a), .ok ()) := by
  unfold dryCompress dryAsk
  obtain ⟨m, hm⟩ := Option.ne_none_iff_exists'.1 (hv t.log.length)
  rw [hm]

theorem dryLoop_ok {c : BenchCodec S} {data : Buf} {T : S → Buf} (hwk : Works c D data T) {heap : Heap} (hh : heap.Wf)
    (hm : ∀ k n, (heap k n).isSome) (level : BitVec 32) : ∀ (l : List (String × S)) (k : Nat) (t : DryTape), (∀ k, t.view k ≠ none) →
    dryLoop c heap level .zstandard data l k t = some (⟨t.view, t.log ++ l.map fun e => .compress (T e.2) level .zstandard⟩, .ok ())
  | [], k, t, _ => by simp [dryLoop]
  | (name, s) :: rest, k, t, hv => by
    unfold dryLoop dryScenario
    obtain ⟨buf, hb⟩ := Option.isSome_iff_exists.1 (hm k data.length)
    rw [hb]
    dsimp only
    rw [hwk.transform buf s (hh _ _ _ hb)]
    dsimp only
    rw [dryCompress_ok t hv]
    dsimp only
    rw [dryLoop_ok hwk hh hm level rest (k + 1) (t.make _) hv]
    simp [Tape.make]

/-- If all calls of a thread end well, it has compressed everything. -/
theorem calls_complete (hs : DrySetting s D T B) {i : Nat} {p : Path} {b : Buf} (hp : s.entries[i]? = some p)
    (hb : Found s.os s.files s.format p b) (hl : Ample s.lib) (he : Estimates s.lib s.opts.getEstimateAlgorithm s.opts.getEstimateLevel)
    (hm : ∀ k n, (s.heap i k n).isSome) (hset : Settles (s.codec i) (textureOf b)) (v : Nat → Option Nat) (hv : ∀ k, v k ≠ none)
    {l : List Call} (h : calls s i v = some l) : .compress (textureOf b) s.opts.getLevel .zstandard ∈ l ∧
      ∀ e ∈ (s.codec i).scenarios, .compress (T (textureOf b) e.2) s.opts.getLevel .zstandard ∈ l := by
  obtain ⟨hwk, hw⟩ := hs.works i p b hp hb
  rw [calls_found hs hp hb] at h
  unfold dryTexture at h
  obtain ⟨buf, hbuf⟩ := Option.isSome_iff_exists.1 (hm 0 (textureOf b).length)
  obtain ⟨t1, best, h1⟩ := dryBest_ok hw hset hl he (hs.heap i _ _ _ hbuf) ⟨v, []⟩ hv
  obtain ⟨t1', r1, h1', g1⟩ := dryBest_total (P := fun _ => True) hw (fun _ _ _ => trivial) s.lib s.opts.getEstimateLevel
    s.opts.getEstimateAlgorithm (some buf) (fun b hb => by cases hb; exact hs.heap i _ _ _ hbuf) ⟨v, []⟩
  rw [h1] at h1'
  obtain ⟨rfl, rfl⟩ := Prod.mk.inj (Option.some.inj h1')
  have hv1 : ∀ k, t1.view k ≠ none := by rw [g1.1]; exact hv
  rw [hbuf, h1, hs.algorithm] at h
  dsimp only at h
  rw [dryLoop_ok hwk (hs.heap i) hm _ _ _ _ hv1] at h
  dsimp only at h
  rw [dryCompress_ok _ (by exact hv1)] at h
  simp only [Option.map_some, Option.some.injEq, Tape.make] at h
  subst h
  refine ⟨by simp, fun e he => ?_⟩
  simp only [List.map_cons, List.mem_append, List.mem_cons, List.mem_map]
  exact .inl (.inr (.inr ⟨e, he, rfl⟩))

/-- The file of a call. -/
def HasFile (s : Setup S) (files : List Char → Option Buf) : Call → Prop
  | .size _ _ _ => True
  | .compress d l a => files (fileName ⟨s.hash d, l, a⟩) ≠ none

/-- Where the file of a call is there. -/
def FileThere (s : Setup S) (files : List Char → Option Buf) (c : Call) : Pc → Prop
  | .opening => HasFile s files c
  | .reading _ => HasFile s files c
  | .writing _ _ => HasFile s files c
  | .recording _ => HasFile s files c
  | .done r => outcome r ≠ none ∧ HasFile s files c
  | _ => True

theorem HasFile.mono {s : Setup S} {files files' : List Char → Option Buf} (h : ∀ n, files n ≠ none → files' n ≠ none) {c : Call}
    (hc : HasFile s files c) : HasFile s files' c := by
  cases c with
  | size => trivial
  | compress => exact h _ hc

theorem FileThere.mono {s : Setup S} {files files' : List Char → Option Buf} (h : ∀ n, files n ≠ none → files' n ≠ none) {c : Call}
    {pc : Pc} (hc : FileThere s files c pc) : FileThere s files' c pc := by
  cases pc with
  | opening => exact HasFile.mono h hc
  | reading => exact HasFile.mono h hc
  | writing => exact HasFile.mono h hc
  | recording => exact HasFile.mono h hc
  | done r => exact ⟨hc.1, hc.2.mono h⟩
  | _ => trivial

theorem local_files {hash : Buf → BitVec 128} {c : Call} {sh sh' : Shared} {pc pc' : Pc} (h : Local hash c sh pc sh' pc') :
    ∀ n, sh.files n ≠ none → sh'.files n ≠ none := by
  intro n hn
  cases h with
  | create => dsimp only [setFile]; split <;> simp [hn]
  | write => dsimp only [setFile]; split <;> simp [hn]
  | _ => exact hn

theorem local_there {s : Setup S} {c : Call} {sh sh' : Shared} {pc pc' : Pc} (h : Local s.hash c sh pc sh' pc') (ho : NoErrors pc pc')
    (hc : FileThere s sh.files c pc) : FileThere s sh'.files c pc' := by
  cases h with
  | hit => exact ⟨by simp [outcome], trivial⟩
  | store => exact ⟨by simp [outcome], trivial⟩
  | estimatorFails => exact absurd rfl ho
  | present hf =>
    simp only [FileThere, HasFile, hf]
    simp
  | openOk => exact hc
  | openFails => exact absurd rfl ho
  | read => exact hc
  | readEnd => exact ⟨by simp [outcome], hc⟩
  | readFails => exact absurd rfl ho
  | compressorFails => exact absurd rfl ho
  | makeDirFails => exact ho.elim
  | createFails => exact ho.elim
  | create => simp [FileThere, HasFile, setFile_same]
  | write => simp [FileThere, HasFile, setFile_same]
  | writeEnd => exact hc
  | writeFails => exact hc
  | record => exact ⟨by simp [outcome], hc⟩
  | _ => trivial

/-- Without errors, every call that has ended has its file and has ended well. -/
theorem ended_well {sizes : Sizes} {files : List Char → Option Buf} {st : DryRun.State} (h : Reached s NoErrors sizes files st) (i : Nat) :
    (∀ e ∈ (st.threads i).past, outcome e.2 ≠ none ∧ HasFile s st.shared.files e.1) ∧
      ∀ c pc, (st.threads i).now = some (c, pc) → FileThere s st.shared.files c pc := by
  induction h generalizing i with
  | start => exact ⟨by simp, by simp⟩
  | @step st st' h hstep ih =>
    cases hstep with
    | @call j view l c hj hn hv hl hc =>
      by_cases hij : i = j
      · subst hij
        rw [State.set_same]
        refine ⟨(ih i).1, fun c' pc' hc' => ?_⟩
        cases hc'
        cases c <;> trivial
      · rw [State.set_other _ hij]
        exact ih i
    | @work j c pc pc' sh' hn hloc hr ho =>
      have hmono := local_files hloc
      by_cases hij : i = j
      · subst hij
        rw [State.set_same]
        refine ⟨fun e he => ⟨((ih i).1 e he).1, ((ih i).1 e he).2.mono hmono⟩, fun c' pc'' hc' => ?_⟩
        cases hc'
        exact local_there hloc ho ((ih i).2 _ _ hn)
      · rw [State.set_other _ hij]
        exact ⟨fun e he => ⟨((ih i).1 e he).1, ((ih i).1 e he).2.mono hmono⟩, fun c' pc'' hc' => ((ih i).2 _ _ hc').mono hmono⟩
    | @back j c r hn =>
      by_cases hij : i = j
      · subst hij
        rw [State.set_same]
        refine ⟨fun e he => ?_, fun _ _ h => nomatch h⟩
        rcases List.mem_append.1 he with he | he
        · exact (ih i).1 e he
        · simp only [List.mem_singleton] at he
          subst he
          exact (ih i).2 _ _ hn
      · rw [State.set_other _ hij]
        exact ih i

/-- When the dry run is over and nothing has failed, the cache has a file for everything that will be compressed with given settings. -/
theorem dry_populated (hs : DrySetting s D T B) {sizes : Sizes} {files : List Char → Option Buf} {st : DryRun.State}
    (h : Reached s NoErrors sizes files st) (hfin : Finished s st) {p : Path} {b : Buf} (hp : p ∈ s.entries)
    (hb : Found s.os s.files s.format p b) (hl : Ample s.lib) (he : Estimates s.lib s.opts.getEstimateAlgorithm s.opts.getEstimateLevel)
    (hm : ∀ i k n, (s.heap i k n).isSome) (hset : ∀ i, Settles (s.codec i) (textureOf b)) :
    st.shared.files (fileName ⟨s.hash (textureOf b), s.opts.getLevel, .zstandard⟩) ≠ none ∧
      ∃ i, ∀ e ∈ (s.codec i).scenarios, st.shared.files (fileName ⟨s.hash (T (textureOf b) e.2), s.opts.getLevel, .zstandard⟩) ≠ none := by
  obtain ⟨i, hi⟩ := List.getElem?_of_mem hp
  obtain ⟨view, l, h1, h2, h3⟩ := hfin.all i (List.getElem?_eq_some_iff.1 hi).1
  have hw := (ended_well h i).1
  let v : Nat → Option Nat := fun k => if k < (st.threads i).past.length then view k else some 0
  have hv : ∀ k, v k ≠ none := by
    intro k
    dsimp only [v]
    split
    · rename_i hk
      have hk' := List.getElem?_eq_getElem hk
      rw [h1 k _ _ hk']
      exact (hw _ (List.mem_of_getElem? hk')).1
    · simp
  obtain ⟨l', hl', _⟩ := calls_total hs i v
  have hll : l = l' := by
    rcases calls_agree hs i (n := (st.threads i).past.length) (v := view) (v' := v) (fun m hm => by simp [v, hm]) h2 hl' with h | h
    · exact h
    · have := h.1; omega
  subst hll
  have hpre := made_prefix hs h i view l h1 h2
  have hcm : callsMade (st.threads i) = (st.threads i).past.map Prod.fst := by simp [callsMade, hfin.idle i]
  have heq : (st.threads i).past.map Prod.fst = l := by
    rw [hcm] at hpre
    exact hpre.eq_of_length (by simp [h3])
  have hfile : ∀ c ∈ l, HasFile s st.shared.files c := by
    intro c hc
    rw [← heq] at hc
    obtain ⟨e, he1, rfl⟩ := List.mem_map.1 hc
    exact (hw e he1).2
  obtain ⟨h4, h5⟩ := calls_complete hs hi hb hl he (hm i) (hset i) v hv hl'
  exact ⟨hfile _ h4, i, fun e he1 => hfile _ (h5 e he1)⟩

end

end Dlt.Props
