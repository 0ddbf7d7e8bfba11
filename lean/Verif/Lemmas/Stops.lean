import Verif.Props.DryRunCommands
/-! A thread of the dry run makes no calls after one of those in `F` has failed. -/

namespace Dlt.Props

open Dlt.Cache Dlt.DebugIo Dlt.DebugStats Dlt.DebugBench Dlt.DryRun
open Dlt.Dds Dlt.FileFormats Dlt.FileIo Dlt.FileIo.Prog Dlt.Cli
open Dlt.StatsCommand (Tape front)

variable {α β S : Type} {F : Call → Prop}

/-- None of the calls in `F` so far has failed. -/
def NoneFailed (F : Call → Prop) (t : DryTape) : Prop := ∀ m x, t.log[m]? = some x → F x → t.view m ≠ none

/-- A part of a thread that begins when no call in `F` has failed: if one fails, it is the last, and the result `x` does not satisfy `ok`. -/
def StopsWith (F : Call → Prop) (ok : α → Prop) (f : DryTape → Option (DryTape × α)) : Prop :=
  ∀ t t' x, NoneFailed F t → f t = some (t', x) → t'.view = t.view ∧ (ok x → NoneFailed F t') ∧
    ∀ m y, t'.log[m]? = some y → F y → t'.view m = none → m + 1 = t'.log.length

theorem NoneFailed.vacuous {t : DryTape} (h : NoneFailed F t) : ∀ m y, t.log[m]? = some y → F y → t.view m = none → m + 1 = t.log.length :=
  fun m y hm hy hn => absurd hn (h m y hm hy)

theorem StopsWith.ret (ok : α → Prop) (x : α) : StopsWith F ok (fun t => some (t, x)) := by
  intro t t' y ht h
  cases h
  exact ⟨rfl, fun _ => ht, ht.vacuous⟩

theorem StopsWith.fail (ok : α → Prop) : StopsWith F ok (fun _ => none) := fun _ _ _ _ h => nomatch h

/-- If the first part has failed, the second does nothing. -/
theorem StopsWith.bind {ok : α → Prop} {ok' : β → Prop} {f : DryTape → Option (DryTape × α)} {g : α → DryTape → Option (DryTape × β)}
    (hf : StopsWith F ok f) (hg : ∀ x, ok x → StopsWith F ok' (g x)) (hn : ∀ x, ¬ ok x → ∃ y, ¬ ok' y ∧ ∀ t, g x t = some (t, y)) :
    StopsWith F ok' (fun t => (f t).bind fun r => g r.2 r.1) := by
  intro t t'' y ht h
  dsimp only at h
  rcases hft : f t with _ | ⟨t', x⟩
  · rw [hft] at h; exact nomatch h
  rw [hft, Option.bind_some] at h
  dsimp only at h
  obtain ⟨a1, a2, a3⟩ := hf t t' x ht hft
  by_cases hx : ok x
  · obtain ⟨b1, b2, b3⟩ := hg x hx t' t'' y (a2 hx) h
    exact ⟨b1.trans a1, b2, b3⟩
  · obtain ⟨z, hz, he⟩ := hn x hx
    rw [he] at h
    cases h
    exact ⟨a1, fun hy => absurd hy hz, a3⟩

theorem StopsWith.congr {ok : α → Prop} {f g : DryTape → Option (DryTape × α)} (h : StopsWith F ok f) (e : ∀ t, g t = f t) : StopsWith F ok g := by
  rwa [show g = f from funext e]

theorem StopsWith.map {ok : α → Prop} {ok' : β → Prop} {f : DryTape → Option (DryTape × α)} (h : StopsWith F ok f) (k : α → β)
    (hk : ∀ x, ok' (k x) → ok x) : StopsWith F ok' (fun t => (f t).map fun r => (r.1, k r.2)) := by
  intro t t' y ht hy
  obtain ⟨⟨u, x⟩, h1, h2⟩ := Option.map_eq_some_iff.1 hy
  cases h2
  obtain ⟨a1, a2, a3⟩ := h t _ x ht h1
  exact ⟨a1, fun ho => a2 (hk x ho), a3⟩

theorem StopsWith.first {γ : Type} {ok : α → Prop} {o : Option γ} {g : γ → DryTape → Option (DryTape × α)} (h : ∀ x, StopsWith F ok (g x)) :
    StopsWith F ok (fun t => o.bind fun x => g x t) := by
  rcases o with _ | x
  · exact .fail ok
  · exact h x

/-- The result is not an error. -/
def Fine {E A : Type} (x : Except E A) : Prop := ∃ a, x = .ok a

theorem not_fine {E A : Type} (e : E) : ¬ Fine (.error e : Except E A) := fun ⟨_, h⟩ => nomatch h

/-- One call. -/
theorem StopsWith.ask (c : Call) : StopsWith F (fun r => r ≠ none) (fun t => some (dryAsk t c)) := by
  intro t t' x ht h
  cases h
  have hlog : (t.make c).log = t.log ++ [c] := rfl
  refine ⟨rfl, fun hx m y hm hy => ?_, fun m y hm hy hn => ?_⟩
  · rw [hlog] at hm
    by_cases hlt : m < t.log.length
    · rw [List.getElem?_append_left hlt] at hm
      exact ht m y hm hy
    · have : m = t.log.length := by
        have := (List.getElem?_eq_some_iff.1 hm).1
        simp at this
        omega
      subst this
      exact hx
  · rw [hlog] at hm ⊢
    by_cases hlt : m < t.log.length
    · rw [List.getElem?_append_left hlt] at hm
      exact absurd hn (ht m y hm hy)
    · have := (List.getElem?_eq_some_iff.1 hm).1
      simp at this ⊢
      omega

theorem estimator_stops (level : BitVec 32) (a : Algorithm) (inner : Estimator Unit CliError) (d : Buf) (k : Nat) :
    StopsWith F Fine (fun t => some ((estimator level a inner).estimate t d k)) := by
  refine ((StopsWith.ask (.size d level a)).map (fun x : Option Nat => match x with
    | some n => (.ok n : Except CliError Nat)
    | none => .error (.debug "estimation failed")) ?_).congr fun t => ?_
  · rintro (_ | n) h
    · exact absurd h (not_fine _)
    · simp
  · unfold estimator
    dsimp only [Option.map_some]
    rcases dryAsk t (.size d level a) with ⟨t', _ | n⟩ <;> rfl

theorem dryCompress_stops (x : Buf) (level : BitVec 32) (a : Algorithm) : StopsWith F Fine (fun t => some (dryCompress x level a t)) := by
  refine ((StopsWith.ask (.compress x level a)).map (fun x : Option Nat => match x with
    | some _ => (.ok () : Except CliError Unit)
    | none => .error (.debug "compression failed")) ?_).congr fun t => ?_
  · rintro (_ | n) h
    · exact absurd h (not_fine _)
    · simp
  · unfold dryCompress
    dsimp only [Option.map_some]
    rcases dryAsk t (.compress x level a) with ⟨t', _ | n⟩ <;> rfl

/-! ## The search -/

section
variable {C E : Type}

theorem loop_stops (transform : Buf → C → Option Buf) (measure : DryTape → Buf → DryTape × Except E Nat)
    (hm : ∀ d, StopsWith F Fine (fun t => some (measure t d))) : ∀ (order : List C) (out : Buf) (best : C) (bs : Nat) (last : C),
    StopsWith F (fun x => Fine x.2) (fun t => (Auto.loop transform measure order out t best bs last).map front)
  | [], out, best, bs, last => .ret _ (out, Except.ok (best, last))
  | cur :: rest, out, best, bs, last => by
    refine (StopsWith.first (o := transform out cur) fun out => (hm out).bind (g := fun x t => match x with
        | .error e => some (t, (out, .error e))
        | .ok n => if n < bs then (Auto.loop transform measure rest out t cur n cur).map front
          else (Auto.loop transform measure rest out t best bs cur).map front) ?_ ?_).congr ?_
    · rintro x ⟨n, rfl⟩
      by_cases hn : n < bs
      · simp only [if_pos hn]; exact loop_stops transform measure hm rest out cur n cur
      · simp only [if_neg hn]; exact loop_stops transform measure hm rest out best bs cur
    · rintro (e | n) h
      · exact ⟨_, not_fine e, fun _ => rfl⟩
      · exact absurd ⟨n, rfl⟩ h
    · intro t
      rw [Auto.loop]
      rcases transform out cur with _ | out
      · rfl
      · dsimp only [Option.bind_eq_bind, Option.bind_some]
        rcases measure t out with ⟨t', e | n⟩
        · rfl
        · dsimp only
          split <;> rfl

theorem search_stops [DecidableEq C] (env : Env) (order : List C) (dflt : C) (transform : Buf → C → Option Buf)
    (measure : DryTape → Buf → DryTape × Except E Nat) (hm : ∀ d, StopsWith F Fine (fun t => some (measure t d))) (out : Buf) :
    StopsWith F (fun x => Fine x.2) (fun t => (Auto.search env order dflt transform measure out t).map front) := by
  refine ((loop_stops transform measure hm order out dflt env.usizeMax dflt).bind (ok' := fun x : Buf × Except (DetermineBestError E) C => Fine x.2)
    (g := fun x t => match x with
      | (out, .error e) => some (t, (out, .error (.sizeEstimation e)))
      | (out, .ok (best, last)) => if best ≠ last then (transform out best).bind fun out => some (t, (out, .ok best))
        else some (t, (out, .ok best))) ?_ ?_).congr fun t => ?_
  · rintro ⟨out, x⟩ ⟨⟨best, last⟩, h⟩
    cases h
    by_cases hb : best ≠ last
    · simp only [if_pos hb]; exact .first fun out => .ret _ _
    · simp only [if_neg hb]; exact .ret _ _
  · rintro ⟨out, e | x⟩ h
    · exact ⟨_, not_fine _, fun _ => rfl⟩
    · exact absurd ⟨x, rfl⟩ h
  · unfold Auto.search
    rcases Auto.loop transform measure order out t dflt env.usizeMax dflt with _ | ⟨out, t', e | ⟨best, last⟩⟩
    · rfl
    · rfl
    · dsimp only [Option.bind_eq_bind, Option.bind_some, Option.map_some, front]
      split
      · rcases transform out best <;> rfl
      · rfl

theorem prepare_stops (env : Env) (est : Estimator DryTape E) (len : Nat) (hmax : ∀ t, (est.maxSize t len).1 = t)
    (out : Buf) (body : Nat → DryTape → Option (Buf × DryTape × Except (DetermineBestError E) C))
    (hb : ∀ k, StopsWith F (fun x => Fine x.2) (fun t => (body k t).map front)) :
    StopsWith F (fun x => Fine x.2) (fun t => (Auto.prepare env est len out t body).map front) := by
  intro t t' x ht h
  unfold Auto.prepare at h
  dsimp only at h
  have hm := hmax t
  rcases hq : est.maxSize t len with ⟨u, e | k⟩ <;> rw [hq] at h hm <;> dsimp only at h hm <;> subst hm
  · exact StopsWith.ret (fun x => Fine x.2) (out, Except.error _) u _ x ht h
  · by_cases h0 : k = 0
    · rw [if_pos h0] at h
      exact hb _ u _ _ ht h
    · rw [if_neg h0] at h
      by_cases hk : env.canAlloc k = true
      · rw [if_pos hk] at h
        exact hb _ u _ _ ht h
      · rw [if_neg hk] at h
        exact StopsWith.ret (fun x => Fine x.2) (out, Except.error _) u _ x ht h

end

/-- The search of this format ends when a call in `F` fails. -/
def SearchStops (F : Call → Prop) (c : BenchCodec S) (data : Buf) : Prop := ∀ (level : BitVec 32) (a : Algorithm) (inner : Estimator Unit CliError) (out : Buf),
  StopsWith F (fun x => Fine x.2) (fun t => (c.auto (estimator level a inner) data out data.length t).map front)

theorem searchStops1 (env : Env) (m : Machine) (useAll : Bool) (data : Buf) : SearchStops F (DebugBench.bc1 env m useAll none) data := by
  intro level a inner out
  exact prepare_stops env _ _ (fun _ => rfl) out _ fun k => search_stops env _ _ _ _ (fun d => estimator_stops level a inner _ _) out

theorem searchStops2 (env : Env) (m : Machine) (useAll : Bool) (data : Buf) : SearchStops F (DebugBench.bc2 env m useAll) data := by
  intro level a inner out
  exact prepare_stops env _ _ (fun _ => rfl) out _ fun k => search_stops env _ _ _ _ (fun d => estimator_stops level a inner _ _) out

theorem searchStops3 (env : Env) (m : Machine) (useAll : Bool) (data : Buf) : SearchStops F (DebugBench.bc3 env m useAll) data := by
  intro level a inner out
  refine prepare_stops env _ _ (fun _ => rfl) out _ fun k => search_stops env _ _ _ _ (fun d => ?_) out
  refine ((estimator_stops level a inner (slice d 0 (data.length / 16 * 2)) k).bind (ok' := Fine) (g := fun x t => match x with
      | .error e => some (t, .error e)
      | .ok alpha => (some ((estimator level a inner).estimate t (slice d (data.length / 2) (data.length / 16 * 4)) k)).map fun r =>
        (r.1, r.2.map fun colour => (alpha + colour) % (env.usizeMax + 1))) ?_ ?_).congr fun t => ?_
  · rintro x ⟨alpha, rfl⟩
    refine (estimator_stops level a inner _ k).map (fun r => r.map fun colour => (alpha + colour) % (env.usizeMax + 1)) ?_
    rintro (e | n) h
    · exact absurd h (not_fine e)
    · exact ⟨n, rfl⟩
  · rintro (e | n) h
    · exact ⟨_, not_fine e, fun _ => rfl⟩
    · exact absurd ⟨n, rfl⟩ h
  · unfold Bc3.measure
    dsimp only [Option.bind_some]
    rcases (estimator level a inner).estimate t (slice d 0 (data.length / 16 * 2)) k with ⟨t', e | alpha⟩
    · rfl
    · dsimp only
      rcases (estimator level a inner).estimate t' (slice d (data.length / 2) (data.length / 16 * 4)) k with ⟨t'', e | colour⟩ <;> rfl

/-- A search makes no calls in `F` if sizes are not in `F`. -/
theorem searchStops_sizes {c : BenchCodec S} {B : Nat} {data : Buf} (hw : DryWorks c B data) (hF : ∀ d l a, ¬ F (.size d l a)) :
    SearchStops F c data := by
  intro level a inner out t t' x ht h
  obtain ⟨⟨o, u, r⟩, h1, h2⟩ := Option.map_eq_some_iff.1 h
  cases h2
  obtain ⟨g1, l, g2, g3⟩ := auto_gone hw (P := fun c => ¬ F c) hF level a inner out t h1
  have hn : NoneFailed F u := by
    intro m y hm hy
    rw [g2] at hm
    by_cases hlt : m < t.log.length
    · rw [List.getElem?_append_left hlt] at hm
      rw [g1]
      exact ht m y hm hy
    · rw [List.getElem?_append_right (by omega)] at hm
      exact absurd hy (g3 y (List.mem_of_getElem? hm))
  exact ⟨g1, fun _ => hn, hn.vacuous⟩

/-! ## One texture -/

section
variable {c : BenchCodec S} {data : Buf}

theorem dryBest_stops (hc : SearchStops F c data) (lib : Lib) (level : BitVec 32) (a : Algorithm) (buf : Option Buf) :
    StopsWith F Fine (fun t => dryBest c.toCodec lib level a data buf t) := by
  unfold dryBest
  rcases createSizeEstimator (σ := Unit) lib a level with e | inner
  · exact .ret _ _
  rcases buf with _ | buf
  · exact .ret _ _
  refine ((hc level a inner buf).map (fun x => x.2.mapError fun _ => CliError.debug "API recommendation failed") ?_).congr fun t => ?_
  · rintro ⟨o, e | b⟩ h
    · exact absurd h (not_fine _)
    · exact ⟨b, rfl⟩
  · dsimp only
    rcases c.auto (estimator level a inner) data buf data.length t with _ | ⟨o, t', r⟩ <;> rfl

theorem dryLoop_stops (heap : Heap) (level : BitVec 32) (a : Algorithm) : ∀ (l : List (String × S)) (k : Nat),
    StopsWith F Fine (fun t => dryLoop c heap level a data l k t)
  | [], k => .ret _ _
  | (name, s) :: rest, k => by
    unfold dryLoop dryScenario
    rcases heap k data.length with _ | buf
    · exact .ret _ (Except.error CliError.allocate)
    dsimp only
    rcases c.transform data buf data.length s with _ | x
    · exact .fail _
    dsimp only
    refine ((dryCompress_stops x level a).bind (ok' := Fine) (g := fun y t => match y with
        | .error e => some (t, .error e)
        | .ok () => dryLoop c heap level a data rest (k + 1) t) ?_ ?_).congr fun t => ?_
    · rintro y ⟨⟨⟩, rfl⟩
      exact dryLoop_stops heap level a rest (k + 1)
    · rintro (e | n) h
      · exact ⟨_, not_fine e, fun _ => rfl⟩
      · exact absurd ⟨n, rfl⟩ h
    · dsimp only [Option.bind_some]
      rcases dryCompress x level a t with ⟨t', e | ⟨⟩⟩ <;> rfl

theorem dryTexture_stops (hc : SearchStops F c data) (heap : Heap) (lib : Lib) (opts : AlgorithmOptions) :
    StopsWith F Fine (fun t => dryTexture c heap lib opts data t) := by
  have h1 : ∀ best, StopsWith F Fine (fun t =>
      (dryLoop c heap opts.getLevel opts.algorithm data (("API Recommended", best) :: c.scenarios) 1 t).bind fun r => match r.2 with
        | .error e => some (r.1, .error e)
        | .ok () => some (dryCompress data opts.getLevel opts.algorithm r.1)) := by
    intro best
    refine (dryLoop_stops heap opts.getLevel opts.algorithm (("API Recommended", best) :: c.scenarios) 1).bind (ok' := Fine) (g := fun y t => match y with
      | .error e => some (t, .error e)
      | .ok () => some (dryCompress data opts.getLevel opts.algorithm t)) ?_ ?_
    · rintro y ⟨⟨⟩, rfl⟩
      exact dryCompress_stops _ _ _
    · rintro (e | n) h
      · exact ⟨_, not_fine e, fun _ => rfl⟩
      · exact absurd ⟨n, rfl⟩ h
  refine ((dryBest_stops hc lib opts.getEstimateLevel opts.getEstimateAlgorithm (heap 0 data.length)).bind (ok' := Fine) (g := fun y t => match y with
      | .error e => some (t, .error e)
      | .ok best => (dryLoop c heap opts.getLevel opts.algorithm data (("API Recommended", best) :: c.scenarios) 1 t).bind fun r => match r.2 with
        | .error e => some (r.1, .error e)
        | .ok () => some (dryCompress data opts.getLevel opts.algorithm r.1)) ?_ ?_).congr fun t => ?_
  · rintro y ⟨best, rfl⟩
    exact h1 best
  · rintro (e | n) h
    · exact ⟨_, not_fine e, fun _ => rfl⟩
    · exact absurd ⟨n, rfl⟩ h
  · unfold dryTexture
    rcases dryBest c.toCodec lib opts.getEstimateLevel opts.getEstimateAlgorithm data (heap 0 data.length) t with _ | ⟨t, e | best⟩
    · rfl
    · rfl
    dsimp only [Option.bind_some]
    rcases dryLoop c heap opts.getLevel opts.algorithm data (("API Recommended", best) :: c.scenarios) 1 t with _ | ⟨t, e | ⟨⟩⟩ <;> rfl

end

end Dlt.Props
