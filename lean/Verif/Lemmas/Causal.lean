import Verif.Model.StatsCommand
/-! What a thread of compression-stats does next depends only on what it has seen so far, and it makes a limited number of accesses. -/

namespace Dlt.StatsCommand

open Dlt.Cache Dlt.DebugIo Dlt.DebugStats

variable {S V K α β : Type}

/-- The two lists have more than `n` elements, of which the first `n + 1` are the same. -/
def Parted {A : Type} (n : Nat) (l l' : List A) : Prop := n < l.length ∧ n < l'.length ∧ l.take (n + 1) = l'.take (n + 1)

theorem Parted.mono {A : Type} {n : Nat} {l l' k k' : List A} (h : Parted n l l') (hk : l <+: k) (hk' : l' <+: k') : Parted n k k' := by
  obtain ⟨h1, h2, h3⟩ := h
  obtain ⟨x, rfl⟩ := hk
  obtain ⟨x', rfl⟩ := hk'
  refine ⟨by simp; omega, by simp; omega, ?_⟩
  rw [List.take_append_of_le_length (by omega), List.take_append_of_le_length (by omega), h3]

/-- A part of a thread: it makes at most `B` accesses, and as long as two of its runs have seen the same, they do the same. -/
structure Causal (B : Nat) (f : Tape V K → Option (Tape V K × α)) : Prop where
  grows : ∀ t t' x, f t = some (t', x) → t'.view = t.view ∧ t.log <+: t'.log ∧ t'.log.length ≤ t.log.length + B
  agree : ∀ n t u t' u' x y, t.log = u.log → (∀ m, m < n → t.view m = u.view m) → f t = some (t', x) → f u = some (u', y) →
    (t'.log = u'.log ∧ x = y) ∨ Parted n t'.log u'.log

theorem Causal.mono {B C : Nat} {f : Tape V K → Option (Tape V K × α)} (h : Causal B f) (hBC : B ≤ C) : Causal C f :=
  ⟨fun t t' x hx => ⟨(h.grows t t' x hx).1, (h.grows t t' x hx).2.1, Nat.le_trans (h.grows t t' x hx).2.2 (by omega)⟩, h.agree⟩

theorem Causal.ret (x : α) : Causal (V := V) (K := K) 0 (fun t => some (t, x)) where
  grows t t' y h := by cases h; exact ⟨rfl, List.prefix_refl _, Nat.le_refl _⟩
  agree n t u t' u' y z hl hv h h' := by cases h; cases h'; exact .inl ⟨hl, rfl⟩

theorem Causal.fail : Causal (V := V) (K := K) (α := α) 0 (fun _ => none) where
  grows t t' y h := nomatch h
  agree n t u t' u' y z hl hv h h' := nomatch h

theorem Causal.bind {B C : Nat} {f : Tape V K → Option (Tape V K × α)} {g : α → Tape V K → Option (Tape V K × β)} (hf : Causal B f)
    (hg : ∀ x, Causal C (g x)) : Causal (B + C) (fun t => (f t).bind fun r => g r.2 r.1) where
  grows t t'' y h := by
    rcases hft : f t with _ | ⟨t', x⟩
    · rw [hft] at h; exact nomatch h
    rw [hft, Option.bind_some] at h
    dsimp only at h
    obtain ⟨a1, a2, a3⟩ := hf.grows _ _ _ hft
    obtain ⟨b1, b2, b3⟩ := (hg x).grows _ _ _ h
    exact ⟨b1.trans a1, a2.trans b2, by omega⟩
  agree n t u t'' u'' y z hl hv h h' := by
    rcases hft : f t with _ | ⟨t', x⟩
    · rw [hft] at h; exact nomatch h
    rcases hfu : f u with _ | ⟨u', x'⟩
    · rw [hfu] at h'; exact nomatch h'
    rw [hft, Option.bind_some] at h
    rw [hfu, Option.bind_some] at h'
    dsimp only at h h'
    rcases hf.agree n t u t' u' x x' hl hv hft hfu with ⟨e1, e2⟩ | hs
    · subst e2
      refine (hg x).agree n t' u' t'' u'' y z e1 ?_ h h'
      intro m hm
      rw [(hf.grows _ _ _ hft).1, (hf.grows _ _ _ hfu).1]
      exact hv m hm
    · exact .inr (hs.mono ((hg x).grows _ _ _ h).2.1 ((hg x').grows _ _ _ h').2.1)

theorem Causal.congr {B : Nat} {f g : Tape V K → Option (Tape V K × α)} (h : Causal B f) (e : ∀ t, g t = f t) : Causal B g := by
  rwa [show g = f from funext e]

theorem Causal.map {B : Nat} {f : Tape V K → Option (Tape V K × α)} (h : Causal B f) (k : α → β) :
    Causal B (fun t => (f t).map fun r => (r.1, k r.2)) :=
  (h.bind (C := 0) (g := fun x t => some (t, k x)) fun x => .ret (k x)).congr fun t => by rcases f t with _ | r <;> rfl

/-- Something that does not touch the cache comes first. -/
theorem Causal.first {B : Nat} {γ : Type} {o : Option γ} {g : γ → Tape V K → Option (Tape V K × α)} (h : ∀ x, Causal B (g x)) :
    Causal B (fun t => o.bind fun x => g x t) := by
  rcases o with _ | x
  · exact Causal.fail.mono (Nat.zero_le _)
  · exact h x

/-- An access that gets an answer. -/
theorem Causal.access (a : K) (k : V → α) : Causal 1 (fun t => some (t.make a, k (t.view t.log.length))) where
  grows t t' y h := by
    cases h
    exact ⟨rfl, List.prefix_append _ _, by simp [Tape.make]⟩
  agree n t u t' u' y z hl hv h h' := by
    cases h; cases h'
    by_cases hn : t.log.length < n
    · left
      refine ⟨by simp [Tape.make, hl], ?_⟩
      rw [← hl, hv _ hn]
    · right
      refine ⟨by simp [Tape.make]; omega, by simp [Tape.make, ← hl]; omega, ?_⟩
      simp [Tape.make, hl]

theorem Causal.get (k : Key) : Causal (V := Sizes) (K := Access S) 1 (fun t => some (SharedCache.get t k)) := .access (Access.get k) fun c : Sizes => c.get k

theorem Causal.insert (k : Key) (n : Nat) : Causal (V := Sizes) (K := Access S) 1 (fun t => some (SharedCache.insert t k n, ())) :=
  .access (Access.insert k n) fun _ => ()

/-! ## The parts of the analysis -/

/-- An access that looks up a size, and, if there is none, computes it without touching the cache and enters it. -/
theorem Causal.lookup (k : Key) (r : Except CliError Nat) : Causal (V := Sizes) (K := Access S) (α := Except CliError Nat) 2 (fun t => some (match SharedCache.get t k with
    | (t, some n) => (t, .ok n)
    | (t, none) => match r with
      | .error e => (t, .error e)
      | .ok n => (SharedCache.insert t k n, .ok n))) := by
  have hg : ∀ x : Option Nat, Causal (V := Sizes) (K := Access S) (α := Except CliError Nat) 1 (fun t => match x with
      | some n => some (t, .ok n)
      | none => match r with
        | .error e => some (t, .error e)
        | .ok n => some (SharedCache.insert t k n, .ok n)) := by
    rintro (_ | n)
    · rcases r with e | n
      · exact (Causal.ret _).mono (by omega)
      · exact (Causal.insert k n).map fun _ => (.ok n : Except CliError Nat)
    · exact (Causal.ret _).mono (by omega)
  refine ((Causal.get k).bind hg).congr fun t => ?_
  dsimp only [Option.bind_some]
  rcases SharedCache.get t k with ⟨t', _ | n⟩
  · rcases r with e | n <;> rfl
  · rfl

theorem calcSizeCached_causal (env : Env) (lib : Lib) (hash : Buf → BitVec 128) (level : BitVec 32) (a : Algorithm) (d : Buf) :
    Causal (V := Sizes) (K := Access S) 2 (fun t => some (calcSizeCached env lib hash level a t d)) :=
  (Causal.lookup ⟨hash d, level, a⟩ (calcSize env lib d level a)).congr fun t => by
    unfold calcSizeCached
    rcases SharedCache.get t (⟨hash d, level, a⟩ : Key) with ⟨t', _ | n⟩
    · dsimp only
      rcases calcSize env lib d level a with e | n <;> rfl
    · rfl

/-- An estimator that makes at most `B` accesses per question. -/
structure CausalEstimator {E : Type} (B : Nat) (est : Estimator (Tape V K) E) : Prop where
  maxSize : ∀ len, Causal 0 (fun t => some (est.maxSize t len))
  estimate : ∀ d n, Causal B (fun t => some (est.estimate t d n))

theorem cachedEstimator_causal (hash : Buf → BitVec 128) (level : BitVec 32) (a : Algorithm) (inner : Estimator Unit CliError) :
    CausalEstimator (V := Sizes) (K := Access S) 2 (cachedEstimator hash level a inner) where
  maxSize len := .ret _
  estimate d n := (Causal.lookup ⟨hash d, level, a⟩ (inner.estimate () d n).2).congr fun t => by
    unfold cachedEstimator
    dsimp only
    rcases SharedCache.get t (⟨hash d, level, a⟩ : Key) with ⟨t', _ | n⟩
    · dsimp only
      rcases (inner.estimate () d n).2 with e | n <;> rfl
    · rfl

theorem analyzeTransforms_causal {A : Nat} (c : Codec S) (size : Tape V K → Buf → Tape V K × Except CliError Nat)
    (hsize : ∀ d, Causal A (fun t => some (size t d))) (data : Buf) : ∀ (l : List S) (buf : Buf),
    Causal (A * l.length) (fun t => analyzeTransforms c size data l buf t)
  | [], buf => (Causal.ret (Except.ok [])).mono (Nat.zero_le _)
  | s :: rest, buf => by
    have hg : ∀ (buf : Buf) (x : Except CliError Nat), Causal (V := V) (K := K) (α := Except CliError (List (TransformResult S))) (A * rest.length)
        (fun t => match x with
          | .error e => some (t, .error e)
          | .ok n => (analyzeTransforms c size data rest buf t).map fun r => (r.1, r.2.map fun rs => ⟨s, n⟩ :: rs)) := by
      intro buf x
      rcases x with e | n
      · exact (Causal.ret _).mono (Nat.zero_le _)
      · exact (analyzeTransforms_causal c size hsize data rest buf).map fun r => r.map fun rs => (⟨s, n⟩ : TransformResult S) :: rs
    refine ((Causal.first (o := c.transform data buf data.length s) fun buf => (hsize buf).bind (hg buf)).mono ?_).congr ?_
    · rw [List.length_cons, Nat.mul_succ]; omega
    · intro t
      rw [analyzeTransforms]
      rcases c.transform data buf data.length s with _ | buf
      · rfl
      · dsimp only [Option.bind_eq_bind, Option.bind_some]
        rcases size t buf with ⟨t', e | n⟩
        · rfl
        · dsimp only
          rcases analyzeTransforms c size data rest buf t' with _ | ⟨t'', e | rs⟩ <;> rfl

/-! ## The search -/

/-- The result of a search with the state in front. -/
def front {γ : Type} (r : γ × Tape V K × α) : Tape V K × (γ × α) := (r.2.1, (r.1, r.2.2))

section
variable {C E : Type}

theorem loop_causal {A : Nat} (transform : Buf → C → Option Buf) (measure : Tape V K → Buf → Tape V K × Except E Nat)
    (hm : ∀ d, Causal A (fun t => some (measure t d))) : ∀ (order : List C) (out : Buf) (best : C) (bs : Nat) (last : C),
    Causal (A * order.length) (fun t => (Auto.loop transform measure order out t best bs last).map front)
  | [], out, best, bs, last => (Causal.ret (out, Except.ok (best, last))).mono (Nat.zero_le _)
  | cur :: rest, out, best, bs, last => by
    have hg : ∀ (out : Buf) (x : Except E Nat), Causal (V := V) (K := K) (α := Buf × Except E (C × C)) (A * rest.length) (fun t => match x with
        | .error e => some (t, (out, .error e))
        | .ok n => if n < bs then (Auto.loop transform measure rest out t cur n cur).map front
          else (Auto.loop transform measure rest out t best bs cur).map front) := by
      intro out x
      rcases x with e | n
      · exact (Causal.ret _).mono (Nat.zero_le _)
      · by_cases hn : n < bs
        · simp only [if_pos hn]; exact loop_causal transform measure hm rest out cur n cur
        · simp only [if_neg hn]; exact loop_causal transform measure hm rest out best bs cur
    refine ((Causal.first (o := transform out cur) fun out => (hm out).bind (hg out)).mono ?_).congr ?_
    · rw [List.length_cons, Nat.mul_succ]; omega
    · intro t
      rw [Auto.loop]
      rcases transform out cur with _ | out
      · rfl
      · dsimp only [Option.bind_eq_bind, Option.bind_some]
        rcases measure t out with ⟨t', e | n⟩
        · rfl
        · dsimp only
          split <;> rfl

theorem search_causal [DecidableEq C] {A : Nat} (env : Env) (order : List C) (dflt : C) (transform : Buf → C → Option Buf)
    (measure : Tape V K → Buf → Tape V K × Except E Nat) (hm : ∀ d, Causal A (fun t => some (measure t d))) (out : Buf) :
    Causal (A * order.length) (fun t => (Auto.search env order dflt transform measure out t).map front) := by
  have hg : ∀ x : Buf × Except E (C × C), Causal (V := V) (K := K) (α := Buf × Except (DetermineBestError E) C) 0 (fun t => match x with
      | (out, .error e) => some (t, (out, .error (.sizeEstimation e)))
      | (out, .ok (best, last)) => if best ≠ last then (transform out best).bind fun out => some (t, (out, .ok best))
        else some (t, (out, .ok best))) := by
    rintro ⟨out, e | ⟨best, last⟩⟩
    · exact .ret _
    · by_cases hb : best ≠ last
      · simp only [if_pos hb]; exact .first fun out => .ret _
      · simp only [if_neg hb]; exact .ret _
  refine ((loop_causal transform measure hm order out dflt env.usizeMax dflt).bind hg).congr fun t => ?_
  unfold Auto.search
  rcases Auto.loop transform measure order out t dflt env.usizeMax dflt with _ | ⟨out, t', e | ⟨best, last⟩⟩
  · rfl
  · rfl
  · dsimp only [Option.bind_eq_bind, Option.bind_some, Option.map_some, front]
    split
    · rcases transform out best <;> rfl
    · rfl

theorem prepare_causal {B : Nat} (env : Env) (est : Estimator (Tape V K) E) (len : Nat) (hmax : Causal 0 (fun t => some (est.maxSize t len)))
    (out : Buf) (body : Nat → Tape V K → Option (Buf × Tape V K × Except (DetermineBestError E) C))
    (hb : ∀ k, Causal B (fun t => (body k t).map front)) : Causal B (fun t => (Auto.prepare env est len out t body).map front) := by
  have hg : ∀ x : Except E Nat, Causal (V := V) (K := K) (α := Buf × Except (DetermineBestError E) C) B (fun t => match x with
      | .error e => some (t, (out, .error (.sizeEstimation e)))
      | .ok k => if k = 0 then (body 0 t).map front
        else if env.canAlloc k then (body k t).map front else some (t, (out, .error .allocate))) := by
    rintro (e | k)
    · exact (Causal.ret _).mono (Nat.zero_le _)
    · by_cases h0 : k = 0
      · simp only [if_pos h0]; exact hb 0
      · by_cases hk : env.canAlloc k = true
        · simp only [if_neg h0, if_pos hk]; exact hb k
        · simp only [if_neg h0, if_neg hk]; exact (Causal.ret _).mono (Nat.zero_le _)
  refine ((hmax.bind hg).mono (by omega)).congr fun t => ?_
  unfold Auto.prepare
  dsimp only [Option.bind_some]
  rcases est.maxSize t len with ⟨t', e | k⟩
  · rfl
  · dsimp only
    split
    · rfl
    · split <;> rfl

end

/-- A format whose search makes at most `B` accesses. -/
def CausalCodec (B : Nat) (c : Codec S) : Prop :=
  ∀ {V K : Type} (est : Estimator (Tape V K) CliError), CausalEstimator 2 est → ∀ data out len,
    Causal B (fun t => (c.auto est data out len t).map front)

theorem order1_length (useAll : Bool) : (Bc1.testOrder useAll).length ≤ 8 := by cases useAll <;> decide

theorem order2_length (useAll : Bool) : (Bc2.testOrder useAll).length ≤ 8 := by cases useAll <;> decide

theorem order3_length (useAll : Bool) : (Bc3.testOrder useAll).length ≤ 16 := by cases useAll <;> decide

theorem transformAuto1_causal (env : Env) (m : Machine) (useAll : Bool) {E : Type} (est : Estimator (Tape V K) E) (h : CausalEstimator 2 est)
    (data out : Buf) (len : Nat) : Causal 16 (fun t => (Bc1.transformAuto env m est useAll data out len t).map front) := by
  refine prepare_causal env est _ (h.maxSize _) out _ fun k => ?_
  exact (search_causal env _ _ _ _ (fun d => h.estimate _ _) out).mono (by have := order1_length useAll; omega)

theorem bc1_causal (env : Env) (m : Machine) (useAll : Bool) : CausalCodec 16 (DebugStats.bc1 env m useAll) :=
  fun est h data out len => transformAuto1_causal env m useAll est h data out len

theorem bc2_causal (env : Env) (m : Machine) (useAll : Bool) : CausalCodec 16 (DebugStats.bc2 env m useAll) := by
  intro V K est h data out len
  refine prepare_causal env est _ (h.maxSize _) out _ fun k => ?_
  exact (search_causal env _ _ _ _ (fun d => h.estimate _ _) out).mono (by have := order2_length useAll; omega)

theorem bc3_causal (env : Env) (m : Machine) (useAll : Bool) : CausalCodec 64 (DebugStats.bc3 env m useAll) := by
  intro V K est h data out len
  refine prepare_causal env est _ (h.maxSize _) out _ fun k => ?_
  refine (search_causal (A := 4) env _ _ _ _ (fun d => ?_) out).mono (by have := order3_length useAll; omega)
  have hg : ∀ x : Except CliError Nat, Causal (V := V) (K := K) (α := Except CliError Nat) 2 (fun t => match x with
      | .error e => some (t, .error e)
      | .ok alpha => (some (est.estimate t (slice d (len / 2) (len / 16 * 4)) k)).map fun r =>
        (r.1, r.2.map fun colour => (alpha + colour) % (env.usizeMax + 1))) := by
    rintro (e | alpha)
    · exact (Causal.ret _).mono (Nat.zero_le _)
    · exact (h.estimate _ _).map fun r => r.map fun colour => (alpha + colour) % (env.usizeMax + 1)
  refine ((h.estimate (slice d 0 (len / 16 * 2)) k).bind hg).congr fun t => ?_
  unfold Bc3.measure
  dsimp only [Option.bind_some]
  rcases est.estimate t (slice d 0 (len / 16 * 2)) k with ⟨t', e | alpha⟩
  · rfl
  · dsimp only
    rcases est.estimate t' (slice d (len / 2) (len / 16 * 4)) k with ⟨t'', e | colour⟩ <;> rfl

section
open Norm.Bc1
variable {E : Type}

theorem testLoop_causal {A : Nat} (m : Machine) (est : Estimator (Tape V K) E) (h : CausalEstimator A est) (len comp : Nat) :
    ∀ (cs : List (Details × Buf)) (work : Buf) (best : Details) (bs : Nat),
    Causal (A * cs.length) (fun t => (testLoop m est len comp cs work t best bs).map front)
  | [], work, best, bs => (Causal.ret (work, best)).mono (Nat.zero_le _)
  | (cur, input) :: rest, work, best, bs => by
    have hg : ∀ (work : Buf) (x : Except E Nat), Causal (V := V) (K := K) (α := Buf × Details) (A * rest.length) (fun t => match x with
        | .error _ => (testLoop m est len comp rest work t best bs).map front
        | .ok n => if n < bs then (testLoop m est len comp rest work t cur n).map front
          else (testLoop m est len comp rest work t best bs).map front) := by
      intro work x
      rcases x with e | n
      · exact testLoop_causal m est h len comp rest work best bs
      · by_cases hn : n < bs
        · simp only [if_pos hn]; exact testLoop_causal m est h len comp rest work cur n
        · simp only [if_neg hn]; exact testLoop_causal m est h len comp rest work best bs
    refine ((Causal.first (o := prepareVariant m input work len cur) fun work =>
      (h.estimate (slice work 0 (len / 2)) comp).bind (hg work)).mono ?_).congr ?_
    · rw [List.length_cons, Nat.mul_succ]; omega
    · intro t
      rw [testLoop]
      rcases prepareVariant m input work len cur with _ | work
      · rfl
      · dsimp only [Option.bind_eq_bind, Option.bind_some]
        rcases est.estimate t (slice work 0 (len / 2)) comp with ⟨t', e | n⟩
        · rfl
        · dsimp only
          split <;> rfl

theorem candidates_length (useAll : Bool) (a b c : Buf) : (candidates useAll [a, b, c]).length ≤ 24 := by
  cases useAll <;> simp [candidates, Norm.Mode.all, Bc1.testOrder, Bc1.fastOrder, Bc1.fullOrder]

theorem autoBody_causal (h : Norm.Bc1.Heap) (m : Machine) (est : Estimator (Tape V K) E) (he : CausalEstimator 2 est) (useAll : Bool)
    (inp out : Buf) (len comp : Nat) : Causal 48 (fun t => (autoBody h m est useAll inp out len comp t).map front) := by
  unfold autoBody
  rcases allModes (.separate inp) [h.buf 0 len, h.buf 1 len, h.buf 2 len] len with _ | ⟨bufs, any⟩
  · exact Causal.fail.mono (Nat.zero_le _)
  dsimp only [Option.bind_eq_bind, Option.bind_some]
  by_cases hany : any = true
  · simp only [if_pos hany]
    by_cases h4 : (h.canAlloc 4 len && h.canAlloc 5 len && h.canAlloc 6 len) = true
    · simp only [if_pos h4]
      rcases bufs[0]? with _ | b0
      · exact Causal.fail.mono (Nat.zero_le _)
      rcases bufs[1]? with _ | b1
      · exact Causal.fail.mono (Nat.zero_le _)
      rcases bufs[2]? with _ | b2
      · exact Causal.fail.mono (Nat.zero_le _)
      dsimp only [Option.bind_some]
      rcases Bc1.stdTransform m b0 (h.buf 4 len) len with _ | s0
      · exact Causal.fail.mono (Nat.zero_le _)
      dsimp only [Option.bind_some]
      rcases Bc1.stdTransform m b1 (h.buf 5 len) len with _ | s1
      · exact Causal.fail.mono (Nat.zero_le _)
      dsimp only [Option.bind_some]
      rcases Bc1.stdTransform m b2 (h.buf 6 len) len with _ | s2
      · exact Causal.fail.mono (Nat.zero_le _)
      dsimp only [Option.bind_some]
      by_cases h7 : h.canAlloc 7 (len / 2) = true
      · simp only [if_pos h7]
        refine (((testLoop_causal m est he len comp (candidates useAll [s0, s1, s2]) (h.buf 7 (len / 2)) .default h.usizeMax).bind
          (C := 0) (g := fun x t => (transformNormalize m inp out x.1 len x.2).bind fun o =>
            some (t, (o.1, (.ok x.2 : Except (DetermineBestError E) Details)))) ?_).mono ?_).congr ?_
        · intro x
          exact .first fun o => .ret _
        · have := candidates_length useAll s0 s1 s2
          omega
        · intro t
          rcases testLoop m est len comp (candidates useAll [s0, s1, s2]) (h.buf 7 (len / 2)) t .default h.usizeMax with _ | ⟨work, t', best⟩
          · rfl
          · dsimp only [Option.bind_some, Option.map_some, front]
            rcases transformNormalize m inp out work len best with _ | ⟨o, w⟩ <;> rfl
      · simp only [if_neg h7]
        exact ((Causal.ret (out, Except.error .allocate)).mono (Nat.zero_le _)).congr fun _ => rfl
    · simp only [if_neg h4]
      exact ((Causal.ret (out, Except.error .allocate)).mono (Nat.zero_le _)).congr fun _ => rfl
  · simp only [if_neg hany]
    refine (((transformAuto1_causal ⟨h.canAlloc 8, h.usizeMax⟩ m useAll est he inp out len).map fun x =>
      (x.1, x.2.map Details.ofSettings)).mono (by omega)).congr fun t => ?_
    rcases Bc1.transformAuto ⟨h.canAlloc 8, h.usizeMax⟩ m est useAll inp out len t with _ | ⟨o, t', r⟩ <;> rfl

theorem autoNormalize_causal (h : Norm.Bc1.Heap) (m : Machine) (est : Estimator (Tape V K) E) (he : CausalEstimator 2 est) (useAll : Bool)
    (inp out : Buf) (len : Nat) : Causal 48 (fun t => (autoNormalize h m est useAll inp out len t).map front) := by
  unfold autoNormalize
  by_cases h0 : (h.canAlloc 0 len && h.canAlloc 1 len && h.canAlloc 2 len) = true
  · simp only [if_pos h0]
    have hg : ∀ x : Except E Nat, Causal (V := V) (K := K) (α := Buf × Except (DetermineBestError E) Details) 48 (fun t => match x with
        | .error e => some (t, (out, .error (.sizeEstimation e)))
        | .ok k => if k = 0 then (autoBody h m est useAll inp out len 0 t).map front
          else if h.canAlloc 3 k then (autoBody h m est useAll inp out len k t).map front else some (t, (out, .error .allocate))) := by
      rintro (e | k)
      · exact (Causal.ret _).mono (Nat.zero_le _)
      · by_cases hk0 : k = 0
        · simp only [if_pos hk0]; exact autoBody_causal h m est he useAll inp out len 0
        · by_cases hk : h.canAlloc 3 k = true
          · simp only [if_neg hk0, if_pos hk]; exact autoBody_causal h m est he useAll inp out len k
          · simp only [if_neg hk0, if_neg hk]; exact (Causal.ret _).mono (Nat.zero_le _)
    refine (((he.maxSize (len / 2)).bind hg).mono (by omega)).congr fun t => ?_
    dsimp only [Option.bind_some]
    rcases est.maxSize t (len / 2) with ⟨t', e | k⟩
    · rfl
    · dsimp only
      split
      · rfl
      · split <;> rfl
  · simp only [if_neg h0]
    exact ((Causal.ret (out, Except.error .allocate)).mono (Nat.zero_le _)).congr fun _ => rfl

end

theorem bc1_normalize_causal (env : Env) (m : Machine) (useAll : Bool) (h : Norm.Bc1.Heap) :
    CausalCodec 48 (DebugBench.bc1 env m useAll (some h)).toCodec := by
  intro V K est he data out len
  refine ((autoNormalize_causal h m est he useAll data out len).map fun x =>
    (x.1, x.2.map fun d => (⟨d.decorr, d.split⟩ : ColourSettings))).congr fun t => ?_
  show ((DebugBench.autoNormalized h m useAll est data out len t).map front) = _
  unfold DebugBench.autoNormalized
  rcases Norm.Bc1.autoNormalize h m est useAll data out len t with _ | ⟨o, t', r⟩ <;> rfl

/-! ## The analysis of a texture -/

theorem determineBest_causal {B : Nat} (c : Codec S) (hc : CausalCodec B c) (lib : Lib) (hash : Buf → BitVec 128) (level : BitVec 32)
    (a : Algorithm) (data : Buf) (buf : Option Buf) : Causal (V := Sizes) (K := Access S) B (fun t => determineBest c lib hash level a data buf t) := by
  unfold determineBest
  rcases createSizeEstimator (σ := Unit) lib a level with e | inner
  · exact (Causal.ret _).mono (Nat.zero_le _)
  rcases buf with _ | buf
  · exact (Causal.ret _).mono (Nat.zero_le _)
  refine ((hc _ (cachedEstimator_causal hash level a inner) data buf data.length).map fun x =>
    x.2.mapError fun _ => CliError.debug "API recommendation failed").congr fun t => ?_
  dsimp only [Option.bind_eq_bind]
  rcases c.auto (cachedEstimator hash level a inner) data buf data.length t with _ | ⟨o, t', r⟩ <;> rfl

/-- The accesses of one analysis. -/
def accessLimit (B : Nat) (c : Codec S) : Nat := 2 * c.all.length + B + 4

section
variable (c : Codec S) (env : Env) (heap : DebugIo.Heap) (lib : Lib) (hash : Buf → BitVec 128) (level : BitVec 32) (a : Algorithm)
  (estLevel : BitVec 32) (estAlg : Algorithm) (data : Buf)

/-- The rest of `analyzeTexture` after the search. -/
def afterSearch (results : List (TransformResult S)) (original : Nat) (x : Except CliError S) (t : StatsTape S) :
    Option (StatsTape S × Except CliError (StatsResult S)) :=
  match x with
  | .error e => some (t, .error e)
  | .ok best => match heap 2 data.length with
    | none => some (t, .error .allocate)
    | some buf => (c.transform data buf data.length best).bind fun buf =>
      (some (calcSizeCached env lib hash level a t buf)).map fun r => (r.1, r.2.map fun n => ⟨data.length, original, results, ⟨best, n⟩⟩)

/-- The rest after the original size. -/
def afterOriginal (results : List (TransformResult S)) (x : Except CliError Nat) (t : StatsTape S) :
    Option (StatsTape S × Except CliError (StatsResult S)) :=
  match x with
  | .error e => some (t, .error e)
  | .ok original => (determineBest c lib hash estLevel estAlg data (heap 1 data.length) t).bind fun r =>
    afterSearch c env heap lib hash level a data results original r.2 r.1

/-- The rest after the transforms. -/
def afterTransforms (x : Except CliError (List (TransformResult S))) (t : StatsTape S) : Option (StatsTape S × Except CliError (StatsResult S)) :=
  match x with
  | .error e => some (t, .error e)
  | .ok results => (some (calcSizeCached env lib hash level a t data)).bind fun r =>
    afterOriginal c env heap lib hash level a estLevel estAlg data results r.2 r.1

end

theorem analyzeTexture_causal {B : Nat} (c : Codec S) (hc : CausalCodec B c) (env : Env) (heap : DebugIo.Heap) (lib : Lib)
    (hash : Buf → BitVec 128) (level : BitVec 32) (a : Algorithm) (estLevel : BitVec 32) (estAlg : Algorithm) (data : Buf) :
    Causal (V := Sizes) (K := Access S) (accessLimit B c) (fun t => analyzeTexture c env heap lib hash level a estLevel estAlg data t) := by
  unfold analyzeTexture
  dsimp only
  rcases heap 0 data.length with _ | buf
  · exact (Causal.ret _).mono (Nat.zero_le _)
  have hsize := calcSizeCached_causal (S := S) env lib hash level a
  have h3 : ∀ results original x, Causal 2 (afterSearch c env heap lib hash level a data results original x) := by
    intro results original x
    rcases x with e | best
    · exact (Causal.ret _).mono (Nat.zero_le _)
    · unfold afterSearch
      dsimp only
      rcases heap 2 data.length with _ | buf
      · exact (Causal.ret (Except.error CliError.allocate)).mono (Nat.zero_le _)
      · exact .first fun buf => (hsize buf).map fun r => r.map fun n => (⟨data.length, original, results, ⟨best, n⟩⟩ : StatsResult S)
  have h2 : ∀ results x, Causal (B + 2) (afterOriginal c env heap lib hash level a estLevel estAlg data results x) := by
    intro results x
    rcases x with e | original
    · exact (Causal.ret _).mono (Nat.zero_le _)
    · exact (determineBest_causal c hc lib hash estLevel estAlg data (heap 1 data.length)).bind (h3 results original)
  have h1 : ∀ x, Causal (2 + (B + 2)) (afterTransforms c env heap lib hash level a estLevel estAlg data x) := by
    intro x
    rcases x with e | results
    · exact (Causal.ret _).mono (Nat.zero_le _)
    · exact (hsize data).bind (h2 results)
  refine (((analyzeTransforms_causal c _ hsize data c.all buf).bind h1).mono ?_).congr ?_
  · unfold accessLimit; omega
  · intro t
    unfold afterTransforms afterOriginal afterSearch
    dsimp only [Option.bind_eq_bind]
    rcases analyzeTransforms c (calcSizeCached env lib hash level a) data c.all buf t with _ | ⟨t, e | results⟩
    · rfl
    · rfl
    dsimp only [Option.bind_some]
    rcases calcSizeCached env lib hash level a t data with ⟨t, e | original⟩
    · rfl
    dsimp only
    rcases determineBest c lib hash estLevel estAlg data (heap 1 data.length) t with _ | ⟨t, e | best⟩
    · rfl
    · rfl
    dsimp only [Option.bind_some]
    rcases heap 2 data.length with _ | buf
    · rfl
    dsimp only
    rcases c.transform data buf data.length best with _ | buf
    · rfl
    dsimp only [Option.bind_some]
    rcases calcSizeCached env lib hash level a t buf with ⟨t, e | n⟩ <;> rfl

end Dlt.StatsCommand
