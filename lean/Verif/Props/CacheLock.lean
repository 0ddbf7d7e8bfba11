import Verif.Model.CacheLock
import Verif.Props.Caches
/-!
# C90: the mutex of the size cache

No two threads are inside the map at the same time unless both only read; the threads never wait for each other for ever; and what
happens is what happens if each critical section is one step, so that C51 holds for executions in which they are not.
-/

namespace Dlt.Cache

/-- Where the call is, if a critical section is one step: it takes place at the end of the access. -/
def FinePc.coarse : FinePc → Pc
  | .outside pc => pc
  | .holding pc => pc
  | .accessing pc => pc
  | .leaving pc => pc

/-- The state with critical sections as steps. -/
def FineState.coarse (s : FineState) : State := ⟨s.shared, s.threads.map fun t => (t.1, t.2.coarse)⟩

/-- Is the call between `lock()` and the drop of the guard? -/
def FinePc.inside : FinePc → Bool
  | .outside _ => false
  | _ => true

end Dlt.Cache

namespace Dlt.Props
open Dlt.Cache

/-- Two threads are inside the map at the same time, and one of them changes it: a data race. -/
def Race (s : FineState) : Prop :=
  ∃ (i j : Nat) (c c' : Call) (pc pc' : Pc), i ≠ j ∧ s.threads[i]? = some (c, .accessing pc) ∧
    s.threads[j]? = some (c', .accessing pc') ∧ pc.writes = true

/-- The call has returned or its thread has panicked. -/
def CallEnded : FinePc → Prop
  | .outside (.done _) => True
  | .outside .panicked => True
  | _ => False

/-- The call waits at a `lock()`. -/
def WaitsForLock : FinePc → Prop
  | .outside pc => pc.locks = true
  | _ => False

/-- Thread `i` makes a step. -/
def StepOf (hash : Buf → BitVec 128) (i : Nat) (s s' : FineState) : Prop :=
  FineStep hash s s' ∧ ∃ (c : Call) (pc pc' : FinePc), s.threads[i]? = some (c, pc) ∧ s'.threads = s.threads.set i (c, pc')

/-- The places of a call that it can get to. -/
def PcFits : Call → Pc → Bool
  | .size _ _ _, .lookup => true
  | .size _ _ _, .estimating => true
  | .size _ _ _, .storing _ => true
  | .size _ _ _, .done _ => true
  | .size _ _ _, _ => false
  | .compress _ _ _, .lookup => false
  | .compress _ _ _, .estimating => false
  | .compress _ _ _, .storing _ => false
  | .compress _ _ _, _ => true

theorem fits_local {hash : Buf → BitVec 128} {c : Call} {sh sh' : Shared} {pc pc' : Pc} (h : Local hash c sh pc sh' pc') :
    PcFits c pc' = true := by cases h <;> rfl

/-- A place where a call does not end has a step. -/
theorem local_exists (hash : Buf → BitVec 128) (c : Call) (sh : Shared) (pc : Pc) (h : PcFits c pc = true) (he : ¬ CallEnded (.outside pc)) :
    ∃ sh' pc', Local hash c sh pc sh' pc' := by
  cases c with
  | size d l a =>
    cases pc <;> simp only [PcFits, CallEnded, Bool.false_eq_true, not_true_eq_false] at h he
    · rcases hg : sh.sizes.get ⟨hash d, l, a⟩ with _ | n
      · exact ⟨_, _, .miss hg⟩
      · exact ⟨_, _, .hit hg⟩
    · exact ⟨_, _, .estimatorFails⟩
    · exact ⟨_, _, .store⟩
  | compress d l a =>
    cases pc <;> simp only [PcFits, CallEnded, Bool.false_eq_true, not_true_eq_false] at h he
    · rcases hg : sh.files (fileName ⟨hash d, l, a⟩) with _ | b
      · exact ⟨_, _, .absent hg⟩
      · exact ⟨_, _, .present hg⟩
    · exact ⟨_, _, .openFails⟩
    · exact ⟨_, _, .readFails⟩
    · cases ha : a.supportsCompress
      · exact ⟨_, _, .unsupported ha⟩
      · exact ⟨_, _, .compressorFails ha⟩
    · exact ⟨_, _, .makeDirFails⟩
    · exact ⟨_, _, .createFails⟩
    · exact ⟨_, _, .writeFails⟩
    · exact ⟨_, _, .record⟩

structure LockInv (s : FineState) : Prop where
  /-- who is inside has the lock -/
  holder : ∀ (i : Nat) (c : Call) (pc : FinePc), s.threads[i]? = some (c, pc) → pc.inside = true → s.lock = some i
  /-- the lock is held by one who is inside -/
  held : ∀ i : Nat, s.lock = some i → ∃ (c : Call) (pc : FinePc), s.threads[i]? = some (c, pc) ∧ pc.inside = true
  fits : ∀ (i : Nat) (c : Call) (pc : FinePc), s.threads[i]? = some (c, pc) → PcFits c pc.coarse = true
  locks : ∀ (i : Nat) (c : Call) (pc : Pc), s.threads[i]? = some (c, .holding pc) ∨ s.threads[i]? = some (c, .accessing pc) → pc.locks = true

theorem lockInv_initial (sizes : Sizes) (files : List Char → Option Buf) : LockInv (fineInitial sizes files) := by
  constructor <;> simp [fineInitial]

theorem getElem?_set_cases {α : Type} {l : List α} {i j : Nat} {a b : α} (h : (l.set i a)[j]? = some b) :
    (i = j ∧ a = b ∧ i < l.length) ∨ (i ≠ j ∧ l[j]? = some b) := by
  rw [List.getElem?_set] at h
  split at h
  · split at h
    · exact .inl ⟨by assumption, by simpa using h, by assumption⟩
    · simp at h
  · exact .inr ⟨by assumption, h⟩

theorem lt_of_getElem? {α : Type} {l : List α} {i : Nat} {a : α} (h : l[i]? = some a) : i < l.length := by
  rcases Nat.lt_or_ge i l.length with h' | h'
  · exact h'
  · rw [List.getElem?_eq_none h'] at h
    simp at h

theorem lockInv_step {hash : Buf → BitVec 128} {s s' : FineState} (hi : LockInv s) (h : FineStep hash s s') : LockInv s' := by
  cases h with
  | start c =>
    have old : ∀ (j : Nat) (d : Call) (pc : FinePc), (s.threads ++ [(c, FinePc.outside c.begin)])[j]? = some (d, pc) →
        s.threads[j]? = some (d, pc) ∨ (d = c ∧ pc = .outside c.begin) := by
      intro j d pc hj
      rcases Nat.lt_or_ge j s.threads.length with h | h
      · rw [List.getElem?_append_left h] at hj
        exact .inl hj
      · rw [List.getElem?_append_right h] at hj
        rcases hk : j - s.threads.length with _ | k
        · rw [hk] at hj
          simp only [List.getElem?_cons_zero, Option.some.injEq, Prod.mk.injEq] at hj
          exact .inr ⟨hj.1.symm, hj.2.symm⟩
        · rw [hk] at hj
          simp at hj
    constructor
    · intro j d pc hj hin
      rcases old j d pc hj with h | ⟨rfl, rfl⟩
      · exact hi.holder j d pc h hin
      · simp [FinePc.inside] at hin
    · intro j hj
      obtain ⟨d, pc, h1, h2⟩ := hi.held j hj
      exact ⟨d, pc, by rw [List.getElem?_append_left (lt_of_getElem? h1)]; exact h1, h2⟩
    · intro j d pc hj
      rcases old j d pc hj with h | ⟨rfl, rfl⟩
      · exact hi.fits j d pc h
      · cases d <;> rfl
    · intro j d pc hj
      rcases hj with hj | hj
      · rcases old j d _ hj with h | ⟨_, h⟩
        · exact hi.locks j d pc (.inl h)
        · cases h
      · rcases old j d _ hj with h | ⟨_, h⟩
        · exact hi.locks j d pc (.inr h)
        · cases h
  | @work i c pc sh' pc' hpcs hpc hl =>
    have hout : s.lock ≠ some i := fun he => by
      obtain ⟨d, p, h1, h2⟩ := hi.held i he
      rw [hpcs] at h1
      cases h1
      simp [FinePc.inside] at h2
    constructor
    · intro j d p hj hin
      rcases getElem?_set_cases hj with ⟨rfl, he, _⟩ | ⟨_, hj⟩
      · cases he
        simp [FinePc.inside] at hin
      · exact hi.holder j d p hj hin
    · intro j hj
      obtain ⟨d, p, h1, h2⟩ := hi.held j hj
      refine ⟨d, p, ?_, h2⟩
      rw [List.getElem?_set_ne (fun e : i = j => hout (by rw [e]; exact hj))]
      exact h1
    · intro j d p hj
      rcases getElem?_set_cases hj with ⟨rfl, he, _⟩ | ⟨_, hj⟩
      · cases he
        exact fits_local hl
      · exact hi.fits j d p hj
    · intro j d p hj
      rcases hj with hj | hj <;> rcases getElem?_set_cases hj with ⟨_, he, _⟩ | ⟨_, hj⟩
      · cases he
      · exact hi.locks j d p (.inl hj)
      · cases he
      · exact hi.locks j d p (.inr hj)
  | @acquire i c pc hpcs hpc hfree =>
    constructor
    · intro j d p hj hin
      rcases getElem?_set_cases hj with ⟨rfl, _, _⟩ | ⟨_, hj⟩
      · rfl
      · rw [hi.holder j d p hj hin] at hfree
        cases hfree
    · intro j hj
      cases hj
      exact ⟨c, .holding pc, List.getElem?_set_self (lt_of_getElem? hpcs), rfl⟩
    · intro j d p hj
      rcases getElem?_set_cases hj with ⟨rfl, he, _⟩ | ⟨_, hj⟩
      · cases he
        exact (hi.fits i c _ hpcs :)
      · exact hi.fits j d p hj
    · intro j d p hj
      rcases hj with hj | hj <;> rcases getElem?_set_cases hj with ⟨_, he, _⟩ | ⟨_, hj⟩
      · cases he
        exact hpc
      · exact hi.locks j d p (.inl hj)
      · cases he
      · exact hi.locks j d p (.inr hj)
  | @enter i c pc hpcs =>
    have hown := hi.holder i c _ hpcs rfl
    constructor
    · intro j d p hj hin
      rcases getElem?_set_cases hj with ⟨rfl, _, _⟩ | ⟨_, hj⟩
      · exact hown
      · exact hi.holder j d p hj hin
    · intro j hj
      rw [hown] at hj
      cases hj
      exact ⟨c, .accessing pc, List.getElem?_set_self (lt_of_getElem? hpcs), rfl⟩
    · intro j d p hj
      rcases getElem?_set_cases hj with ⟨rfl, he, _⟩ | ⟨_, hj⟩
      · cases he
        exact (hi.fits i c _ hpcs :)
      · exact hi.fits j d p hj
    · intro j d p hj
      rcases hj with hj | hj <;> rcases getElem?_set_cases hj with ⟨_, he, _⟩ | ⟨_, hj⟩
      · cases he
      · exact hi.locks j d p (.inl hj)
      · cases he
        exact hi.locks i c pc (.inl hpcs)
      · exact hi.locks j d p (.inr hj)
  | @access i c pc sh' pc' hpcs hl =>
    have hown := hi.holder i c _ hpcs rfl
    constructor
    · intro j d p hj hin
      rcases getElem?_set_cases hj with ⟨rfl, _, _⟩ | ⟨_, hj⟩
      · exact hown
      · exact hi.holder j d p hj hin
    · intro j hj
      have hj : s.lock = some j := hj
      rw [hown] at hj
      cases hj
      exact ⟨c, .leaving pc', List.getElem?_set_self (lt_of_getElem? hpcs), rfl⟩
    · intro j d p hj
      rcases getElem?_set_cases hj with ⟨rfl, he, _⟩ | ⟨_, hj⟩
      · cases he
        exact fits_local hl
      · exact hi.fits j d p hj
    · intro j d p hj
      rcases hj with hj | hj <;> rcases getElem?_set_cases hj with ⟨_, he, _⟩ | ⟨_, hj⟩
      · cases he
      · exact hi.locks j d p (.inl hj)
      · cases he
      · exact hi.locks j d p (.inr hj)
  | @release i c pc hpcs =>
    have hown := hi.holder i c _ hpcs rfl
    constructor
    · intro j d p hj hin
      rcases getElem?_set_cases hj with ⟨rfl, he, _⟩ | ⟨hne, hj⟩
      · cases he
        simp [FinePc.inside] at hin
      · have := hi.holder j d p hj hin
        rw [hown] at this
        cases this
        exact absurd rfl hne
    · intro j hj
      cases hj
    · intro j d p hj
      rcases getElem?_set_cases hj with ⟨rfl, he, _⟩ | ⟨_, hj⟩
      · cases he
        exact (hi.fits i c _ hpcs :)
      · exact hi.fits j d p hj
    · intro j d p hj
      rcases hj with hj | hj <;> rcases getElem?_set_cases hj with ⟨_, he, _⟩ | ⟨_, hj⟩
      · cases he
      · exact hi.locks j d p (.inl hj)
      · cases he
      · exact hi.locks j d p (.inr hj)

theorem lockInv_steps {hash : Buf → BitVec 128} {s s' : FineState} (h : FineSteps hash s s') (hi : LockInv s) : LockInv s' := by
  induction h with
  | refl => exact hi
  | tail _ hs ih => exact lockInv_step ih hs

/-- **C90**, no data race: in no execution are two threads inside the map at the same time, one of them changing it.  Moreover at most one
thread is in a critical section. -/
theorem C90_no_race (hash : Buf → BitVec 128) (loaded : Sizes) (files : List Char → Option Buf) (s : FineState)
    (h : FineSteps hash (fineInitial loaded files) s) :
    ¬ Race s ∧ ∀ (i j : Nat) (c d : Call) (pc pc' : FinePc), s.threads[i]? = some (c, pc) → s.threads[j]? = some (d, pc') →
      pc.inside = true → pc'.inside = true → i = j := by
  have hi := lockInv_steps h (lockInv_initial loaded files)
  have one : ∀ (i j : Nat) (c d : Call) (pc pc' : FinePc), s.threads[i]? = some (c, pc) → s.threads[j]? = some (d, pc') →
      pc.inside = true → pc'.inside = true → i = j := by
    intro i j c d pc pc' h1 h2 h3 h4
    have e := hi.holder i c pc h1 h3
    rw [hi.holder j d pc' h2 h4] at e
    exact (Option.some.inj e).symm
  refine ⟨?_, one⟩
  rintro ⟨i, j, c, c', pc, pc', hne, h1, h2, _⟩
  exact hne (one i j c c' _ _ h1 h2 rfl rfl)

/-- The same state with another map. -/
def FineState.withMap (s : FineState) (m : Sizes) : FineState := { s with shared := { s.shared with sizes := m } }

theorem local_blind {hash : Buf → BitVec 128} {c : Call} {sh sh' : Shared} {pc pc' : Pc} (h : Local hash c sh pc sh' pc')
    (hl : pc.locks = false) : sh'.sizes = sh.sizes ∧ ∀ m, Local hash c { sh with sizes := m } pc { sh' with sizes := m } pc' := by
  cases h with
  | hit => simp [Pc.locks] at hl
  | miss => simp [Pc.locks] at hl
  | estimated => exact ⟨rfl, fun _ => .estimated⟩
  | estimatorFails => exact ⟨rfl, fun _ => .estimatorFails⟩
  | store => simp [Pc.locks] at hl
  | present h => exact ⟨rfl, fun _ => .present h⟩
  | absent h => exact ⟨rfl, fun _ => .absent h⟩
  | openOk => exact ⟨rfl, fun _ => .openOk⟩
  | openFails => exact ⟨rfl, fun _ => .openFails⟩
  | read h hm hb => exact ⟨rfl, fun _ => .read h hm hb⟩
  | readEnd h hb => exact ⟨rfl, fun _ => .readEnd h hb⟩
  | readFails => exact ⟨rfl, fun _ => .readFails⟩
  | compressed ha => exact ⟨rfl, fun _ => .compressed ha⟩
  | compressorFails ha => exact ⟨rfl, fun _ => .compressorFails ha⟩
  | unsupported ha => exact ⟨rfl, fun _ => .unsupported ha⟩
  | madeDir => exact ⟨rfl, fun _ => .madeDir⟩
  | makeDirFails => exact ⟨rfl, fun _ => .makeDirFails⟩
  | create => exact ⟨rfl, fun _ => .create⟩
  | createFails => exact ⟨rfl, fun _ => .createFails⟩
  | write h hm ho => exact ⟨rfl, fun _ => .write h hm ho⟩
  | writeEnd ho => exact ⟨rfl, fun _ => .writeEnd ho⟩
  | writeFails => exact ⟨rfl, fun _ => .writeFails⟩
  | record => simp [Pc.locks] at hl

/-- **C90**, all accesses are guarded: a step of any execution is either made by the holder of the lock inside of an access, or it neither changes the
map nor depends on what is in it. -/
theorem C90_guarded (hash : Buf → BitVec 128) (loaded : Sizes) (files : List Char → Option Buf) (s s' : FineState)
    (h : FineSteps hash (fineInitial loaded files) s) (hs : FineStep hash s s') :
    (∃ (i : Nat) (c : Call) (pc : Pc), s.lock = some i ∧ s.threads[i]? = some (c, .accessing pc) ∧ StepOf hash i s s') ∨
      (s'.shared.sizes = s.shared.sizes ∧ ∀ m, FineStep hash (FineState.withMap s m) (FineState.withMap s' m)) := by
  have hi := lockInv_steps h (lockInv_initial loaded files)
  cases hs with
  | start c => exact .inr ⟨rfl, fun m => .start (s := FineState.withMap s m) c⟩
  | work i hpc hl hs =>
    obtain ⟨h1, h2⟩ := local_blind hs hl
    exact .inr ⟨h1, fun m => .work (s := FineState.withMap s m) i hpc hl (h2 m)⟩
  | acquire i hpc hl hf => exact .inr ⟨rfl, fun m => .acquire (s := FineState.withMap s m) i hpc hl hf⟩
  | enter i hpc => exact .inr ⟨rfl, fun m => .enter (s := FineState.withMap s m) i hpc⟩
  | access i hpc hs => exact .inl ⟨i, _, _, hi.holder _ _ _ hpc rfl, hpc, .access i hpc hs, _, _, _, hpc, rfl⟩
  | release i hpc => exact .inr ⟨rfl, fun m => .release (s := FineState.withMap s m) i hpc⟩

theorem map_set_self {α β : Type} (f : α → β) (l : List α) (i : Nat) (a b : α) (h : l[i]? = some a) (hf : f b = f a) :
    (l.set i b).map f = l.map f := by
  rw [List.map_set]
  apply List.ext_getElem?
  intro j
  rw [List.getElem?_set]
  split
  · subst_vars
    rw [List.getElem?_map, h]
    simp [lt_of_getElem? h, hf]
  · rfl

theorem coarse_step {hash : Buf → BitVec 128} {s s' : FineState} (h : FineStep hash s s') :
    s'.coarse = s.coarse ∨ Step hash s.coarse s'.coarse := by
  have get : ∀ (i : Nat) (c : Call) (pc : FinePc), s.threads[i]? = some (c, pc) → s.coarse.threads[i]? = some (c, pc.coarse) := by
    intro i c pc hi
    simp only [FineState.coarse, List.getElem?_map, hi, Option.map_some]
  cases h with
  | start c =>
    right
    have := Step.start (hash := hash) (s := s.coarse) c
    simpa only [FineState.coarse, List.map_append, List.map_cons, List.map_nil, FinePc.coarse] using this
  | @work i c pc sh' pc' hi hpc hl =>
    right
    have := Step.work (hash := hash) (s := s.coarse) i (get i c _ hi) hl
    simpa only [FineState.coarse, List.map_set, FinePc.coarse] using this
  | @acquire i c pc hi hpc hfree =>
    left
    simp only [FineState.coarse]
    rw [map_set_self (fun t : Call × FinePc => (t.1, t.2.coarse)) s.threads i _ (c, .holding pc) hi rfl]
  | @enter i c pc hi =>
    left
    simp only [FineState.coarse]
    rw [map_set_self (fun t : Call × FinePc => (t.1, t.2.coarse)) s.threads i _ (c, .accessing pc) hi rfl]
  | @access i c pc sh' pc' hi hl =>
    right
    have := Step.work (hash := hash) (s := s.coarse) i (get i c _ hi) hl
    simpa only [FineState.coarse, List.map_set, FinePc.coarse] using this
  | @release i c pc hi =>
    left
    simp only [FineState.coarse]
    rw [map_set_self (fun t : Call × FinePc => (t.1, t.2.coarse)) s.threads i _ (c, .outside pc) hi rfl]

/-- **C90**, critical sections as steps: what the threads share, and where each call is, is what it is after some execution in which each critical
section is one step. -/
theorem C90_atomic (hash : Buf → BitVec 128) (loaded : Sizes) (files : List Char → Option Buf) (s : FineState)
    (h : FineSteps hash (fineInitial loaded files) s) : Steps hash (initial loaded files) s.coarse := by
  induction h with
  | refl => exact .refl _
  | tail _ hs ih =>
    rcases coarse_step hs with he | hs
    · rw [he]
      exact ih
    · exact .tail ih hs

theorem fine_step_exists (hash : Buf → BitVec 128) {s : FineState} (hi : LockInv s) (i : Nat) (c : Call) (pc : FinePc)
    (h : s.threads[i]? = some (c, pc)) (he : ¬ CallEnded pc) (hw : WaitsForLock pc → s.lock = none) : ∃ s', StepOf hash i s s' := by
  cases pc with
  | outside p =>
    cases hp : p.locks with
    | true => exact ⟨_, .acquire i h hp (hw hp), c, _, _, h, rfl⟩
    | false =>
      obtain ⟨sh', p', hl⟩ := local_exists hash c s.shared p (hi.fits i c _ h) he
      exact ⟨_, .work i h hp hl, c, _, _, h, rfl⟩
  | holding p => exact ⟨_, .enter i h, c, _, _, h, rfl⟩
  | accessing p =>
    have hl := hi.locks i c p (.inr h)
    obtain ⟨sh', p', hl⟩ := local_exists hash c s.shared p (hi.fits i c _ h) (by cases p <;> simp [Pc.locks, CallEnded] at hl ⊢)
    exact ⟨_, .access i h hl, c, _, _, h, rfl⟩
  | leaving p => exact ⟨_, .release i h, c, _, _, h, rfl⟩

/-- **C90**, no deadlock: a call that has not ended can make a step itself, unless it waits for the lock and another thread has it; then that
thread can make one. -/
theorem C90_no_deadlock (hash : Buf → BitVec 128) (loaded : Sizes) (files : List Char → Option Buf) (s : FineState)
    (h : FineSteps hash (fineInitial loaded files) s) (i : Nat) (c : Call) (pc : FinePc) (hc : s.threads[i]? = some (c, pc))
    (he : ¬ CallEnded pc) : (∃ s', StepOf hash i s s') ∨ (WaitsForLock pc ∧ ∃ j s', j ≠ i ∧ s.lock = some j ∧ StepOf hash j s s') := by
  have hi := lockInv_steps h (lockInv_initial loaded files)
  rcases hl : s.lock with _ | j
  · exact .inl (fine_step_exists hash hi i c pc hc he fun _ => hl)
  · by_cases hw : WaitsForLock pc
    · right
      obtain ⟨d, p, h1, h2⟩ := hi.held j hl
      have hp : ¬ CallEnded p ∧ ¬ WaitsForLock p := by cases p <;> simp [FinePc.inside, CallEnded, WaitsForLock] at h2 ⊢
      obtain ⟨s', hs⟩ := fine_step_exists hash hi j d p h1 hp.1 fun h => absurd h hp.2
      refine ⟨hw, j, s', ?_, rfl, hs⟩
      rintro rfl
      rw [hc] at h1
      cases h1
      exact hp.2 hw
    · exact .inl (fine_step_exists hash hi i c pc hc he fun h => absurd h hw)

/-- `n` steps of thread `i`. -/
inductive StepsOf (hash : Buf → BitVec 128) (i : Nat) : Nat → FineState → FineState → Prop where
  | refl (s) : StepsOf hash i 0 s s
  | head {n a b c} : StepOf hash i a b → StepsOf hash i n b c → StepsOf hash i (n + 1) a c

theorem release_after (hash : Buf → BitVec 128) (i : Nat) (c : Call) : ∀ (k : Nat) (s : FineState) (pc : FinePc), LockInv s →
    s.threads[i]? = some (c, pc) → pc.inside = true → k = (match pc with | .holding _ => 3 | .accessing _ => 2 | _ => 1) →
    ∃ s', StepsOf hash i k s s' ∧ s'.lock = none := by
  have leave : ∀ (s : FineState) (p : Pc), s.threads[i]? = some (c, .leaving p) → ∃ s', StepsOf hash i 1 s s' ∧ s'.lock = none := by
    intro s p h
    exact ⟨_, .head ⟨.release i h, c, _, _, h, rfl⟩ (.refl _), rfl⟩
  have acc : ∀ (s : FineState) (p : Pc), LockInv s → s.threads[i]? = some (c, .accessing p) →
      ∃ s', StepsOf hash i 2 s s' ∧ s'.lock = none := by
    intro s p hi h
    have hl := hi.locks i c p (.inr h)
    obtain ⟨sh', p', hl⟩ := local_exists hash c s.shared p (hi.fits i c _ h) (by cases p <;> simp [Pc.locks, CallEnded] at hl ⊢)
    have hs : FineStep hash s ⟨sh', s.lock, s.threads.set i (c, .leaving p')⟩ := .access i h hl
    obtain ⟨s', h1, h2⟩ := leave ⟨sh', s.lock, s.threads.set i (c, .leaving p')⟩ p' (List.getElem?_set_self (lt_of_getElem? h))
    exact ⟨s', .head ⟨hs, c, _, _, h, rfl⟩ h1, h2⟩
  intro k s pc hi h hin hk
  cases pc with
  | outside p => simp [FinePc.inside] at hin
  | holding p =>
    subst hk
    have hs : FineStep hash s ⟨s.shared, s.lock, s.threads.set i (c, .accessing p)⟩ := .enter i h
    obtain ⟨s', h1, h2⟩ := acc _ p (lockInv_step hi hs) (List.getElem?_set_self (lt_of_getElem? h))
    exact ⟨s', .head ⟨hs, c, _, _, h, rfl⟩ h1, h2⟩
  | accessing p =>
    subst hk
    exact acc s p hi h
  | leaving p =>
    subst hk
    exact leave s p h

/-- **C90**, short critical sections: whoever has the lock gives it back after at most three steps of its own, without waiting for anybody. -/
theorem C90_released (hash : Buf → BitVec 128) (loaded : Sizes) (files : List Char → Option Buf) (s : FineState)
    (h : FineSteps hash (fineInitial loaded files) s) (i : Nat) (hl : s.lock = some i) :
    ∃ n s', n ≤ 3 ∧ StepsOf hash i n s s' ∧ s'.lock = none := by
  have hi := lockInv_steps h (lockInv_initial loaded files)
  obtain ⟨c, pc, h1, h2⟩ := hi.held i hl
  obtain ⟨s', h3, h4⟩ := release_after hash i c _ s pc hi h1 h2 rfl
  refine ⟨_, s', ?_, h3, h4⟩
  split <;> omega

/-- **C90** with C51: also if the steps of critical sections mix with steps of other threads, a returned size is one that the estimator has answered,
the length of what the compressor has produced, or the size that was loaded, for the same content hash, level and algorithm. -/
theorem C90_source (hash : Buf → BitVec 128) (loaded : Sizes) (files : List Char → Option Buf) (s : FineState)
    (h : FineSteps hash (fineInitial loaded files) s) (d : Buf) (l : BitVec 32) (a : Algorithm) (n : Nat)
    (hr : (.size d l a, .outside (.done (.size n))) ∈ s.threads) :
    Estimated hash s.shared.made (hash d) l a n ∨ CompressedTo hash s.shared.made (hash d) l a n ∨ loaded.get ⟨hash d, l, a⟩ = some n :=
  C51_source hash loaded files s.coarse (C90_atomic hash loaded files s h) d l a n
    (List.mem_map.2 ⟨_, hr, rfl⟩)

/-! Cases: the second call looks into the cache while the first one waits to store its answer, and finds nothing; both have to wait in turn. -/

/-- One of the calls is inside `insert`, the other waits. -/
theorem fine_case : ∃ s, FineSteps (fun _ => 7) (fineInitial [] (fun _ => none)) s ∧ s.lock = some 1 ∧
    s.threads = [(.size [1] 3 .zstandard, .outside (.storing 10)), (.size [2] 3 .zstandard, .accessing (.storing 20))] ∧
    s.shared.made = [.estimated [2] 3 .zstandard 20, .estimated [1] 3 .zstandard 10] := by
  refine ⟨_, .tail (.tail (.tail (.tail (.tail (.tail (.tail (.tail (.tail (.tail (.tail (.tail (.tail (.tail (.refl _)
    (.start (.size [1] 3 .zstandard))) (.start (.size [2] 3 .zstandard)))
    (.acquire 0 rfl rfl rfl)) (.enter 0 rfl)) (.access 0 rfl (.miss rfl))) (.release 0 rfl))
    (.work 0 rfl rfl (.estimated (n := 10))))
    (.acquire 1 rfl rfl rfl)) (.enter 1 rfl)) (.access 1 rfl (.miss rfl))) (.release 1 rfl))
    (.work 1 rfl rfl (.estimated (n := 20))))
    (.acquire 1 rfl rfl rfl)) (.enter 1 rfl), rfl, rfl, rfl⟩

/-- Without the lock there would be a race: the same calls, each at the place before its `insert`. -/
example : ∃ s : FineState, Race s ∧ s.lock = some 1 :=
  ⟨⟨⟨[], fun _ => none, []⟩, some 1, [(.size [1] 3 .zstandard, .accessing (.storing 10)), (.size [2] 3 .zstandard, .accessing (.storing 20))]⟩,
    ⟨0, 1, _, _, _, _, by decide, rfl, rfl, rfl⟩, rfl⟩

end Dlt.Props
