import Verif.Model.Caches
/-!
# The mutex of the size cache

`Model/Caches` treats a critical section of the mutex around the size cache as one step.  Here it is taken apart, for the three places that
lock the mutex: `compression/helpers.rs:130-137`, `compression/helpers.rs:144-152` (and the same sections of
`estimation/mod.rs:157-164` and `estimation/mod.rs:172-180`) and `compression/helpers.rs:78-81`, all of
`/repo/src/tools/dxt-lossless-transform-cli/src/debug_format`.

A thread asks for the lock and waits until nobody has it.  It then begins an access to the `HashMap`, ends it, and drops the guard.  Between the
beginning and the end of an access any number of steps of other threads may happen.  Nothing but the lock keeps two threads from being inside an
access at the same time; that this does not happen is proved, not assumed.

Simplifications: `HashMap::get` and `HashMap::insert` do not panic, so the mutex is never poisoned; an access looks at the map, or changes it, at
its end, which is what it does if no other access overlaps with it.
-/

namespace Dlt.Cache

/-- Is this the place before one of the calls of `lock()`? -/
def Pc.locks : Pc → Bool
  | .lookup => true
  | .storing _ => true
  | .recording _ => true
  | _ => false

/-- Does the access that follows change the map?  compression/helpers.rs:80 and 146, estimation/mod.rs:174. -/
def Pc.writes : Pc → Bool
  | .storing _ => true
  | .recording _ => true
  | _ => false

/-- How far a call has come, with the critical sections in detail. -/
inductive FinePc where
  /-- not in a critical section; at a `Pc` that locks: waiting for the lock -/
  | outside (pc : Pc)
  /-- `lock()` has returned -/
  | holding (pc : Pc)
  /-- inside `get` or `insert` -/
  | accessing (pc : Pc)
  /-- the access is over and the call will go on at `pc`; the guard is not yet dropped -/
  | leaving (pc : Pc)
  deriving DecidableEq, Repr

/-- The state of the process; `lock` is the number of the thread that holds the mutex. -/
structure FineState where
  shared : Shared
  lock : Option Nat
  threads : List (Call × FinePc)

/-- A call begins, or one of the calls makes a step. -/
inductive FineStep (hash : Buf → BitVec 128) : FineState → FineState → Prop where
  | start {s} (c : Call) : FineStep hash s ⟨s.shared, s.lock, s.threads ++ [(c, .outside c.begin)]⟩
  /-- everything outside of the critical sections -/
  | work {s} (i : Nat) {c pc sh' pc'} (hi : s.threads[i]? = some (c, .outside pc)) (hpc : pc.locks = false)
      (h : Local hash c s.shared pc sh' pc') : FineStep hash s ⟨sh', s.lock, s.threads.set i (c, .outside pc')⟩
  /-- `lock()` returns: compression/helpers.rs:79, 131, 145, estimation/mod.rs:158, 173 -/
  | acquire {s} (i : Nat) {c pc} (hi : s.threads[i]? = some (c, .outside pc)) (hpc : pc.locks = true) (hl : s.lock = none) :
      FineStep hash s ⟨s.shared, some i, s.threads.set i (c, .holding pc)⟩
  /-- the call of `get` or `insert` begins -/
  | enter {s} (i : Nat) {c pc} (hi : s.threads[i]? = some (c, .holding pc)) :
      FineStep hash s ⟨s.shared, s.lock, s.threads.set i (c, .accessing pc)⟩
  /-- it returns; what it does is what `Local` says for the critical section -/
  | access {s} (i : Nat) {c pc sh' pc'} (hi : s.threads[i]? = some (c, .accessing pc)) (h : Local hash c s.shared pc sh' pc') :
      FineStep hash s ⟨sh', s.lock, s.threads.set i (c, .leaving pc')⟩
  /-- the guard is dropped at the end of the block or by `return`: compression/helpers.rs:81, 135, 137, 152,
  estimation/mod.rs:162, 164, 180 -/
  | release {s} (i : Nat) {c pc} (hi : s.threads[i]? = some (c, .leaving pc)) :
      FineStep hash s ⟨s.shared, none, s.threads.set i (c, .outside pc)⟩

/-- Any number of steps. -/
inductive FineSteps (hash : Buf → BitVec 128) : FineState → FineState → Prop where
  | refl (s) : FineSteps hash s s
  | tail {a b c} : FineSteps hash a b → FineStep hash b c → FineSteps hash a c

/-- A process that has just started. -/
def fineInitial (sizes : Sizes) (files : List Char → Option Buf) : FineState := ⟨⟨sizes, files, []⟩, none, []⟩

end Dlt.Cache
