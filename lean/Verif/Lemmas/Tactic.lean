import Verif.Lemmas.Soa
import Verif.Lemmas.Ints
/-! Small tactics for stepping through kernels. -/

namespace Dlt

/-- Step over one load (bounds by `omega`). -/
macro "kld" : tactic => `(tactic|
  (apply Ok.bind
   first
    | refine Ok.ld (by first | omega | (simp only <;> omega)) ?_
    | refine Ok.ld8 (by first | omega | (simp only <;> omega)) ?_
    | refine Ok.ld16 (by first | omega | (simp only <;> omega)) ?_
    | refine Ok.ld32 (by first | omega | (simp only <;> omega)) ?_
    | refine Ok.ld64 (by first | omega | (simp only <;> omega)) ?_))

/-- Step over one store into the part of the target described by `hD`, at relative offset `o`.
Leaves the goal that the stored bytes are the expected ones, then the continuation. -/
macro "kst " ha:ident hD:ident o:term : tactic => `(tactic|
  (apply Ok.bind
   refine Agree.stD $ha $hD (by first | omega | (simp only <;> omega)) (o := $o) (by first | omega | (simp only <;> omega))
      (by first | exact to16_length _ _ | exact to32_length _ _ | exact to64_length _ _ | exact List.length_singleton | rfl)
      (by omega) ?_ ?_
   rotate_left
   clear $ha
   intro out $ha:ident
   rotate_right))

/-- The bytes of a scalar store are the expected ones. -/
macro "kbytes " e:ident : tactic => `(tactic|
  (simp only [List.range_one, List.flatMap_cons, List.flatMap_nil, List.append_nil, Nat.zero_mul,
      Nat.zero_add, to16_of16, to32_of32, to64_of64, to32_onColourPair]
   first
    | rfl
    | (cases $e:ident <;> rfl)))

/-- Step over one vector load at `base + o`. -/
macro "kldv " base:term:max o:term:max : tactic => `(tactic|
  (apply Ok.bind
   refine Ok.ldAt $base $o (by first | rfl | omega | (simp only <;> omega))
     (by first | omega | (simp only <;> omega)) ?_))

open Lean Elab Tactic Meta in
/-- Close `a = b` by `Eq.refl a`, leaving the computation to the kernel alone.  (The elaborator's
own reduction is too slow for the deeper vector shuffles.) -/
elab "krfl" : tactic => do
  let g ← getMainGoal
  let t ← instantiateMVars (← g.getType)
  let some (α, a, _) := t.eq? | throwError "krfl: not an equation"
  if t.hasExprMVar then throwError "krfl: metavariables left"
  let u ← getLevel α
  g.assign (mkApp2 (.const ``Eq.refl [u]) α a)

/-- Step over one vector store of `len` bytes whose bytes are right by computation. -/
macro "kstv " ha:ident hD:ident o:term:max len:term:max : tactic => `(tactic|
  (apply Ok.bind
   refine Agree.stD $ha $hD (by first | omega | (simp only <;> omega)) (o := $o) (len := $len)
      (by first | omega | (simp only <;> omega)) (by krfl) (by omega) (by krfl) ?_
   clear $ha
   intro out $ha:ident))

/-- Finish a loop body: pointers and the done-set. -/
macro "kend " ha:ident : tactic => `(tactic|
  (apply Ok.pure
   repeat (refine ⟨by first | omega | (simp only; omega), ?_⟩)
   refine Agree.mono $ha ?_
   intro x hx hq
   simp only [DoneT, doneCols, DoneU, List.sum_cons, List.sum_nil, or_false, Nat.reduceAdd,
    Nat.zero_add, Nat.add_zero] at hq ⊢
   omega))

/-- Section `j` of the target of a transform, for `N` blocks starting with block `i`. -/
macro "ksec " h:ident j:term:max i:term:max N:term:max hd:ident tail:ident hf:ident hT:ident : tactic => `(tactic|
  (have $h:ident := columns_slice (by omega) $hd $tail (i := $i) (N := $N) (by omega) $j $hf rfl rfl rfl
   rw [← $hT] at $h:ident
   simp only [List.take_succ_cons, List.take_zero, List.sum_cons, List.sum_nil, Nat.mul_zero,
    Nat.zero_add, Nat.add_zero, Nat.one_mul, Nat.reduceAdd, Nat.reduceMul] at $h:ident))

/-- `N` blocks of the target of an untransform, starting with block `i`. -/
macro "kblk " h:ident i:term:max N:term:max tail:ident hl:term:max hg:ident hT:ident : tactic =>
  `(tactic|
  (have $h:ident := unsoa_chunk $tail $hl $hg (i := $i) (N := $N) (by omega)
   rw [← $hT] at $h:ident
   simp only [Nat.one_mul, Nat.reduceMul, chunkFields, Nat.zero_add, ← Nat.mul_add, Nat.reduceAdd] at $h:ident))

end Dlt
