import Verif.Model.Cli
import Verif.Lemmas.FileIo
import Mathlib.Data.BitVec
import Mathlib.Algebra.BigOperators.Group.Finset.Basic
import Mathlib.Data.Fintype.Basic
import Mathlib.Tactic.Abel
/-!
# Interleaved file programs

Each program of a batch is compared with a run of it alone, in a world of its own ("shadow").
-/

namespace Dlt.Cli

open Dlt.FileFormats Dlt.FileIo Dlt.FileIo.Prog

variable {α β E : Type}

/-- What a program reads, writes and which directories it makes. -/
structure Area where
  inp : Path
  out : Path
  ds : List Path

/-- The call stays inside the area; the output is created only if its directory is known to exist. -/
def Within (a : Area) (ready : Bool) {β : Type} : Sys Unit β → Prop
  | .openRead p => p = a.inp
  | .size p => p = a.inp
  | .mapRead p _ => p = a.inp
  | .fileLen p => p = a.inp
  | .create p _ => p = a.out ∧ ready = true
  | .mapWrite p _ => p = a.out
  | .store p _ => p = a.out
  | .mkdir p => p ∈ a.ds
  | .add _ => True
  | .call _ => True

/-- After a successful `mkdir` of the directory of the output it is known to exist. -/
def nextReady (a : Area) (ready : Bool) {β : Type} : Sys Unit β → β → Bool
  | .mkdir p, .ok _ => ready || decide (p = a.out.dropLast)
  | _, _ => ready

/-- All calls of the program stay inside the area. -/
def Foot (a : Area) : Bool → Prog Unit α → Prop
  | _, .ret _ => True
  | _, .panic => True
  | r, .op s k => Within a r s ∧ ∀ b, Foot a (nextReady a r s b) (k b)

/-- There is a directory, or one can be made. -/
def dirOk (os : Os) (w : World Unit) (p : Path) : Bool := w.dirs p || ((w.files p).isNone && os.canMkdir p)

/-- The program cannot tell the two worlds apart. -/
structure Alike (os : Os) (a : Area) (ready : Bool) (w s : World Unit) : Prop where
  inp : w.files a.inp = s.files a.inp
  out : w.files a.out = s.files a.out
  notDir : w.dirs a.out = s.dirs a.out
  parent : ready = true → w.dirs a.out.dropLast = true ∧ s.dirs a.out.dropLast = true
  dirs : ∀ q ∈ a.ds, dirOk os w q = dirOk os s q

/-- The areas of two programs that do not get in each other's way. -/
structure Apart (a b : Area) : Prop where
  inp : b.out ≠ a.inp
  out : b.out ≠ a.out
  dirs : b.out ∉ a.ds
  dirs' : a.out ∉ b.ds

theorem dirOk_setFile {os : Os} {w : World Unit} {p q : Path} (h : q ≠ p) (c : Option Buf) :
    dirOk os (w.setFile p c) q = dirOk os w q := by
  simp [dirOk, World.setFile, h]

theorem dirOk_mkdir {os : Os} {w : World Unit} {p q : Path} (h : dirOk os w p = true) :
    dirOk os { w with dirs := fun q => if q = p then true else w.dirs q } q = dirOk os w q := by
  by_cases hq : q = p
  · subst hq; rw [h]; simp [dirOk]
  · simp [dirOk, hq]

theorem exec_mkdir (os : Os) (p : Path) (w : World Unit) :
    exec os (.mkdir p) w = if dirOk os w p then
        ({ w with dirs := fun q => if q = p then true else w.dirs q }, some (.ok ()))
      else (w, some (.error .std)) := by
  unfold exec dirOk
  dsimp only
  by_cases h : w.dirs p
  · rw [if_pos h, if_pos (by simp [h])]
    have : (fun q => if q = p then true else w.dirs q) = w.dirs := by
      funext q
      split
      · next hq => rw [hq]; exact h.symm
      · rfl
    rw [this]
  · rw [if_neg h]
    simp [h]

/-- A panic changes nothing. -/
theorem exec_none {os : Os} {β : Type} (s : Sys Unit β) (w : World Unit) (h : (exec os s w).2 = none) :
    (exec os s w).1 = w := by
  cases s with
  | openRead p => rfl
  | fileLen p => rfl
  | size p => revert h; unfold exec; dsimp only; split <;> simp
  | mapRead p n => revert h; unfold exec; dsimp only; (repeat' split) <;> simp
  | mapWrite p n => revert h; unfold exec; dsimp only; (repeat' split) <;> simp
  | create p n => revert h; unfold exec; dsimp only; split <;> simp
  | store p b => revert h; unfold exec; dsimp only; (repeat' split) <;> simp
  | mkdir p => revert h; unfold exec; dsimp only; (repeat' split) <;> simp
  | add n => revert h; simp [exec]
  | call f => revert h; unfold exec; dsimp only; split <;> simp

/-- Making the same call, the program gets the same answer. -/
theorem exec_alike {os : Os} {a : Area} (ha : a.out ∉ a.ds) {r : Bool} {β : Type} (s : Sys Unit β) (hw : Within a r s)
    {w v : World Unit} (h : Alike os a r w v) :
    (exec os s w).2 = (exec os s v).2 ∧
    (∀ b, (exec os s w).2 = some b → Alike os a (nextReady a r s b) (exec os s w).1 (exec os s v).1) := by
  cases s with
  | openRead p => obtain rfl : p = a.inp := hw; exact ⟨by simp [exec, h.inp], fun _ _ => h⟩
  | fileLen p => obtain rfl : p = a.inp := hw; exact ⟨by simp [exec, h.inp], fun _ _ => h⟩
  | size p =>
    obtain rfl : p = a.inp := hw
    unfold exec; dsimp only
    rw [h.inp]
    rcases v.files a.inp with _ | b
    · exact ⟨rfl, fun _ _ => h⟩
    · exact ⟨rfl, fun _ _ => h⟩
  | mapRead p n =>
    obtain rfl : p = a.inp := hw
    unfold exec; dsimp only
    rw [h.inp]
    rcases v.files a.inp with _ | b
    · exact ⟨rfl, fun _ _ => h⟩
    · dsimp only
      (repeat' split) <;> exact ⟨rfl, fun _ _ => h⟩
  | mapWrite p n =>
    obtain rfl : p = a.out := hw
    unfold exec; dsimp only
    rw [h.out]
    rcases v.files a.out with _ | b
    · exact ⟨rfl, fun _ _ => h⟩
    · dsimp only
      (repeat' split) <;> exact ⟨rfl, fun _ _ => h⟩
  | create p n =>
    obtain ⟨rfl, hr⟩ : p = a.out ∧ r = true := hw
    obtain ⟨h1, h2⟩ := h.parent hr
    unfold exec; dsimp only
    rw [h1, h2, h.notDir, h.out]
    split
    · refine ⟨rfl, fun _ _ => ⟨?_, by simp [World.setFile], h.notDir, h.parent, fun q hq => ?_⟩⟩
      · simp only [World.setFile]
        split
        · rfl
        · exact h.inp
      · have : q ≠ a.out := fun e => ha (e ▸ hq)
        rw [dirOk_setFile this, dirOk_setFile this, h.dirs q hq]
    · exact ⟨rfl, fun _ _ => h⟩
  | store p b =>
    obtain rfl : p = a.out := hw
    unfold exec; dsimp only
    rw [h.out]
    rcases v.files a.out with _ | old
    · exact ⟨rfl, fun _ _ => h⟩
    · dsimp only
      split
      · refine ⟨rfl, fun _ _ => ⟨?_, by simp [World.setFile], h.notDir, h.parent, fun q hq => ?_⟩⟩
        · simp only [World.setFile]
          split
          · rfl
          · exact h.inp
        · have : q ≠ a.out := fun e => ha (e ▸ hq)
          rw [dirOk_setFile this, dirOk_setFile this, h.dirs q hq]
      · exact ⟨rfl, fun _ _ => h⟩
  | mkdir p =>
    have hp : p ∈ a.ds := hw
    rw [exec_mkdir, exec_mkdir, h.dirs p hp]
    by_cases hd : dirOk os v p = true
    · rw [if_pos hd, if_pos hd]
      have hd' : dirOk os w p = true := (h.dirs p hp).trans hd
      refine ⟨rfl, ?_⟩
      rintro b hb
      obtain rfl : b = .ok () := (Option.some.inj hb).symm
      refine ⟨h.inp, h.out, ?_, ?_, fun q hq => ?_⟩
      · dsimp only
        rw [h.notDir]
      · intro hr
        simp only [nextReady, Bool.or_eq_true, decide_eq_true_eq] at hr
        dsimp only
        rcases hr with hr | hr
        · obtain ⟨h1, h2⟩ := h.parent hr
          rw [h1, h2]; simp
        · rw [if_pos hr.symm, if_pos hr.symm]; exact ⟨rfl, rfl⟩
      · rw [dirOk_mkdir hd, dirOk_mkdir hd', h.dirs q hq]
    · rw [if_neg hd, if_neg hd]
      refine ⟨rfl, ?_⟩
      rintro b hb
      obtain rfl : b = .error .std := (Option.some.inj hb).symm
      exact h
  | add n => exact ⟨rfl, fun _ _ => ⟨h.inp, h.out, h.notDir, h.parent, h.dirs⟩⟩
  | call f =>
    unfold exec; dsimp only
    rcases f () with _ | ⟨st, b⟩
    · exact ⟨rfl, fun _ _ => h⟩
    · exact ⟨rfl, fun _ _ => ⟨h.inp, h.out, h.notDir, h.parent, h.dirs⟩⟩

/-- The call of another program is not noticed. -/
theorem exec_apart {os : Os} {a b : Area} (hab : Apart a b) {r r' : Bool} {β : Type} (s : Sys Unit β) (hw : Within b r' s)
    {w v : World Unit} (h : Alike os a r w v) : Alike os a r (exec os s w).1 v := by
  have hset : ∀ c, Alike os a r (w.setFile b.out c) v := by
    intro c
    refine ⟨?_, ?_, h.notDir, h.parent, fun q hq => ?_⟩
    · simp only [World.setFile]; rw [if_neg (Ne.symm hab.inp)]; exact h.inp
    · simp only [World.setFile]; rw [if_neg (Ne.symm hab.out)]; exact h.out
    · rw [dirOk_setFile (show q ≠ b.out from fun e => hab.dirs (e ▸ hq)), h.dirs q hq]
  cases s with
  | openRead p => exact h
  | fileLen p => exact h
  | size p => unfold exec; dsimp only; split <;> exact h
  | mapRead p n => unfold exec; dsimp only; (repeat' split) <;> exact h
  | mapWrite p n => unfold exec; dsimp only; (repeat' split) <;> exact h
  | create p n =>
    obtain ⟨rfl, _⟩ : p = b.out ∧ r' = true := hw
    unfold exec; dsimp only
    split
    · exact hset _
    · exact h
  | store p c =>
    obtain rfl : p = b.out := hw
    unfold exec; dsimp only
    (repeat' split)
    · exact h
    · exact hset _
    · exact h
  | mkdir p =>
    have hp : p ∈ b.ds := hw
    rw [exec_mkdir]
    split
    · next hd =>
      refine ⟨h.inp, h.out, ?_, fun hr => ?_, fun q hq => ?_⟩
      · dsimp only
        rw [if_neg (show ¬ a.out = p from fun e => hab.dirs' (e ▸ hp))]; exact h.notDir
      · obtain ⟨h1, h2⟩ := h.parent hr
        dsimp only
        rw [h1, h2]; simp
      · rw [dirOk_mkdir hd, h.dirs q hq]
    · exact h
  | add n => exact ⟨h.inp, h.out, h.notDir, h.parent, h.dirs⟩
  | call f =>
    unfold exec; dsimp only
    split
    · exact h
    · exact ⟨h.inp, h.out, h.notDir, h.parent, h.dirs⟩

/-- What a call does to the files: nothing, except for the output. -/
theorem exec_files {os : Os} {a : Area} {r : Bool} {β : Type} (s : Sys Unit β) (hw : Within a r s) (w : World Unit) {q : Path}
    (hq : q ≠ a.out) : (exec os s w).1.files q = w.files q := by
  cases s with
  | openRead p => rfl
  | fileLen p => rfl
  | size p => unfold exec; dsimp only; split <;> rfl
  | mapRead p n => unfold exec; dsimp only; (repeat' split) <;> rfl
  | mapWrite p n => unfold exec; dsimp only; (repeat' split) <;> rfl
  | create p n =>
    obtain ⟨rfl, _⟩ : p = a.out ∧ r = true := hw
    unfold exec; dsimp only
    split
    · simp [World.setFile, hq]
    · rfl
  | store p c =>
    obtain rfl : p = a.out := hw
    unfold exec; dsimp only
    (repeat' split)
    · rfl
    · simp [World.setFile, hq]
    · rfl
  | mkdir p => rw [exec_mkdir]; split <;> rfl
  | add n => rfl
  | call f => unfold exec; dsimp only; split <;> rfl

/-- Directories made, in the joint world and in that of the program. -/
theorem exec_dirs {os : Os} {a : Area} {r : Bool} {β : Type} (s : Sys Unit β) (hw : Within a r s) {w v : World Unit}
    (h : Alike os a r w v) (q : Path) (hsub : v.dirs q = true → w.dirs q = true) :
    (exec os s w).1.dirs q = (w.dirs q || (exec os s v).1.dirs q) ∧ (v.dirs q = true → (exec os s v).1.dirs q = true) := by
  have hsame : (exec os s w).1.dirs = w.dirs → (exec os s v).1.dirs = v.dirs →
      (exec os s w).1.dirs q = (w.dirs q || (exec os s v).1.dirs q) ∧
        (v.dirs q = true → (exec os s v).1.dirs q = true) := by
    intro h1 h2
    rw [h1, h2]
    refine ⟨?_, id⟩
    cases hv : v.dirs q
    · simp
    · simp [hsub hv]
  cases s with
  | openRead p => exact hsame rfl rfl
  | fileLen p => exact hsame rfl rfl
  | size p => apply hsame <;> (unfold exec; dsimp only; split <;> rfl)
  | mapRead p n => apply hsame <;> (unfold exec; dsimp only; (repeat' split) <;> rfl)
  | mapWrite p n => apply hsame <;> (unfold exec; dsimp only; (repeat' split) <;> rfl)
  | create p n => apply hsame <;> (unfold exec; dsimp only; (repeat' split) <;> rfl)
  | store p c => apply hsame <;> (unfold exec; dsimp only; (repeat' split) <;> rfl)
  | add n => exact hsame rfl rfl
  | call f => apply hsame <;> (unfold exec; dsimp only; (repeat' split) <;> rfl)
  | mkdir p =>
    have hp : p ∈ a.ds := hw
    rw [exec_mkdir, exec_mkdir, h.dirs p hp]
    by_cases hd : dirOk os v p = true
    · rw [if_pos hd, if_pos hd]
      dsimp only
      by_cases hq : q = p
      · simp [hq]
      · rw [if_neg hq, if_neg hq]
        refine ⟨?_, id⟩
        cases hv : v.dirs q
        · simp
        · simp [hsub hv]
    · rw [if_neg hd, if_neg hd]
      dsimp only
      refine ⟨?_, id⟩
      cases hv : v.dirs q
      · simp
      · simp [hsub hv]

/-- What a call adds to the counter does not depend on the world, if the answer does not. -/
theorem exec_counter {os : Os} {β : Type} (s : Sys Unit β) (w v : World Unit) :
    (exec os s w).1.counter + v.counter = (exec os s v).1.counter + w.counter := by
  have hsame : (exec os s w).1.counter = w.counter → (exec os s v).1.counter = v.counter →
      (exec os s w).1.counter + v.counter = (exec os s v).1.counter + w.counter := by
    intro h1 h2
    rw [h1, h2, BitVec.add_comm]
  cases s with
  | openRead p => exact hsame rfl rfl
  | fileLen p => exact hsame rfl rfl
  | size p => apply hsame <;> (unfold exec; dsimp only; split <;> rfl)
  | mapRead p n => apply hsame <;> (unfold exec; dsimp only; (repeat' split) <;> rfl)
  | mapWrite p n => apply hsame <;> (unfold exec; dsimp only; (repeat' split) <;> rfl)
  | create p n => apply hsame <;> (unfold exec; dsimp only; (repeat' split) <;> rfl)
  | store p c => apply hsame <;> (unfold exec; dsimp only; (repeat' split) <;> rfl)
  | mkdir p => apply hsame <;> (unfold exec; dsimp only; (repeat' split) <;> rfl)
  | call f => apply hsame <;> (unfold exec; dsimp only; (repeat' split) <;> rfl)
  | add n => simp only [exec]; abel

/-! ## The invariant -/

variable {ι : Type} [DecidableEq ι] [Fintype ι]

/-- `progs` have made some calls since `start`, `shadow i` is the world in which program `i` would be alone. -/
structure Inv (os : Os) (area : ι → Area) (w0 : World Unit) (start : ι → Prog Unit α) (c : Config ι Unit α)
    (ready : ι → Bool) (shadow : ι → World Unit) : Prop where
  alike : ∀ i, Alike os (area i) (ready i) c.world (shadow i)
  foot : ∀ i, Foot (area i) (ready i) (c.progs i)
  alone : ∀ i, run os (c.progs i) (shadow i) = run os (start i) w0
  files : ∀ q, (∀ i, q ≠ (area i).out) → c.world.files q = w0.files q
  dirs : ∀ q, c.world.dirs q = true ↔ w0.dirs q = true ∨ ∃ i, (shadow i).dirs q = true
  counter : c.world.counter = w0.counter + ∑ i, ((shadow i).counter - w0.counter)

theorem Inv.step {os : Os} {area : ι → Area} (hself : ∀ i, (area i).out ∉ (area i).ds)
    (hap : ∀ i j, i ≠ j → Apart (area i) (area j)) {w0 : World Unit} {start : ι → Prog Unit α}
    {c d : Config ι Unit α} {ready : ι → Bool} {shadow : ι → World Unit}
    (h : Inv os area w0 start c ready shadow) (hs : Step os c d) :
    ∃ ready' shadow', Inv os area w0 start d ready' shadow' := by
  cases hs with
  | call i s k hp =>
    have hfoot := h.foot i
    rw [hp] at hfoot
    obtain ⟨hin, hk⟩ := hfoot
    obtain ⟨hans, hal⟩ := exec_alike (os := os) (hself i) s hin (h.alike i)
    have hsub : ∀ q, (shadow i).dirs q = true → c.world.dirs q = true := fun q hq => (h.dirs q).2 (.inr ⟨i, hq⟩)
    obtain ⟨r', hr', hfoot'⟩ : ∃ r', Alike os (area i) r' (exec os s c.world).1 (exec os s (shadow i)).1 ∧
        Foot (area i) r' (resume k (exec os s c.world).2) := by
      rcases hb : (exec os s c.world).2 with _ | b
      · refine ⟨ready i, ?_, trivial⟩
        rw [exec_none s _ hb, exec_none s _ (hans.symm.trans hb)]
        exact h.alike i
      · exact ⟨_, hal b hb, hk b⟩
    refine ⟨Function.update ready i r', Function.update shadow i (exec os s (shadow i)).1, ?_, ?_, ?_, ?_, ?_, ?_⟩
    · intro j
      by_cases hj : j = i
      · subst hj; simpa using hr'
      · simp only [Function.update_of_ne hj]
        exact exec_apart (hap j i hj) s hin (h.alike j)
    · intro j
      by_cases hj : j = i
      · subst hj; simpa using hfoot'
      · simp only [Function.update_of_ne hj, if_neg hj]
        exact h.foot j
    · intro j
      by_cases hj : j = i
      · subst hj
        rw [← h.alone j, hp, run_op]
        simp only [Function.update_self, if_true]
        rw [hans]
        rcases exec os s (shadow j) with ⟨v, _ | b⟩ <;> rfl
      · simp only [Function.update_of_ne hj, if_neg hj]
        exact h.alone j
    · intro q hq
      rw [← h.files q hq]
      exact exec_files s hin _ (hq i)
    · intro q
      obtain ⟨h1, h2⟩ := exec_dirs s hin (h.alike i) q (hsub q)
      dsimp only
      rw [h1, Bool.or_eq_true, h.dirs q]
      constructor
      · rintro ((h0 | ⟨j, hj⟩) | h0)
        · exact .inl h0
        · by_cases hji : j = i
          · subst hji
            exact .inr ⟨j, by simpa using h2 hj⟩
          · exact .inr ⟨j, by rw [Function.update_of_ne hji]; exact hj⟩
        · exact .inr ⟨i, by simpa using h0⟩
      · rintro (h0 | ⟨j, hj⟩)
        · exact .inl (.inl h0)
        · by_cases hji : j = i
          · subst hji
            exact .inr (by simpa using hj)
          · rw [Function.update_of_ne hji] at hj
            exact .inl (.inr ⟨j, hj⟩)
    · dsimp only
      have h1 := exec_counter (os := os) s c.world (shadow i)
      have h2 : (exec os s c.world).1.counter =
          c.world.counter + ((exec os s (shadow i)).1.counter - (shadow i).counter) := by
        rw [eq_sub_of_add_eq h1]; abel
      rw [h2, h.counter]
      have h3 : ∀ f : ι → World Unit, ∑ j, ((f j).counter - w0.counter) =
          ((f i).counter - w0.counter) + ∑ j ∈ Finset.univ.erase i, ((f j).counter - w0.counter) :=
        fun f => (Finset.add_sum_erase _ _ (Finset.mem_univ i)).symm
      rw [h3, h3 (Function.update _ _ _)]
      have h4 : ∑ j ∈ Finset.univ.erase i, ((Function.update shadow i (exec os s (shadow i)).1 j).counter - w0.counter) =
          ∑ j ∈ Finset.univ.erase i, ((shadow j).counter - w0.counter) :=
        Finset.sum_congr rfl fun j hj => by rw [Function.update_of_ne (Finset.ne_of_mem_erase hj)]
      rw [h4, Function.update_self]
      abel

theorem Inv.start (os : Os) {area : ι → Area} {w0 : World Unit} {progs : ι → Prog Unit α}
    (hf : ∀ i, Foot (area i) false (progs i)) :
    Inv os area w0 progs ⟨w0, progs⟩ (fun _ => false) (fun _ => w0) where
  alike _ := ⟨rfl, rfl, rfl, (fun h => nomatch h), fun _ _ => rfl⟩
  foot := hf
  alone _ := rfl
  files _ _ := rfl
  dirs q := by
    constructor
    · exact .inl
    · rintro (h | ⟨_, h⟩) <;> exact h
  counter := by simp

theorem Inv.steps {os : Os} {area : ι → Area} (hself : ∀ i, (area i).out ∉ (area i).ds)
    (hap : ∀ i j, i ≠ j → Apart (area i) (area j)) {w0 : World Unit} {progs : ι → Prog Unit α}
    (hf : ∀ i, Foot (area i) false (progs i)) {c : Config ι Unit α} (hs : Steps os ⟨w0, progs⟩ c) :
    ∃ ready shadow, Inv os area w0 progs c ready shadow := by
  generalize ha : (⟨w0, progs⟩ : Config ι Unit α) = a at hs
  induction hs with
  | refl => exact ⟨_, _, ha ▸ Inv.start os hf⟩
  | tail _ h ih =>
    obtain ⟨r, s, hi⟩ := ih
    exact hi.step hself hap h

/-- The final state of any execution, in terms of the runs of the programs alone. -/
theorem steps_final {os : Os} {area : ι → Area} (hself : ∀ i, (area i).out ∉ (area i).ds)
    (hap : ∀ i j, i ≠ j → Apart (area i) (area j)) {w0 : World Unit} {progs : ι → Prog Unit α}
    (hf : ∀ i, Foot (area i) false (progs i)) {c : Config ι Unit α} (hs : Steps os ⟨w0, progs⟩ c)
    (he : ∀ i, (ended (c.progs i)).isSome) :
    (∀ i, ended (c.progs i) = some (run os (progs i) w0).2) ∧
    (∀ i, c.world.files (area i).out = (run os (progs i) w0).1.files (area i).out) ∧
    (∀ q, (∀ i, q ≠ (area i).out) → c.world.files q = w0.files q) ∧
    (∀ q, c.world.dirs q = true ↔ w0.dirs q = true ∨ ∃ i, (run os (progs i) w0).1.dirs q = true) ∧
    c.world.counter = w0.counter + ∑ i, ((run os (progs i) w0).1.counter - w0.counter) := by
  obtain ⟨r, s, h⟩ := Inv.steps hself hap hf hs
  have key : ∀ i, run os (progs i) w0 = (s i, ((ended (c.progs i)).getD none)) := by
    intro i
    rw [← h.alone i]
    have := he i
    rcases hc : c.progs i with a | _ | ⟨sys, k⟩
    · rfl
    · rfl
    · rw [hc] at this; exact nomatch this
  refine ⟨fun i => ?_, fun i => ?_, h.files, fun q => ?_, ?_⟩
  · rw [key i]
    obtain ⟨x, hx⟩ := Option.isSome_iff_exists.1 (he i)
    rw [hx]; rfl
  · rw [key i]; exact (h.alike i).out
  · rw [h.dirs q]
    simp only [key]
  · rw [h.counter]
    simp only [key]

end Dlt.Cli
