import Verif.Model.FileIo
/-!
# Running file programs
-/

namespace Dlt.FileIo

open Dlt.FileFormats Prog

variable {σ α β E : Type}

/-- The file can be read and holds `data`. -/
structure Readable (os : Os) (w : World σ) (p : Path) (data : Buf) : Prop where
  file : w.files p = some data
  canOpen : os.canOpen p = true
  canSize : os.canSize p = true
  canMap : os.canMap p data.length = true
  fits : data.length ≤ os.usizeMax

/-- A file of `n` bytes can be created there and mapped; it then holds `fresh`. -/
structure Creatable (os : Os) (w : World σ) (p : Path) (n : Nat) (fresh : Buf) : Prop where
  parent : w.dirs p.dropLast = true
  notDir : w.dirs p = false
  create : os.create p n (w.files p) = (some fresh, true)
  length : fresh.length = n
  canMap : os.canMapWrite p n = true

theorem run_op (os : Os) (s : Sys σ β) (k : β → Prog σ α) (w : World σ) :
    run os (.op s k) w =
      match exec os s w with
      | (w, none) => (w, none)
      | (w, some b) => run os (k b) w := by
  rw [run]
  rcases exec os s w with ⟨w, _ | b⟩ <;> rfl

theorem run_withInput {os : Os} {w : World σ} {p : Path} {data : Buf} (h : Readable os w p data)
    (k : Buf → Prog σ (Except FileError α)) : run os (withInput os p k) w = run os (k data) w := by
  have h2 : data.length % (os.usizeMax + 1) = data.length := Nat.mod_eq_of_lt (by have := h.fits; omega)
  simp [withInput, try', run, exec, h.file, h.canOpen, h.canSize, h.canMap, h2]

theorem run_withInputFor {os : Os} {w : World σ} {p : Path} {data : Buf} (h : Readable os w p data) (output : Buf)
    (k : Buf → Prog σ (Buf × Except FileError α)) : run os (withInputFor os p output k) w =
      if output.length < data.length then
        (w, some (output, .error (.transform (.formatHandler (.outputBufferTooSmall data.length output.length)))))
      else run os (k data) w := by
  have h2 : data.length % (os.usizeMax + 1) = data.length := Nat.mod_eq_of_lt (by have := h.fits; omega)
  simp only [withInputFor, run, exec, h.file, h.canOpen, h.canSize, h.canMap, h2, Option.isSome_some, Bool.and_self,
    if_true, Nat.le_refl, List.take_length]
  split <;> rfl

/-- The world after `p` has got the contents `c` and the state has become `st`. -/
def World.after (w : World σ) (p : Path) (c : Buf) (st : σ) : World σ :=
  { w with files := fun q => if q = p then some c else w.files q, st := st }

theorem run_intoFile {os : Os} {w : World σ} {p : Path} {n : Nat} {fresh : Buf} (h : Creatable os w p n fresh)
    (f : Buf → σ → Option (Res σ α)) :
    (f fresh w.st = none → run os (intoFile p n f) w = (w.setFile p (some fresh), none)) ∧
    (∀ o st r, f fresh w.st = some (o, st, r) → o.length = n →
      run os (intoFile p n f) w = (w.after p o st, some (r.mapError .transform))) := by
  have e1 : exec os (.create p n) w = (w.setFile p (some fresh), some (.ok ())) := by
    simp [exec, h.parent, h.notDir, h.create]
  have e2 : (w.setFile p (some fresh)).files p = some fresh := by simp [World.setFile]
  have e3 : exec os (.mapWrite p n) (w.setFile p (some fresh)) = (w.setFile p (some fresh), some (.ok fresh)) := by
    have hl := h.length
    simp only [exec, e2, h.canMap, if_true]
    rw [if_pos (by omega), List.take_of_length_le (by omega)]
  refine ⟨fun hf => ?_, fun o st r hf ho => ?_⟩
  · simp only [intoFile, try', run, e1, e3]
    simp [exec, World.setFile, hf]
  · have hl := h.length
    simp only [intoFile, try', run, e1, e3]
    simp [exec, World.setFile, hf, ho, hl, List.drop_eq_nil_of_le, World.after]
    funext q
    split <;> rfl

theorem run_intoSlice (os : Os) (w : World σ) (input output : Buf) (f : Buf → σ → Option (Res σ α)) :
    run os (intoSlice input output f) w =
      match f (output.take input.length) w.st with
      | none => (w, none)
      | some (o, st, r) => ({ w with st := st }, some (o ++ output.drop input.length, r.mapError .transform)) := by
  simp only [intoSlice, run, exec]
  rcases f (output.take input.length) w.st with _ | ⟨o, st, r⟩ <;> rfl

/-! ## What a program leaves alone -/

/-- The call changes no file but `out`. -/
def SysOnly (out : Path) {β : Type} : Sys σ β → Prop
  | .create p _ => p = out
  | .store p _ => p = out
  | .mkdir _ => False
  | .add _ => False
  | _ => True

/-- The program changes no file but `out`, no directory and not the counter. -/
def Only (out : Path) : Prog σ α → Prop
  | .ret _ => True
  | .panic => True
  | .op s k => SysOnly out s ∧ ∀ b, Only out (k b)

/-- The worlds differ at most in the file `out` and the state. -/
def SameBut (out : Path) (w w' : World σ) : Prop :=
  (∀ q, q ≠ out → w'.files q = w.files q) ∧ w'.dirs = w.dirs ∧ w'.counter = w.counter

theorem exec_only {os : Os} {out : Path} {β : Type} (s : Sys σ β) (h : SysOnly out s) (w : World σ) :
    SameBut out w (exec os s w).1 := by
  cases s with
  | openRead p => exact ⟨fun _ _ => rfl, rfl, rfl⟩
  | fileLen p => exact ⟨fun _ _ => rfl, rfl, rfl⟩
  | size p => unfold exec; dsimp only; split <;> exact ⟨fun _ _ => rfl, rfl, rfl⟩
  | mapRead p n => unfold exec; dsimp only; (repeat' split) <;> exact ⟨fun _ _ => rfl, rfl, rfl⟩
  | mapWrite p n => unfold exec; dsimp only; (repeat' split) <;> exact ⟨fun _ _ => rfl, rfl, rfl⟩
  | create p n =>
    obtain rfl : p = out := h
    unfold exec; dsimp only
    split
    · exact ⟨fun q hq => by simp [World.setFile, hq], rfl, rfl⟩
    · exact ⟨fun _ _ => rfl, rfl, rfl⟩
  | store p b =>
    obtain rfl : p = out := h
    unfold exec; dsimp only
    (repeat' split)
    · exact ⟨fun _ _ => rfl, rfl, rfl⟩
    · exact ⟨fun q hq => by simp [World.setFile, hq], rfl, rfl⟩
    · exact ⟨fun _ _ => rfl, rfl, rfl⟩
  | mkdir p => exact h.elim
  | add n => exact h.elim
  | call f => unfold exec; dsimp only; split <;> exact ⟨fun _ _ => rfl, rfl, rfl⟩

theorem SameBut.trans {out : Path} {w1 w2 w3 : World σ} (h1 : SameBut out w1 w2) (h2 : SameBut out w2 w3) :
    SameBut out w1 w3 :=
  ⟨fun q hq => (h2.1 q hq).trans (h1.1 q hq), h2.2.1.trans h1.2.1, h2.2.2.trans h1.2.2⟩

theorem run_only {os : Os} {out : Path} : ∀ (x : Prog σ α) (_ : Only out x) (w : World σ), SameBut out w (run os x w).1
  | .ret _, _, _ => ⟨fun _ _ => rfl, rfl, rfl⟩
  | .panic, _, _ => ⟨fun _ _ => rfl, rfl, rfl⟩
  | .op s k, h, w => by
    have h1 := exec_only (os := os) s h.1 w
    rw [run_op]
    rcases he : exec os s w with ⟨w1, _ | b⟩
    · rw [he] at h1; exact h1
    · rw [he] at h1
      exact h1.trans (run_only (k b) (h.2 b) w1)

theorem only_try {out : Path} {s : Sys σ (Except IoError β)} {k : β → Prog σ (Except FileError α)}
    (hs : SysOnly out s) (hk : ∀ b, Only out (k b)) : Only out (try' s k) := by
  refine ⟨hs, fun b => ?_⟩
  cases b with
  | error e => trivial
  | ok b => exact hk b

theorem only_withInput {os : Os} {out p : Path} {k : Buf → Prog σ (Except FileError α)} (hk : ∀ b, Only out (k b)) :
    Only out (withInput os p k) :=
  only_try trivial fun _ => only_try trivial fun _ => only_try trivial hk

theorem only_intoFile {out : Path} {n : Nat} {f : Buf → σ → Option (Res σ α)} : Only out (intoFile out n f) :=
  only_try rfl fun _ => only_try trivial fun _ => ⟨trivial, fun _ => ⟨rfl, fun _ => trivial⟩⟩

theorem only_tryHandlers {out : Path} {detect : Handler σ E → σ → Option (σ × Bool)} {go : Handler σ E → Prog σ α}
    {rejected : α} (hg : ∀ h, Only out (go h)) : ∀ hs, Only out (tryHandlers detect go rejected hs)
  | [] => trivial
  | h :: hs => ⟨trivial, fun b => by
    cases b
    · exact only_tryHandlers hg hs
    · exact hg h⟩

end Dlt.FileIo
