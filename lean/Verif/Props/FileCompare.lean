import Verif.Model.FileCompare
import Verif.Lemmas.Mem
/-!
# C69: comparison of files and directories
-/

namespace Dlt.Props

open Dlt.FileIo Dlt.FileCompare

/-! ## Files -/

theorem readSome_append (want n : Nat) (a : Buf) : (readSome want n a).1 ++ (readSome want n a).2 = a :=
  List.take_append_drop _ _

theorem readSome_progress (want : Nat) (a : Buf) :
    (readSome want bufferSize a).1.length = 0 ∧ a = [] ∨ (readSome want bufferSize a).2.length < a.length := by
  unfold readSome bufferSize
  rcases a with _ | ⟨x, a⟩
  · left; simp
  · right
    simp only [List.length_drop, List.length_cons]
    omega

theorem compareLoop_total (r1 r2 : Nat → Option Nat) : ∀ (fuel k : Nat) (a b : Buf), a.length < fuel →
    compareLoop r1 r2 fuel k a b ≠ none
  | 0, _, _, _, h => by omega
  | fuel + 1, k, a, b, h => by
    unfold compareLoop
    rcases r1 k with _ | w1
    · simp
    rcases r2 k with _ | w2
    · simp
    dsimp only
    split
    · simp
    split
    · simp
    split
    · simp
    next h3 =>
      rcases readSome_progress w1 a with ⟨h4, _⟩ | h4
      · exact absurd h4 h3
      · exact compareLoop_total r1 r2 fuel (k + 1) _ _ (by omega)

theorem compareLoop_sound (r1 r2 : Nat → Option Nat) : ∀ (fuel k : Nat) (a b : Buf),
    compareLoop r1 r2 fuel k a b = some (.ok true) → a = b
  | 0, _, _, _, h => nomatch h
  | fuel + 1, k, a, b, h => by
    unfold compareLoop at h
    rcases h1 : r1 k with _ | w1
    · rw [h1] at h; exact nomatch h
    rcases h2 : r2 k with _ | w2
    · rw [h1, h2] at h; exact nomatch h
    rw [h1, h2] at h
    dsimp only at h
    split at h
    · exact nomatch h
    split at h
    · exact nomatch h
    next h3 h4 =>
    rw [ne_eq, Decidable.not_not] at h4
    split at h
    · next h5 =>
      have ha : a = [] := by
        rcases a with _ | ⟨x, a⟩
        · rfl
        · exfalso
          simp only [readSome, bufferSize, List.length_take, List.length_cons] at h5
          omega
      have hb : b = [] := by
        rcases b with _ | ⟨x, b⟩
        · rfl
        · exfalso
          rw [h4] at h5
          simp only [readSome, bufferSize, List.length_take, List.length_cons] at h5
          omega
      rw [ha, hb]
    · have := compareLoop_sound r1 r2 fuel (k + 1) _ _ h
      rw [← readSome_append w1 bufferSize a, ← readSome_append w2 bufferSize b, h4, this]

theorem compareLoop_same (r : Nat → Option Nat) (hr : ∀ k, r k ≠ none) : ∀ (fuel k : Nat) (a : Buf), a.length < fuel →
    compareLoop r r fuel k a a = some (.ok true)
  | 0, _, _, h => by omega
  | fuel + 1, k, a, h => by
    unfold compareLoop
    rcases hk : r k with _ | want
    · exact absurd hk (hr k)
    dsimp only
    rw [if_neg (by simp), if_neg (by simp)]
    split
    · rfl
    next h3 =>
      rcases readSome_progress want a with ⟨h4, _⟩ | h4
      · exact absurd h4 h3
      · exact compareLoop_same r hr fuel (k + 1) _ (by omega)

theorem compareLoop_no_error (r1 r2 : Nat → Option Nat) (h1 : ∀ k, r1 k ≠ none) (h2 : ∀ k, r2 k ≠ none) :
    ∀ (fuel k : Nat) (a b : Buf), compareLoop r1 r2 fuel k a b ≠ some (.error ())
  | 0, _, _, _ => nofun
  | fuel + 1, k, a, b => by
    unfold compareLoop
    rcases hk1 : r1 k with _ | w1
    · exact absurd hk1 (h1 k)
    rcases hk2 : r2 k with _ | w2
    · exact absurd hk2 (h2 k)
    dsimp only
    split
    · simp
    split
    · simp
    split
    · simp
    · exact compareLoop_no_error r1 r2 h1 h2 fuel (k + 1) _ _

/-- The file at `p` can be read without errors. -/
structure Healthy (disk : Disk) (p : Path) : Prop where
  stat : disk.stat p = true
  canOpen : disk.canOpen p = true
  read : ∀ k, disk.read p k ≠ none

/-- **C69** (files): the comparison ends.  However much each call of `read` returns, it says that files are equal only if they
are.  It says so if they are equal, there are no errors and both files are read in the same portions.  Without errors it says
that different files are different. -/
theorem C69_files (disk : Disk) (files : Path → Option Buf) (p1 p2 : Path) :
    compareFiles disk files p1 p2 ≠ none ∧
    (compareFiles disk files p1 p2 = some (.ok true) → ∃ b, files p1 = some b ∧ files p2 = some b) ∧
    (∀ b, files p1 = some b → files p2 = some b → Healthy disk p1 → Healthy disk p2 → disk.read p1 = disk.read p2 →
      compareFiles disk files p1 p2 = some (.ok true)) ∧
    (∀ a b, files p1 = some a → files p2 = some b → a ≠ b → Healthy disk p1 → Healthy disk p2 →
      compareFiles disk files p1 p2 = some (.ok false)) ∧
    (files p1 = none ∨ files p2 = none → compareFiles disk files p1 p2 = some (.error ())) := by
  have total : compareFiles disk files p1 p2 ≠ none := by
    unfold compareFiles
    split
    · repeat' split
      all_goals first | (simp; done) | exact compareLoop_total _ _ _ _ _ _ (by omega)
    · simp
  have sound : compareFiles disk files p1 p2 = some (.ok true) → ∃ b, files p1 = some b ∧ files p2 = some b := by
    intro h
    unfold compareFiles at h
    split at h
    · next a b ha hb =>
      repeat' split at h
      all_goals first
        | exact ⟨_, ha, (compareLoop_sound _ _ _ _ _ _ h) ▸ hb⟩
        | exact nomatch h
    · exact nomatch h
  refine ⟨total, sound, fun b h1 h2 g1 g2 hr => ?_, fun a b h1 h2 hne g1 g2 => ?_, fun h => ?_⟩
  · unfold compareFiles
    rw [h1, h2]
    dsimp only
    rw [if_neg (by simp [g1.stat]), if_neg (by simp [g2.stat]), if_neg (by simp), if_neg (by simp [g1.canOpen]),
      if_neg (by simp [g2.canOpen]), ← hr]
    exact compareLoop_same _ g1.read _ _ _ (by omega)
  · have he : compareFiles disk files p1 p2 ≠ some (.error ()) := by
      unfold compareFiles
      rw [h1, h2]
      dsimp only
      rw [if_neg (by simp [g1.stat]), if_neg (by simp [g2.stat])]
      split
      · simp
      rw [if_neg (by simp [g1.canOpen]), if_neg (by simp [g2.canOpen])]
      exact compareLoop_no_error _ _ g1.read g2.read _ _ _ _
    rcases hc : compareFiles disk files p1 p2 with _ | (_ | (_ | _))
    · exact absurd hc total
    · exact absurd hc he
    · rfl
    · obtain ⟨c, h3, h4⟩ := sound hc
      rw [h1] at h3
      rw [h2] at h4
      cases h3; cases h4
      exact absurd rfl hne
  · unfold compareFiles
    rcases h with h | h
    · rw [h]
    · rw [h]
      split
      · next h => exact nomatch h
      · rfl

/-- **C69** (sizes): files of different sizes are told apart without being opened; if their sizes cannot be found out, or files of the
same size cannot be opened, that is an error. -/
theorem C69_sizes (disk : Disk) (files : Path → Option Buf) (p1 p2 : Path) (a b : Buf) (h1 : files p1 = some a) (h2 : files p2 = some b) :
    (disk.stat p1 = true → disk.stat p2 = true → a.length ≠ b.length → compareFiles disk files p1 p2 = some (.ok false)) ∧
    (disk.stat p1 = false ∨ disk.stat p2 = false → compareFiles disk files p1 p2 = some (.error ())) ∧
    (a.length = b.length → disk.canOpen p1 = false ∨ disk.canOpen p2 = false → compareFiles disk files p1 p2 = some (.error ())) := by
  unfold compareFiles
  rw [h1, h2]
  refine ⟨fun s1 s2 h => by simp [s1, s2, h], ?_, ?_⟩
  · rintro (s | s) <;> simp [s]
  · rintro h (s | s) <;> simp [h, s]

/-- **C69** (short reads): if the system returns different amounts for two equal files, which it may do at any time, they are
reported as different. -/
theorem C69_short_reads : ∃ (disk : Disk) (files : Path → Option Buf) (p1 p2 : Path) (b : Buf), files p1 = some b ∧ files p2 = some b ∧
    Healthy disk p1 ∧ Healthy disk p2 ∧ compareFiles disk files p1 p2 = some (.ok false) :=
  ⟨⟨fun _ => none, fun _ => true, fun _ => true, fun p _ => if p = ["a"] then some 2 else some 3⟩, fun _ => some [1, 2, 3], ["a"], ["b"],
    [1, 2, 3], rfl, rfl, ⟨rfl, rfl, fun _ => nofun⟩, ⟨rfl, rfl, fun _ => nofun⟩, rfl⟩

/-! ## Directories -/

/-- Whatever exists lies in a directory, and no directory is a file. -/
structure IsTree {σ : Type} (w : World σ) : Prop where
  parent : ∀ p name, (w.files (p ++ [name])).isSome = true ∨ w.dirs (p ++ [name]) = true → w.dirs p = true
  notBoth : ∀ p, w.dirs p = true → w.files p = none

/-- Names that the system lists are distinct, and all files and directories are among them. -/
def Faithful {σ : Type} (disk : Disk) (w : World σ) : Prop :=
  ∀ d names, disk.list d = some names → names.Nodup ∧
    ∀ name, (w.files (d ++ [name])).isSome = true ∨ w.dirs (d ++ [name]) = true → name ∈ names

theorem IsTree.above {σ : Type} {w : World σ} (ht : IsTree w) : ∀ (t p : Path), (w.files (p ++ t)).isSome = true → t ≠ [] →
    w.dirs p = true
  | [], _, _, h => absurd rfl h
  | [x], p, h, _ => ht.parent p x (.inl h)
  | x :: y :: t, p, h, _ =>
    ht.parent p x (.inr (ht.above (y :: t) (p ++ [x]) (by simpa using h) (by simp)))

theorem IsTree.up {σ : Type} {w : World σ} (ht : IsTree w) (p : Path) (name : String) (t : Path)
    (h : (w.files (p ++ name :: t)).isSome = true) (h0 : t ≠ []) : w.dirs (p ++ [name]) = true :=
  ht.above t (p ++ [name]) (by simpa using h) h0

/-- The result of collecting the files below `rel`. -/
def Collected {σ : Type} (w : World σ) (base rel : Path) (names : String → Prop) (ps : List Path) : Prop :=
  ps.Nodup ∧ ∀ q, q ∈ ps ↔ ∃ name t, names name ∧ q = rel ++ name :: t ∧ (w.files (base ++ q)).isSome = true

theorem collectEntries_spec {σ : Type} {w : World σ} (ht : IsTree w) (base rel : Path)
    {visit : Path → Option (Except Unit (List Path))}
    (hv : ∀ name ps, visit (rel ++ [name]) = some (.ok ps) → Collected w base (rel ++ [name]) (fun _ => True) ps) :
    ∀ (names : List String) (ps : List Path), names.Nodup →
      collectEntries (fun p => (w.files p).isSome) w.dirs visit base rel names = some (.ok ps) →
      Collected w base rel (· ∈ names) ps
  | [], ps, _, h => by
    simp only [collectEntries, Option.some.injEq, Except.ok.injEq] at h
    subst h
    exact ⟨.nil, fun q => by simp⟩
  | name :: names, ps, hn, h => by
    have hn' := List.nodup_cons.1 hn
    unfold collectEntries at h
    split at h
    · next hf =>
      rcases hr : collectEntries (fun p => (w.files p).isSome) w.dirs visit base rel names with _ | (e | rest)
      · rw [hr] at h; exact nomatch h
      · rw [hr] at h; exact nomatch h
      rw [hr] at h
      simp only [Option.some.injEq, Except.ok.injEq] at h
      subst h
      obtain ⟨h1, h2⟩ := collectEntries_spec ht base rel hv names rest hn'.2 hr
      refine ⟨List.nodup_cons.2 ⟨fun hm => ?_, h1⟩, fun q => ?_⟩
      · obtain ⟨name', t, h3, h4, _⟩ := (h2 _).1 hm
        rw [List.append_cancel_left_eq, List.cons.injEq] at h4
        exact hn'.1 (h4.1 ▸ h3)
      · rw [List.mem_cons, h2]
        constructor
        · rintro (rfl | ⟨name', t, h3, h4, h5⟩)
          · exact ⟨name, [], by simp, rfl, hf⟩
          · exact ⟨name', t, by simp [h3], h4, h5⟩
        · rintro ⟨name', t, h3, rfl, h5⟩
          rcases List.mem_cons.1 h3 with rfl | h3
          · left
            by_cases ht0 : t = []
            · rw [ht0]
            · have := ht.notBoth _ (ht.up (base ++ rel) name' t (by simpa using h5) ht0)
              rw [List.append_assoc] at this
              rw [this] at hf
              exact nomatch hf
          · exact .inr ⟨name', t, h3, rfl, h5⟩
    next hf =>
    split at h
    · next hd =>
      rcases hi : visit (rel ++ [name]) with _ | (e | inner)
      · rw [hi] at h; exact nomatch h
      · rw [hi] at h; exact nomatch h
      rw [hi] at h
      dsimp only at h
      rcases hr : collectEntries (fun p => (w.files p).isSome) w.dirs visit base rel names with _ | (e | rest)
      · rw [hr] at h; exact nomatch h
      · rw [hr] at h; exact nomatch h
      rw [hr] at h
      simp only [Option.some.injEq, Except.ok.injEq] at h
      subst h
      obtain ⟨h1, h2⟩ := collectEntries_spec ht base rel hv names rest hn'.2 hr
      obtain ⟨i1, i2⟩ := hv name inner hi
      refine ⟨List.nodup_append.2 ⟨i1, h1, fun a ha b hb hab => ?_⟩, fun q => ?_⟩
      · subst hab
        obtain ⟨n1, t1, _, e1, _⟩ := (i2 _).1 ha
        obtain ⟨n2, t2, m2, e2, _⟩ := (h2 _).1 hb
        rw [e1, List.append_assoc, List.append_cancel_left_eq, List.singleton_append, List.cons.injEq] at e2
        exact hn'.1 (e2.1 ▸ m2)
      · rw [List.mem_append, h2, i2]
        constructor
        · rintro (⟨n1, t1, _, e1, f1⟩ | ⟨n2, t2, m2, e2, f2⟩)
          · exact ⟨name, n1 :: t1, by simp, by rw [e1]; simp, f1⟩
          · exact ⟨n2, t2, by simp [m2], e2, f2⟩
        · rintro ⟨n2, t2, m2, rfl, f2⟩
          rcases List.mem_cons.1 m2 with rfl | m2
          · rcases t2 with _ | ⟨x, t2⟩
            · exact absurd f2 hf
            · exact .inl ⟨x, t2, trivial, by simp, f2⟩
          · exact .inr ⟨n2, t2, m2, rfl, f2⟩
    · next hd =>
      obtain ⟨h1, h2⟩ := collectEntries_spec ht base rel hv names ps hn'.2 h
      refine ⟨h1, fun q => ?_⟩
      rw [h2]
      constructor
      · rintro ⟨n2, t2, m2, e2, f2⟩
        exact ⟨n2, t2, by simp [m2], e2, f2⟩
      · rintro ⟨n2, t2, m2, rfl, f2⟩
        rcases List.mem_cons.1 m2 with rfl | m2
        · exfalso
          rcases t2 with _ | ⟨x, t2⟩
          · exact hf f2
          · have := ht.up (base ++ rel) n2 (x :: t2) (by simpa using f2) (by simp)
            rw [List.append_assoc] at this
            exact hd this
        · exact ⟨n2, t2, m2, rfl, f2⟩

theorem collect_spec {σ : Type} {disk : Disk} {w : World σ} (ht : IsTree w) (hl : Faithful disk w) (base : Path) :
    ∀ (fuel : Nat) (rel : Path) (ps : List Path), collect disk (fun p => (w.files p).isSome) w.dirs base fuel rel = some (.ok ps) →
      Collected w base rel (fun _ => True) ps
  | 0, _, _, h => nomatch h
  | fuel + 1, rel, ps, h => by
    unfold collect at h
    rcases hd : disk.list (base ++ rel) with _ | names
    · rw [hd] at h; exact nomatch h
    rw [hd] at h
    obtain ⟨h1, h2⟩ := hl _ _ hd
    obtain ⟨h3, h4⟩ := collectEntries_spec ht base rel (fun name ps hp => collect_spec ht hl base fuel _ _ hp) names ps h1 h
    refine ⟨h3, fun q => ?_⟩
    rw [h4]
    constructor
    · rintro ⟨name, t, _, e, f⟩
      exact ⟨name, t, trivial, e, f⟩
    · rintro ⟨name, t, _, rfl, f⟩
      refine ⟨name, t, h2 name ?_, rfl, f⟩
      rcases t with _ | ⟨x, t⟩
      · exact .inl (by simpa using f)
      · exact .inr (ht.up (base ++ rel) name (x :: t) (by simpa using f) (by simp))

theorem comparePairs_sound {disk : Disk} {files : Path → Option Buf} {dir1 dir2 : Path} {es2 : List Path} : ∀ es1 : List Path,
    comparePairs disk files dir1 dir2 es2 es1 = some (.ok true) →
    ∀ rel ∈ es1, rel ∈ es2 ∧ files (dir1 ++ rel) = files (dir2 ++ rel)
  | [], _, _, h => nomatch h
  | r :: rest, h, rel, hm => by
    unfold comparePairs at h
    rcases hf : es2.find? (· = r) with _ | r2
    · rw [hf] at h; exact nomatch h
    rw [hf] at h
    dsimp only at h
    have h2 : r2 = r := by simpa using List.find?_some hf
    have h3 := List.mem_of_find?_eq_some hf
    subst h2
    rcases hc : compareFiles disk files (dir1 ++ r2) (dir2 ++ r2) with _ | (_ | (_ | _))
    · rw [hc] at h; exact nomatch h
    · rw [hc] at h; exact nomatch h
    · rw [hc] at h; exact nomatch h
    rw [hc] at h
    rcases List.mem_cons.1 hm with rfl | hm
    · obtain ⟨b, h4, h5⟩ := (C69_files disk files _ _).2.1 hc
      exact ⟨h3, h4.trans h5.symm⟩
    · exact comparePairs_sound rest h rel hm

theorem comparePairs_same {disk : Disk} {files : Path → Option Buf} {dir1 dir2 : Path} {es2 : List Path} : ∀ es1 : List Path,
    (∀ rel ∈ es1, rel ∈ es2 ∧ compareFiles disk files (dir1 ++ rel) (dir2 ++ rel) = some (.ok true)) →
    comparePairs disk files dir1 dir2 es2 es1 = some (.ok true)
  | [], _ => rfl
  | r :: rest, h => by
    unfold comparePairs
    obtain ⟨h1, h2⟩ := h r (by simp)
    rcases hf : es2.find? (· = r) with _ | r2
    · have := List.find?_eq_none.1 hf r h1
      simp at this
    have h3 : r2 = r := by simpa using List.find?_some hf
    subst h3
    dsimp only
    rw [h2]
    exact comparePairs_same rest fun rel hm => h rel (by simp [hm])

theorem mem_of_length_le [DecidableEq α] : ∀ {l1 l2 : List α}, l1.Nodup → (∀ x ∈ l1, x ∈ l2) → l2.length ≤ l1.length →
    ∀ x ∈ l2, x ∈ l1
  | [], l2, _, _, hl, x, hx => by
    rw [List.length_nil, Nat.le_zero, List.length_eq_zero_iff] at hl
    rw [hl] at hx
    exact hx
  | a :: l1, l2, hn, hs, hl, x, hx => by
    have hn' := List.nodup_cons.1 hn
    by_cases hxa : x = a
    · rw [hxa]; simp
    · have ha := hs a (by simp)
      have hlen := List.length_erase_of_mem ha
      have := mem_of_length_le (l1 := l1) (l2 := l2.erase a) hn'.2
        (fun y hy => (List.mem_erase_of_ne (fun h : y = a => hn'.1 (h ▸ hy))).2 (hs y (by simp [hy])))
        (by have := List.length_pos_of_mem ha; simp only [List.length_cons] at hl; omega) x
        ((List.mem_erase_of_ne hxa).2 hx)
      exact List.mem_cons_of_mem _ this

/-- **C69** (directories, soundness): if two directories are reported as equal, the same relative paths lead to files in them, with the
same contents. -/
theorem C69_directories_sound {σ : Type} (disk : Disk) (w : World σ) (ht : IsTree w) (hl : Faithful disk w) (fuel : Nat)
    (dir1 dir2 : Path) (h : compareDirectories disk w fuel dir1 dir2 = some (.ok true)) (rel : Path) (hr : rel ≠ []) :
    w.files (dir1 ++ rel) = w.files (dir2 ++ rel) := by
  unfold compareDirectories at h
  dsimp only at h
  rcases h1 : collect disk (fun p => (w.files p).isSome) w.dirs dir1 fuel [] with _ | (_ | es1)
  · rw [h1] at h; exact nomatch h
  · rw [h1] at h; exact nomatch h
  rcases h2 : collect disk (fun p => (w.files p).isSome) w.dirs dir2 fuel [] with _ | (_ | es2)
  · rw [h1, h2] at h; exact nomatch h
  · rw [h1, h2] at h; exact nomatch h
  rw [h1, h2] at h
  dsimp only at h
  split at h
  · exact nomatch h
  next hlen =>
  rw [ne_eq, Decidable.not_not] at hlen
  have c := comparePairs_sound es1 h
  obtain ⟨n1, m1⟩ := collect_spec ht hl dir1 fuel [] es1 h1
  obtain ⟨_, m2⟩ := collect_spec ht hl dir2 fuel [] es2 h2
  have mem : ∀ (base : Path) (es : List Path),
      (∀ q, q ∈ es ↔ ∃ name t, True ∧ q = [] ++ name :: t ∧ (w.files (base ++ q)).isSome = true) →
      rel ∉ es → w.files (base ++ rel) = none := by
    intro base es hm hn
    rcases hf : w.files (base ++ rel) with _ | b
    · rfl
    · rcases rel with _ | ⟨name, t⟩
      · exact absurd rfl hr
      · exact absurd ((hm _).2 ⟨name, t, trivial, rfl, by rw [List.nil_append, hf]; rfl⟩) hn
  by_cases hm : rel ∈ es1
  · exact (c rel hm).2
  · have hm2 : rel ∉ es2 := fun hm2 => hm (mem_of_length_le n1 (fun x hx => (c x hx).1) (by omega) rel hm2)
    rw [mem dir1 es1 m1 hm, mem dir2 es2 m2 hm2]

/-- Everything below `dir` can be read, and directories are nested less than `depth` deep. -/
structure Walkable {σ : Type} (disk : Disk) (w : World σ) (dir : Path) (depth : Nat) : Prop where
  list : ∀ rel, w.dirs (dir ++ rel) = true → disk.list (dir ++ rel) ≠ none
  deep : ∀ rel, w.dirs (dir ++ rel) = true → rel.length < depth
  files : ∀ rel, (w.files (dir ++ rel)).isSome = true → Healthy disk (dir ++ rel)

theorem collectEntries_ok {σ : Type} {w : World σ} (base rel : Path) {visit : Path → Option (Except Unit (List Path))}
    (hv : ∀ name, w.dirs (base ++ (rel ++ [name])) = true → ∃ ps, visit (rel ++ [name]) = some (.ok ps)) :
    ∀ names : List String, ∃ ps, collectEntries (fun p => (w.files p).isSome) w.dirs visit base rel names = some (.ok ps)
  | [] => ⟨[], rfl⟩
  | name :: names => by
    obtain ⟨rest, hr⟩ := collectEntries_ok base rel hv names
    unfold collectEntries
    split
    · exact ⟨_, by rw [hr]⟩
    split
    · next hd =>
      obtain ⟨inner, hi⟩ := hv name hd
      exact ⟨_, by rw [hi, hr]⟩
    · exact ⟨_, hr⟩

theorem collect_ok {σ : Type} {disk : Disk} {w : World σ} {dir : Path} {depth : Nat} (hw : Walkable disk w dir depth) :
    ∀ (fuel : Nat) (rel : Path), w.dirs (dir ++ rel) = true → depth ≤ rel.length + fuel →
      ∃ ps, collect disk (fun p => (w.files p).isSome) w.dirs dir fuel rel = some (.ok ps)
  | 0, rel, hd, hf => by have := hw.deep rel hd; omega
  | fuel + 1, rel, hd, hf => by
    unfold collect
    rcases hl : disk.list (dir ++ rel) with _ | names
    · exact absurd hl (hw.list rel hd)
    exact collectEntries_ok dir rel (fun name hn => collect_ok hw fuel (rel ++ [name]) hn (by simp; omega)) names

theorem comparePairs_answers {disk : Disk} {files : Path → Option Buf} {dir1 dir2 : Path} {es2 : List Path} : ∀ es1 : List Path,
    (∀ rel ∈ es1, rel ∈ es2 → ∃ yes, compareFiles disk files (dir1 ++ rel) (dir2 ++ rel) = some (.ok yes)) →
    ∃ yes, comparePairs disk files dir1 dir2 es2 es1 = some (.ok yes)
  | [], _ => ⟨true, rfl⟩
  | r :: rest, h => by
    unfold comparePairs
    rcases hf : es2.find? (· = r) with _ | r2
    · exact ⟨false, rfl⟩
    have h3 : r2 = r := by simpa using List.find?_some hf
    subst h3
    obtain ⟨yes, hy⟩ := h r2 (by simp) (List.mem_of_find?_eq_some hf)
    dsimp only
    rw [hy]
    cases yes
    · exact ⟨false, rfl⟩
    · exact comparePairs_answers rest fun rel hm => h rel (by simp [hm])

theorem compareFiles_answers {disk : Disk} {files : Path → Option Buf} {p1 p2 : Path} (h1 : (files p1).isSome = true)
    (h2 : (files p2).isSome = true) (g1 : Healthy disk p1) (g2 : Healthy disk p2) :
    ∃ yes, compareFiles disk files p1 p2 = some (.ok yes) := by
  obtain ⟨a, ha⟩ := Option.isSome_iff_exists.1 h1
  obtain ⟨b, hb⟩ := Option.isSome_iff_exists.1 h2
  by_cases he : compareFiles disk files p1 p2 = some (.error ())
  · exfalso
    unfold compareFiles at he
    rw [ha, hb] at he
    dsimp only at he
    rw [if_neg (by simp [g1.stat]), if_neg (by simp [g2.stat])] at he
    split at he
    · exact nomatch he
    rw [if_neg (by simp [g1.canOpen]), if_neg (by simp [g2.canOpen])] at he
    exact compareLoop_no_error _ _ g1.read g2.read _ _ _ _ he
  · rcases hc : compareFiles disk files p1 p2 with _ | (⟨⟨⟩⟩ | yes)
    · exact absurd hc (C69_files disk files p1 p2).1
    · exact absurd hc he
    · exact ⟨yes, rfl⟩

/-- **C69** (directories): without errors two directories are reported as different unless the same relative paths lead to files
with the same contents; if files at the same relative path are read in the same portions, they are reported as equal exactly
then. -/
theorem C69_directories {σ : Type} (disk : Disk) (w : World σ) (ht : IsTree w) (hl : Faithful disk w) (fuel : Nat) (dir1 dir2 : Path)
    (h1 : Walkable disk w dir1 fuel) (h2 : Walkable disk w dir2 fuel) (d1 : w.dirs dir1 = true) (d2 : w.dirs dir2 = true) :
    (∃ yes, compareDirectories disk w fuel dir1 dir2 = some (.ok yes)) ∧
    ((∀ rel, disk.read (dir1 ++ rel) = disk.read (dir2 ++ rel)) →
      (compareDirectories disk w fuel dir1 dir2 = some (.ok true) ↔ ∀ rel, w.files (dir1 ++ rel) = w.files (dir2 ++ rel))) := by
  obtain ⟨es1, e1⟩ := collect_ok h1 fuel [] (by simpa using d1) (by simp)
  obtain ⟨es2, e2⟩ := collect_ok h2 fuel [] (by simpa using d2) (by simp)
  obtain ⟨n1, m1⟩ := collect_spec ht hl dir1 fuel [] es1 e1
  obtain ⟨n2, m2⟩ := collect_spec ht hl dir2 fuel [] es2 e2
  have i1 : ∀ rel ∈ es1, (w.files (dir1 ++ rel)).isSome = true := fun rel hm => by
    obtain ⟨_, _, _, _, h⟩ := (m1 rel).1 hm; exact h
  have i2 : ∀ rel ∈ es2, (w.files (dir2 ++ rel)).isSome = true := fun rel hm => by
    obtain ⟨_, _, _, _, h⟩ := (m2 rel).1 hm; exact h
  constructor
  · unfold compareDirectories
    dsimp only
    rw [e1, e2]
    dsimp only
    split
    · exact ⟨false, rfl⟩
    · exact comparePairs_answers es1 fun rel hm hm2 =>
        compareFiles_answers (i1 rel hm) (i2 rel hm2) (h1.files rel (i1 rel hm)) (h2.files rel (i2 rel hm2))
  · intro hr
    constructor
    · intro h rel
      by_cases h0 : rel = []
      · rw [h0, List.append_nil, List.append_nil, ht.notBoth _ d1, ht.notBoth _ d2]
      · exact C69_directories_sound disk w ht hl fuel dir1 dir2 h rel h0
    · intro h
      have hsub : ∀ x, x ∈ es1 ↔ x ∈ es2 := by
        intro x
        rw [m1, m2]
        simp only [h]
      have hlen : es1.length = es2.length := by
        have a := List.Nodup.length_le_of_subset n1 (fun x hx => (hsub x).1 hx)
        have b := List.Nodup.length_le_of_subset n2 (fun x hx => (hsub x).2 hx)
        omega
      unfold compareDirectories
      dsimp only
      rw [e1, e2]
      dsimp only
      rw [if_neg (by simpa using hlen)]
      refine comparePairs_same es1 fun rel hm => ⟨(hsub rel).1 hm, ?_⟩
      obtain ⟨b, hb⟩ := Option.isSome_iff_exists.1 (i1 rel hm)
      exact (C69_files disk w.files _ _).2.2.1 b hb ((h rel) ▸ hb) (h1.files rel (i1 rel hm))
        (h2.files rel (i2 rel ((hsub rel).1 hm))) (hr rel)

/-- Two directories with the same file; the second also has an empty directory. -/
def twinWorld : World Unit :=
  ⟨fun p => if p = ["a", "x"] ∨ p = ["b", "x"] then some [7, 8] else none,
    fun p => decide (p = [] ∨ p = ["a"] ∨ p = ["b"] ∨ p = ["b", "e"]), 0, ()⟩

/-- Its listing; files are read at once. -/
def twinDisk : Disk :=
  ⟨fun p => if p = [] then some ["a", "b"] else if p = ["a"] then some ["x"] else if p = ["b"] then some ["e", "x"] else some [],
    fun _ => true, fun _ => true, fun _ _ => some 65536⟩

theorem twin_tree : IsTree twinWorld := by
  refine ⟨fun p name h => ?_, fun p h => ?_⟩
  · rcases p with _ | ⟨x, _ | ⟨y, p⟩⟩
    · rfl
    · have : [x] = ["a"] ∨ [x] = ["b"] := by
        rcases h with h | h
        · by_cases hp : [x] ++ [name] = ["a", "x"] ∨ [x] ++ [name] = ["b", "x"]
          · simp at hp ⊢
            rcases hp with ⟨rfl, _⟩ | ⟨rfl, _⟩ <;> simp
          · simp [twinWorld] at h
            exact absurd (by simpa using h) hp
        · simp [twinWorld] at h
          simp [h]
      rcases this with h | h <;> rw [h] <;> decide
    · exfalso
      simp [twinWorld] at h
  · simp only [twinWorld, decide_eq_true_eq] at h
    rcases h with rfl | rfl | rfl | rfl <;> decide

/-- The hypotheses hold for directories that are not trivial, and an empty directory makes no difference. -/
example : IsTree twinWorld ∧ compareDirectories twinDisk twinWorld 3 ["a"] ["b"] = some (.ok true) ∧
    compareDirectories twinDisk (twinWorld.setFile ["b", "x"] (some [7, 9])) 3 ["a"] ["b"] = some (.ok false) :=
  ⟨twin_tree, rfl, rfl⟩

theorem twin_faithful : Faithful twinDisk twinWorld := by
  intro d names h
  have key : ∀ name, (twinWorld.files (d ++ [name])).isSome = true ∨ twinWorld.dirs (d ++ [name]) = true →
      d = [] ∧ (name = "a" ∨ name = "b") ∨ d = ["a"] ∧ name = "x" ∨ d = ["b"] ∧ (name = "e" ∨ name = "x") := by
    intro name hn
    rcases d with _ | ⟨x, _ | ⟨y, d⟩⟩
    · simp [twinWorld] at hn
      simp [hn]
    · rcases hn with hn | hn
      · by_cases hp : [x] ++ [name] = ["a", "x"] ∨ [x] ++ [name] = ["b", "x"]
        · simp at hp
          rcases hp with ⟨rfl, rfl⟩ | ⟨rfl, rfl⟩ <;> simp
        · simp [twinWorld] at hn
          exact absurd (by simpa using hn) hp
      · simp [twinWorld] at hn
        simp [hn]
    · simp [twinWorld] at hn
  unfold twinDisk at h
  dsimp only at h
  split at h
  · next hd =>
    cases h
    refine ⟨by decide, fun name hn => ?_⟩
    rcases key name hn with ⟨_, h⟩ | ⟨h, _⟩ | ⟨h, _⟩
    · simpa using h
    · rw [hd] at h; exact nomatch h
    · rw [hd] at h; exact nomatch h
  split at h
  · next hd =>
    cases h
    refine ⟨by decide, fun name hn => ?_⟩
    rcases key name hn with ⟨h, _⟩ | ⟨_, h⟩ | ⟨h, _⟩
    · rw [hd] at h; exact nomatch h
    · simpa using h
    · rw [hd] at h; simp at h
  split at h
  · next hd =>
    cases h
    refine ⟨by decide, fun name hn => ?_⟩
    rcases key name hn with ⟨h, _⟩ | ⟨h, _⟩ | ⟨_, h⟩
    · rw [hd] at h; exact nomatch h
    · rw [hd] at h; simp at h
    · simpa using h
  · next h1 h2 h3 =>
    cases h
    refine ⟨by decide, fun name hn => ?_⟩
    rcases key name hn with ⟨h, _⟩ | ⟨h, _⟩ | ⟨h, _⟩
    · exact absurd h h1
    · exact absurd h h2
    · exact absurd h h3

theorem twin_walkable (dir : Path) (hd : dir = ["a"] ∨ dir = ["b"]) : Walkable twinDisk twinWorld dir 3 where
  list rel _ := by
    unfold twinDisk
    dsimp only
    repeat' split
    all_goals simp
  deep rel h := by
    rcases hd with rfl | rfl <;> simp [twinWorld] at h
    · simp [h]
    · rcases h with h | h <;> simp [h]
  files rel _ := ⟨rfl, rfl, fun _ => nofun⟩

/-- All hypotheses of `C69_directories` hold for them. -/
example : ∀ rel, twinWorld.files (["a"] ++ rel) = twinWorld.files (["b"] ++ rel) :=
  ((C69_directories twinDisk twinWorld twin_tree twin_faithful 3 ["a"] ["b"] (twin_walkable _ (.inl rfl)) (twin_walkable _ (.inr rfl))
    (by decide) (by decide)).2 fun _ => rfl).1 rfl

theorem collectEntries_end {isFile isDir : Path → Bool} {visit : Path → Option (Except Unit (List Path))} {base rel : Path}
    (hv : ∀ name, isDir (base ++ (rel ++ [name])) = true → visit (rel ++ [name]) ≠ none) :
    ∀ names : List String, collectEntries isFile isDir visit base rel names ≠ none
  | [] => by simp [collectEntries]
  | name :: names => by
    have ih := collectEntries_end (isFile := isFile) hv names
    unfold collectEntries
    split
    · split
      · simp
      · exact ih
    · split
      · rename_i hd
        split
        · split
          · simp
          · exact ih
        · exact hv name hd
      · exact ih

theorem collect_end {disk : Disk} {isFile isDir : Path → Bool} {base : Path} {depth : Nat}
    (hdeep : ∀ rel, isDir (base ++ rel) = true → rel.length < depth) :
    ∀ (fuel : Nat) (rel : Path), rel.length < depth → depth ≤ rel.length + fuel →
      collect disk isFile isDir base fuel rel ≠ none
  | 0, rel, hr, hf => by omega
  | fuel + 1, rel, hr, hf => by
    unfold collect
    split
    · simp
    · exact collectEntries_end (fun name hn => collect_end hdeep fuel (rel ++ [name]) (hdeep _ hn) (by simp; omega)) _

theorem comparePairs_end {disk : Disk} {files : Path → Option Buf} {dir1 dir2 : Path} {es2 : List Path} : ∀ es1 : List Path,
    comparePairs disk files dir1 dir2 es2 es1 ≠ none
  | [] => by simp [comparePairs]
  | rel :: rest => by
    unfold comparePairs
    split
    · split
      · exact comparePairs_end rest
      · exact (C69_files disk files _ _).1
    · simp

/-- **C69** (directories, end): the comparison of two directories comes to an end, whatever fails on the way and whatever the system
lists; `fuel` only has to exceed the depth to which directories are nested. -/
theorem C69_directories_end {σ : Type} (disk : Disk) (w : World σ) (fuel : Nat) (dir1 dir2 : Path) (h0 : 0 < fuel)
    (h1 : ∀ rel, w.dirs (dir1 ++ rel) = true → rel.length < fuel) (h2 : ∀ rel, w.dirs (dir2 ++ rel) = true → rel.length < fuel) :
    compareDirectories disk w fuel dir1 dir2 ≠ none := by
  have e1 := collect_end (disk := disk) (isFile := fun p => (w.files p).isSome) h1 fuel [] h0 (by simp)
  have e2 := collect_end (disk := disk) (isFile := fun p => (w.files p).isSome) h2 fuel [] h0 (by simp)
  unfold compareDirectories
  dsimp only
  split
  · exact absurd ‹_› e1
  · simp
  · split
    · exact absurd ‹_› e2
    · simp
    · split
      · simp
      · exact comparePairs_end _

/-- One of the two directories cannot be listed. -/
example : compareDirectories { twinDisk with list := fun p => if p = ["b"] then none else twinDisk.list p } twinWorld 3 ["a"] ["b"] =
    some (.error ()) := rfl

end Dlt.Props
