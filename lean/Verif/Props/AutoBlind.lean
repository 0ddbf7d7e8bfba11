import Verif.Props.Auto
import Verif.Lemmas.AutoSim
/-!
# C84: what the choice of settings depends on

The searches for the best settings show the estimator only the end points.  Hence textures with the same end points get the same settings.
-/

namespace Dlt.Auto

variable {S σ E : Type}

/-- The same measurements of two transformed textures. -/
def SameSight (T₁ T₂ : S → Buf) (m : σ → Buf → σ × Except E Nat) : Prop := ∀ st s, m st (T₁ s) = m st (T₂ s)

theorem loop_blind {P₁ P₂ : Buf → Prop} {tr₁ tr₂ : Buf → S → Option Buf} {T₁ T₂ : S → Buf} (h₁ : Runs P₁ tr₁ T₁) (h₂ : Runs P₂ tr₂ T₂)
    {m : σ → Buf → σ × Except E Nat} (hs : SameSight T₁ T₂ m) :
    ∀ (order : List S) (o₁ o₂ : Buf) (st : σ) (best : S) (bs : Nat) (last : S), P₁ o₁ → P₂ o₂ →
      ∃ o₁' o₂' st' r, loop tr₁ m order o₁ st best bs last = some (o₁', st', r) ∧
        loop tr₂ m order o₂ st best bs last = some (o₂', st', r) ∧ P₁ o₁' ∧ P₂ o₂'
  | [], o₁, o₂, st, _, _, _, hP₁, hP₂ => ⟨o₁, o₂, st, _, rfl, rfl, hP₁, hP₂⟩
  | s :: rest, o₁, o₂, st, best, bs, last, hP₁, hP₂ => by
    simp only [loop, h₁.eq o₁ s hP₁, h₂.eq o₂ s hP₂, Option.bind_eq_bind, Option.bind_some]
    rw [hs st s]
    cases m st (T₂ s) with
    | mk a r1 =>
      cases r1 with
      | error e => exact ⟨_, _, _, _, rfl, rfl, h₁.keep s, h₂.keep s⟩
      | ok n =>
        dsimp only
        split
        · exact loop_blind h₁ h₂ hs rest _ _ _ _ _ _ (h₁.keep s) (h₂.keep s)
        · exact loop_blind h₁ h₂ hs rest _ _ _ _ _ _ (h₁.keep s) (h₂.keep s)

theorem search_blind [DecidableEq S] {P₁ P₂ : Buf → Prop} {tr₁ tr₂ : Buf → S → Option Buf} {T₁ T₂ : S → Buf} (h₁ : Runs P₁ tr₁ T₁)
    (h₂ : Runs P₂ tr₂ T₂) {m : σ → Buf → σ × Except E Nat} (hs : SameSight T₁ T₂ m) (env : Env) (order : List S) (dflt : S)
    (o₁ o₂ : Buf) (st : σ) (hP₁ : P₁ o₁) (hP₂ : P₂ o₂) :
    ∃ o₁' o₂' st' r, search env order dflt tr₁ m o₁ st = some (o₁', st', r) ∧
      search env order dflt tr₂ m o₂ st = some (o₂', st', r) := by
  obtain ⟨o₁', o₂', a, r, e1, e2, e3, e4⟩ := loop_blind h₁ h₂ hs order o₁ o₂ st dflt env.usizeMax dflt hP₁ hP₂
  simp only [search, e1, e2, Option.bind_eq_bind, Option.bind_some]
  rcases r with e | ⟨best, last⟩
  · exact ⟨_, _, _, _, rfl, rfl⟩
  · dsimp only
    split
    · rw [h₁.eq _ _ e3, h₂.eq _ _ e4]
      exact ⟨_, _, _, _, rfl, rfl⟩
    · exact ⟨_, _, _, _, rfl, rfl⟩

theorem prepare_blind [DecidableEq S] {P₁ P₂ : Buf → Prop} {tr₁ tr₂ : Buf → S → Option Buf} {T₁ T₂ : S → Buf} (h₁ : Runs P₁ tr₁ T₁)
    (h₂ : Runs P₂ tr₂ T₂) {m : Nat → σ → Buf → σ × Except E Nat} (hs : ∀ k, SameSight T₁ T₂ (m k)) (env : Env) (est : Estimator σ E)
    (len : Nat) (order : List S) (dflt : S) (o₁ o₂ : Buf) (st : σ) (hP₁ : P₁ o₁) (hP₂ : P₂ o₂) :
    ∃ o₁' o₂' st' r,
      prepare env est len o₁ st (fun k st => search env order dflt tr₁ (m k) o₁ st) = some (o₁', st', r) ∧
      prepare env est len o₂ st (fun k st => search env order dflt tr₂ (m k) o₂ st) = some (o₂', st', r) := by
  unfold prepare
  cases est.maxSize st len with
  | mk a r1 =>
    cases r1 with
    | error e => exact ⟨_, _, _, _, rfl, rfl⟩
    | ok k =>
      dsimp only
      by_cases h0 : k = 0
      · subst h0
        rw [if_pos rfl, if_pos rfl]
        exact search_blind h₁ h₂ (hs 0) env order dflt o₁ o₂ a hP₁ hP₂
      · rw [if_neg h0, if_neg h0]
        split
        · exact search_blind h₁ h₂ (hs k) env order dflt o₁ o₂ a hP₁ hP₂
        · exact ⟨_, _, _, _, rfl, rfl⟩

end Dlt.Auto

namespace Dlt.Props
open Spec

theorem column_congr {B n : Nat} {a b : Buf} (hB : 0 < B) (ha : a.length = n * B) (hb : b.length = n * B) {f : Buf → Buf}
    (h : ∀ i, i < n → f (block B a i) = f (block B b i)) : column B a f = column B b f := by
  unfold column
  rw [length_div hB ha, length_div hB hb]
  exact flatMap_congr_range h

/-- Blocks with the same bytes `o … o + w` have the same parts of these. -/
theorem slice_part {a b : Buf} {o w x y : Nat} (h : slice a o w = slice b o w) (h1 : o ≤ x) (h2 : x + y ≤ o + w) :
    slice a x y = slice b x y := by
  have e : ∀ c : Buf, slice c x y = slice (slice c o w) (x - o) y := by
    intro c
    simp only [slice, List.drop_take, List.drop_drop, List.take_take]
    rw [Nat.min_eq_left (by omega), show o + (x - o) = x by omega]
  rw [e a, e b, h]

variable {σ E : Type}

/-- The textures have the same bytes `o … o + w` in each of their blocks of `B` bytes. -/
def SamePart (B o w n : Nat) (a b : Buf) : Prop := ∀ i, i < n → slice (block B a i) o w = slice (block B b i) o w

/-- Some sections of a layout. -/
theorem columns_part {B n : Nat} {data : Buf} (hB : 0 < B) (hd : data.length = n * B) {pre mid : List (Buf → Buf)} (post : List (Buf → Buf))
    {wp wm : List Nat} (hp : Fits B pre wp) (hm : Fits B mid wm) (tail : Buf) :
    slice (columns B (pre ++ mid ++ post) data ++ tail) (n * wp.sum) (n * wm.sum) = columns B mid data := by
  have h1 := columns_length hB hd hp
  have h2 := columns_length hB hd hm
  simp only [columns] at h1 h2 ⊢
  rw [List.flatMap_append, List.flatMap_append, List.append_assoc, List.append_assoc, slice_append_right _ _ _ 0 _ (by omega),
    slice_append_left _ _ _ _ (by omega), slice_all h2]

/-- The sections `mid` are the same for both textures, if they come from the same parts of the blocks. -/
theorem part_blind {B n o w : Nat} {a b : Buf} (hB : 0 < B) (ha : a.length = n * B) (hb : b.length = n * B) (h : SamePart B o w n a b)
    {fs pre mid post : List (Buf → Buf)} (hfs : fs = pre ++ mid ++ post) {wp wm : List Nat} (hp : Fits B pre wp) (hm : Fits B mid wm)
    (hmid : ∀ f ∈ mid, ∀ c d : Buf, slice c o w = slice d o w → f c = f d) (x y : Buf) {u v : Nat} (hu : u = n * wp.sum)
    (hv : v = n * wm.sum) : slice (columns B fs a ++ x) u v = slice (columns B fs b ++ y) u v := by
  rw [hfs, hu, hv, columns_part hB ha post hp hm, columns_part hB hb post hp hm]
  simp only [columns, List.flatMap_def]
  congr 1
  refine List.map_congr_left fun f hf => column_congr hB ha hb fun i hi => hmid f hf _ _ (h i hi)

theorem shown_blind1 {n : Nat} {a b : Buf} (ha : a.length = n * 8) (hb : b.length = n * 8) (h : SamePart 8 0 4 n a b) (e : Endian)
    (s : ColourSettings) (x y : Buf) :
    slice (Bc1.encode e s a ++ x) 0 (n * 4) = slice (Bc1.encode e s b ++ y) 0 (n * 4) := by
  have hc : ∀ bs : Buf, (encCol e s.decorr bs).length = 2 := encCol_length e s.decorr
  unfold Bc1.encode
  cases s.split
  · refine part_blind (pre := []) (mid := [_]) (wp := []) (wm := [4]) (by omega) ha hb h rfl trivial ⟨fun b _ => ?_, trivial⟩ ?_ x y rfl rfl
    · rw [List.length_append, hc, hc]
    · intro f hf c d hcd
      cases List.mem_singleton.1 hf
      simp only [slice_part hcd (x := 0) (y := 2) (by omega) (by omega), slice_part hcd (x := 2) (y := 2) (by omega) (by omega)]
  · refine part_blind (pre := []) (mid := [_, _]) (wp := []) (wm := [2, 2]) (by omega) ha hb h rfl trivial
      ⟨fun b _ => hc _, fun b _ => hc _, trivial⟩ ?_ x y rfl rfl
    intro f hf c d hcd
    simp only [List.mem_cons, List.not_mem_nil, or_false] at hf
    rcases hf with rfl | rfl
    · simp only [slice_part hcd (x := 0) (y := 2) (by omega) (by omega)]
    · simp only [slice_part hcd (x := 2) (y := 2) (by omega) (by omega)]

theorem shown_blind2 {n : Nat} {a b : Buf} (ha : a.length = n * 16) (hb : b.length = n * 16) (h : SamePart 16 8 4 n a b) (e : Endian)
    (s : ColourSettings) (x y : Buf) :
    slice (Bc2.encode e s a ++ x) (n * 8) (n * 4) = slice (Bc2.encode e s b ++ y) (n * 8) (n * 4) := by
  have hc : ∀ bs : Buf, (encCol e s.decorr bs).length = 2 := encCol_length e s.decorr
  have h8 : ∀ b : Buf, b.length = 16 → (slice b 0 8).length = 8 := fun b hb => slice_length_of_le (by omega)
  unfold Bc2.encode
  cases s.split
  · refine part_blind (pre := [_]) (mid := [_]) (wp := [8]) (wm := [4]) (by omega) ha hb h rfl ⟨h8, trivial⟩ ⟨fun b _ => ?_, trivial⟩
      ?_ x y rfl rfl
    · rw [List.length_append, hc, hc]
    · intro f hf c d hcd
      cases List.mem_singleton.1 hf
      simp only [slice_part hcd (x := 8) (y := 2) (by omega) (by omega), slice_part hcd (x := 10) (y := 2) (by omega) (by omega)]
  · refine part_blind (pre := [_]) (mid := [_, _]) (wp := [8]) (wm := [2, 2]) (by omega) ha hb h rfl ⟨h8, trivial⟩
      ⟨fun b _ => hc _, fun b _ => hc _, trivial⟩ ?_ x y rfl rfl
    intro f hf c d hcd
    simp only [List.mem_cons, List.not_mem_nil, or_false] at hf
    rcases hf with rfl | rfl
    · simp only [slice_part hcd (x := 8) (y := 2) (by omega) (by omega)]
    · simp only [slice_part hcd (x := 10) (y := 2) (by omega) (by omega)]

theorem shown_blind3a {n : Nat} {a b : Buf} (ha : a.length = n * 16) (hb : b.length = n * 16) (h : SamePart 16 0 2 n a b) (e : Endian)
    (s : Bc3.Settings) (x y : Buf) :
    slice (Bc3.encode e s a ++ x) 0 (n * 2) = slice (Bc3.encode e s b ++ y) 0 (n * 2) := by
  have hl : ∀ o k : Nat, o + k ≤ 16 → ∀ b : Buf, b.length = 16 → (slice b o k).length = k := fun o k ho b hb => slice_length_of_le (by omega)
  unfold Bc3.encode bc3Fields
  cases s.splitAlpha
  · refine part_blind (pre := []) (mid := [_]) (wp := []) (wm := [2]) (by omega) ha hb h
      (by rw [List.append_assoc, List.append_assoc]; rfl) trivial ⟨hl 0 2 (by omega), trivial⟩ ?_ x y rfl rfl
    intro f hf c d hcd
    cases List.mem_singleton.1 hf
    exact hcd
  · refine part_blind (pre := []) (mid := [_, _]) (wp := []) (wm := [1, 1]) (by omega) ha hb h
      (by rw [List.append_assoc, List.append_assoc]; rfl) trivial ⟨hl 0 1 (by omega), hl 1 1 (by omega), trivial⟩ ?_ x y rfl rfl
    intro f hf c d hcd
    simp only [List.mem_cons, List.not_mem_nil, or_false] at hf
    rcases hf with rfl | rfl
    · exact slice_part hcd (by omega) (by omega)
    · exact slice_part hcd (by omega) (by omega)

theorem shown_blind3c {n : Nat} {a b : Buf} (ha : a.length = n * 16) (hb : b.length = n * 16) (h : SamePart 16 8 4 n a b) (e : Endian)
    (s : Bc3.Settings) (x y : Buf) :
    slice (Bc3.encode e s a ++ x) (n * 8) (n * 4) = slice (Bc3.encode e s b ++ y) (n * 8) (n * 4) := by
  have hl : ∀ o k : Nat, o + k ≤ 16 → ∀ b : Buf, b.length = 16 → (slice b o k).length = k := fun o k ho b hb => slice_length_of_le (by omega)
  have hc : ∀ bs : Buf, (encCol e s.decorr bs).length = 2 := encCol_length e s.decorr
  unfold Bc3.encode
  have hpre : ∃ wp, wp.sum = 8 ∧ Fits 16 ((if s.splitAlpha = true then [fun b : Buf => slice b 0 1, fun b => slice b 1 1] else
      [fun b => slice b 0 2]) ++ [fun b => slice b 2 6]) wp := by
    cases s.splitAlpha
    · exact ⟨[2, 6], rfl, hl 0 2 (by omega), hl 2 6 (by omega), trivial⟩
    · exact ⟨[1, 1, 6], rfl, hl 0 1 (by omega), hl 1 1 (by omega), hl 2 6 (by omega), trivial⟩
  obtain ⟨wp, hsum, hpre⟩ := hpre
  cases hs : s.splitColour
  · refine part_blind (mid := [_]) (wm := [4]) (by omega) ha hb h rfl hpre ⟨fun b _ => ?_, trivial⟩ ?_ x y (by rw [hsum]) rfl
    · rw [List.length_append, hc, hc]
    · intro f hf c d hcd
      cases List.mem_singleton.1 hf
      simp only [slice_part hcd (x := 8) (y := 2) (by omega) (by omega), slice_part hcd (x := 10) (y := 2) (by omega) (by omega)]
  · refine part_blind (mid := [_, _]) (wm := [2, 2]) (by omega) ha hb h rfl hpre
      ⟨fun b _ => hc _, fun b _ => hc _, trivial⟩ ?_ x y (by rw [hsum]) rfl
    intro f hf c d hcd
    simp only [List.mem_cons, List.not_mem_nil, or_false] at hf
    rcases hf with rfl | rfl
    · simp only [slice_part hcd (x := 8) (y := 2) (by omega) (by omega)]
    · simp only [slice_part hcd (x := 10) (y := 2) (by omega) (by omega)]

/-- **C84** (BC1): two textures of the same length whose blocks have the same colour end points, whatever their indices, are given the same
settings, or the same error, by `transform_bc1_auto`; the estimator sees the same, so that its state is the same as well. Any
estimators, allocators and output buffers, CPUs of one byte order. -/
theorem C84_bc1 (env : Env) (m m' : Machine) (hm : m.endian = m'.endian) (est : Estimator σ E) (useAll : Bool) (n : Nat)
    (a b out out' : Buf) (st : σ) (ha : a.length = n * 8) (hb : b.length = n * 8) (ho : n * 8 ≤ out.length) (ho' : n * 8 ≤ out'.length)
    (h : SamePart 8 0 4 n a b) :
    ∃ x y st' r, Bc1.transformAuto env m est useAll a out a.length st = some (x, st', r) ∧
      Bc1.transformAuto env m' est useAll b out' b.length st = some (y, st', r) := by
  have hl : a.length / 2 = n * 4 := by omega
  have hl' : b.length = a.length := by omega
  unfold Bc1.transformAuto
  rw [hl']
  have r2 := runs1 m' (data := b) (out := out') (by omega) (by omega)
  rw [hl'] at r2
  refine Auto.prepare_blind (runs1 m (data := a) (out := out) (by omega) (by omega)) r2
    (fun k st s => ?_) env est _ _ _ _ _ _ ⟨rfl, rfl⟩ ⟨rfl, rfl⟩
  unfold Bc1.measure
  rw [hl, ← hm, shown_blind1 ha hb h]

/-- **C84** (BC2): the same for two textures whose blocks have the same colour end points, whatever their alpha values and indices. -/
theorem C84_bc2 (env : Env) (m m' : Machine) (hm : m.endian = m'.endian) (est : Estimator σ E) (useAll : Bool) (n : Nat)
    (a b out out' : Buf) (st : σ) (ha : a.length = n * 16) (hb : b.length = n * 16) (ho : n * 16 ≤ out.length)
    (ho' : n * 16 ≤ out'.length) (h : SamePart 16 8 4 n a b) :
    ∃ x y st' r, Bc2.transformAuto env m est useAll a out a.length st = some (x, st', r) ∧
      Bc2.transformAuto env m' est useAll b out' b.length st = some (y, st', r) := by
  have hl : a.length / 4 = n * 4 := by omega
  have h2 : a.length / 2 = n * 8 := by omega
  have hl' : b.length = a.length := by omega
  unfold Bc2.transformAuto
  rw [hl']
  have r2 := runs2 m' (data := b) (out := out') (by omega) (by omega)
  rw [hl'] at r2
  refine Auto.prepare_blind (runs2 m (data := a) (out := out) (by omega) (by omega)) r2
    (fun k st s => ?_) env est _ _ _ _ _ _ ⟨rfl, rfl⟩ ⟨rfl, rfl⟩
  unfold Bc2.measure
  rw [hl, h2, ← hm, shown_blind2 ha hb h]

/-- **C84** (BC3): the same for two textures whose blocks have the same alpha and colour end points, whatever their indices. -/
theorem C84_bc3 (env : Env) (m m' : Machine) (hm : m.endian = m'.endian) (est : Estimator σ E) (useAll : Bool) (n : Nat)
    (a b out out' : Buf) (st : σ) (ha : a.length = n * 16) (hb : b.length = n * 16) (ho : n * 16 ≤ out.length)
    (ho' : n * 16 ≤ out'.length) (h : SamePart 16 0 2 n a b) (h' : SamePart 16 8 4 n a b) :
    ∃ x y st' r, Bc3.transformAuto env m est useAll a out a.length st = some (x, st', r) ∧
      Bc3.transformAuto env m' est useAll b out' b.length st = some (y, st', r) := by
  have h2 : a.length / 2 = n * 8 := by omega
  have h16 : a.length / 16 = n := by omega
  have hl' : b.length = a.length := by omega
  unfold Bc3.transformAuto
  rw [hl']
  have r2 := runs3 m' (data := b) (out := out') (by omega) (by omega)
  rw [hl'] at r2
  refine Auto.prepare_blind (runs3 m (data := a) (out := out) (by omega) (by omega)) r2
    (fun k st s => ?_) env est _ _ _ _ _ _ ⟨rfl, rfl⟩ ⟨rfl, rfl⟩
  unfold Bc3.measure
  rw [h2, h16, ← hm, shown_blind3a ha hb h, shown_blind3c ha hb h']

/-- A case: the blocks differ in their indices only. -/
example : let a : Buf := [1, 2, 3, 4, 0, 0, 0, 0]
    let b : Buf := [1, 2, 3, 4, 9, 8, 7, 6]
    a ≠ b ∧ SamePart 8 0 4 1 a b := by
  refine ⟨by decide, fun i hi => ?_⟩
  obtain rfl : i = 0 := by omega
  decide

end Dlt.Props
