import Verif.Props.AutoBlind
import Verif.Props.Bc1
import Verif.Props.Bc2
import Verif.Props.Bc3
/-!
# C110: the colours of BC2 and BC3 are handled as a BC1 texture

A block of BC2 or BC3 is eight bytes of alpha and then a BC1 block.  The three crates have kernels, settings and searches of their
own.  Here: the second half of a transformed BC2 or BC3 texture is what the BC1 crate makes of the colour blocks, in both
directions, and the automatic choice of settings for BC2 is the one for these blocks, whatever the estimator.
-/

namespace Dlt.Auto

variable {S σ E : Type}

/-- The same measurements, each search with its own way to measure. -/
def TwinSight (T₁ T₂ : S → Buf) (m₁ m₂ : σ → Buf → σ × Except E Nat) : Prop := ∀ st s, m₁ st (T₁ s) = m₂ st (T₂ s)

theorem loop_twin {P₁ P₂ : Buf → Prop} {tr₁ tr₂ : Buf → S → Option Buf} {T₁ T₂ : S → Buf} (h₁ : Runs P₁ tr₁ T₁) (h₂ : Runs P₂ tr₂ T₂)
    {m₁ m₂ : σ → Buf → σ × Except E Nat} (hs : TwinSight T₁ T₂ m₁ m₂) :
    ∀ (order : List S) (o₁ o₂ : Buf) (st : σ) (best : S) (bs : Nat) (last : S), P₁ o₁ → P₂ o₂ →
      ∃ o₁' o₂' st' r, loop tr₁ m₁ order o₁ st best bs last = some (o₁', st', r) ∧
        loop tr₂ m₂ order o₂ st best bs last = some (o₂', st', r) ∧ P₁ o₁' ∧ P₂ o₂'
  | [], o₁, o₂, st, _, _, _, hP₁, hP₂ => ⟨o₁, o₂, st, _, rfl, rfl, hP₁, hP₂⟩
  | s :: rest, o₁, o₂, st, best, bs, last, hP₁, hP₂ => by
    simp only [loop, h₁.eq o₁ s hP₁, h₂.eq o₂ s hP₂, Option.bind_eq_bind, Option.bind_some]
    rw [hs st s]
    cases m₂ st (T₂ s) with
    | mk a r1 =>
      cases r1 with
      | error e => exact ⟨_, _, _, _, rfl, rfl, h₁.keep s, h₂.keep s⟩
      | ok n =>
        dsimp only
        split
        · exact loop_twin h₁ h₂ hs rest _ _ _ _ _ _ (h₁.keep s) (h₂.keep s)
        · exact loop_twin h₁ h₂ hs rest _ _ _ _ _ _ (h₁.keep s) (h₂.keep s)

theorem search_twin [DecidableEq S] {P₁ P₂ : Buf → Prop} {tr₁ tr₂ : Buf → S → Option Buf} {T₁ T₂ : S → Buf} (h₁ : Runs P₁ tr₁ T₁)
    (h₂ : Runs P₂ tr₂ T₂) {m₁ m₂ : σ → Buf → σ × Except E Nat} (hs : TwinSight T₁ T₂ m₁ m₂) (env : Env) (order : List S) (dflt : S)
    (o₁ o₂ : Buf) (st : σ) (hP₁ : P₁ o₁) (hP₂ : P₂ o₂) :
    ∃ o₁' o₂' st' r, search env order dflt tr₁ m₁ o₁ st = some (o₁', st', r) ∧
      search env order dflt tr₂ m₂ o₂ st = some (o₂', st', r) := by
  obtain ⟨o₁', o₂', a, r, e1, e2, e3, e4⟩ := loop_twin h₁ h₂ hs order o₁ o₂ st dflt env.usizeMax dflt hP₁ hP₂
  simp only [search, e1, e2, Option.bind_eq_bind, Option.bind_some]
  rcases r with e | ⟨best, last⟩
  · exact ⟨_, _, _, _, rfl, rfl⟩
  · dsimp only
    split
    · rw [h₁.eq _ _ e3, h₂.eq _ _ e4]
      exact ⟨_, _, _, _, rfl, rfl⟩
    · exact ⟨_, _, _, _, rfl, rfl⟩

theorem prepare_twin [DecidableEq S] {P₁ P₂ : Buf → Prop} {tr₁ tr₂ : Buf → S → Option Buf} {T₁ T₂ : S → Buf} (h₁ : Runs P₁ tr₁ T₁)
    (h₂ : Runs P₂ tr₂ T₂) {m₁ m₂ : Nat → σ → Buf → σ × Except E Nat} (hs : ∀ k, TwinSight T₁ T₂ (m₁ k) (m₂ k)) (env : Env)
    (est : Estimator σ E) (len : Nat) (order : List S) (dflt : S) (o₁ o₂ : Buf) (st : σ) (hP₁ : P₁ o₁) (hP₂ : P₂ o₂) :
    ∃ o₁' o₂' st' r,
      prepare env est len o₁ st (fun k st => search env order dflt tr₁ (m₁ k) o₁ st) = some (o₁', st', r) ∧
      prepare env est len o₂ st (fun k st => search env order dflt tr₂ (m₂ k) o₂ st) = some (o₂', st', r) := by
  unfold prepare
  cases est.maxSize st len with
  | mk a r1 =>
    cases r1 with
    | error e => exact ⟨_, _, _, _, rfl, rfl⟩
    | ok k =>
      dsimp only
      by_cases h0 : k = 0
      · subst h0
        rw [if_pos rfl, if_pos rfl]
        exact search_twin h₁ h₂ (hs 0) env order dflt o₁ o₂ a hP₁ hP₂
      · rw [if_neg h0, if_neg h0]
        split
        · exact search_twin h₁ h₂ (hs k) env order dflt o₁ o₂ a hP₁ hP₂
        · exact ⟨_, _, _, _, rfl, rfl⟩

end Dlt.Auto

namespace Dlt.Props
open Spec

variable {σ E : Type}

/-! ## Specification -/

/-- The second half of every block of 16 bytes. -/
def coloursOf (data : Buf) : Buf := column 16 data fun b => slice b 8 8

/-! ## Lemmas -/

theorem slice_of_slice (b : Buf) {o w x y : Nat} (h : x + y ≤ w) : slice (slice b o w) x y = slice b (o + x) y := by
  simp only [slice, List.drop_take, List.drop_drop, List.take_take]
  rw [Nat.min_eq_left (by omega)]

theorem coloursOf_length {n : Nat} {data : Buf} (h : data.length = n * 16) : (coloursOf data).length = n * 8 :=
  column_length (by omega) h fun _ hb => slice_length_of_le (by omega)

theorem block_coloursOf {n i : Nat} {data : Buf} (h : data.length = n * 16) (hi : i < n) :
    block 8 (coloursOf data) i = slice (block 16 data i) 8 8 := by
  have e := flatMap_range_slice n 8 i 1 (fun i => slice (block 16 data i) 8 8)
    (fun j hj => slice_length_of_le (by rw [block_length h hj])) (by omega)
  unfold coloursOf column
  rw [length_div (by omega) h]
  simpa [block] using e

theorem column_coloursOf {n : Nat} {data : Buf} (h : data.length = n * 16) (f : Buf → Buf) :
    column 8 (coloursOf data) f = column 16 data fun b => f (slice b 8 8) := by
  rw [column, column, length_div (by omega) (coloursOf_length h), length_div (by omega) h]
  exact flatMap_congr_range fun i hi => by rw [block_coloursOf h hi]

/-- The sections of the colours. -/
theorem columns_coloursOf {n : Nat} {data : Buf} (h : data.length = n * 16) (col : Buf → Buf) (split : Bool) :
    columns 8 (bc1Fields col split) (coloursOf data) =
      columns 16 ((if split then [fun b => col (slice b 8 2), fun b => col (slice b 10 2)]
        else [fun b => col (slice b 8 2) ++ col (slice b 10 2)]) ++ [fun b => slice b 12 4]) data := by
  have e : ∀ x y, x + y ≤ 8 → ∀ b : Buf, slice (slice b 8 8) x y = slice b (8 + x) y := fun x y hxy b => slice_of_slice b hxy
  cases split <;>
    simp [columns, bc1Fields, column_coloursOf h, e 0 2 (by omega), e 2 2 (by omega), e 4 4 (by omega)]

theorem encode2_eq {n : Nat} {data : Buf} (h : data.length = n * 16) (e : Endian) (s : ColourSettings) :
    Bc2.encode e s data = column 16 data (fun b => slice b 0 8) ++ Bc1.encode e s (coloursOf data) := by
  unfold Bc2.encode Bc1.encode
  rw [columns_coloursOf h]
  cases s.split <;> simp [columns, bc2Fields]

/-- The alpha sections of BC3. -/
def alphaFields (splitAlpha : Bool) : List (Buf → Buf) :=
  (if splitAlpha then [fun b => slice b 0 1, fun b => slice b 1 1] else [fun b => slice b 0 2]) ++ [fun b => slice b 2 6]

theorem alphaFields_fits (splitAlpha : Bool) : ∃ ws : List Nat, ws.sum = 8 ∧ Fits 16 (alphaFields splitAlpha) ws := by
  have hl : ∀ o k : Nat, o + k ≤ 16 → ∀ b : Buf, b.length = 16 → (slice b o k).length = k :=
    fun o k ho b hb => slice_length_of_le (by omega)
  cases splitAlpha
  · exact ⟨[2, 6], rfl, hl 0 2 (by omega), hl 2 6 (by omega), trivial⟩
  · exact ⟨[1, 1, 6], rfl, hl 0 1 (by omega), hl 1 1 (by omega), hl 2 6 (by omega), trivial⟩

theorem encode3_eq {n : Nat} {data : Buf} (h : data.length = n * 16) (e : Endian) (s : Bc3.Settings) :
    Bc3.encode e s data =
      columns 16 (alphaFields s.splitAlpha) data ++ Bc1.encode e ⟨s.decorr, s.splitColour⟩ (coloursOf data) := by
  unfold Bc3.encode Bc1.encode
  rw [columns_coloursOf h]
  cases s.splitAlpha <;> cases s.splitColour <;> simp [columns, bc3Fields, alphaFields]

theorem second_half {a b tail : Buf} {n : Nat} (ha : a.length = n * 8) (hb : b.length = n * 8) :
    slice (a ++ b ++ tail) (n * 8) (n * 8) = b := by
  rw [List.append_assoc, slice_append_right _ _ _ 0 _ (by omega), slice_append_left _ _ _ _ (by omega), slice_all hb]

/-! ## Given settings -/

/-- **C110**, BC2.  The second half of the transformed texture is the transformed BC1 texture of its colour blocks, on any two CPUs with the
same byte order. -/
theorem C110_bc2 (m m' : Machine) (hm : m'.endian = m.endian) (s : ColourSettings) (data out out' : Buf)
    (h16 : data.length % 16 = 0) (ho : data.length ≤ out.length) (ho' : data.length / 2 ≤ out'.length) :
    ∃ t t', Bc2.transformWithSettings m data out data.length s = some t ∧
      Bc1.transformWithSettings m' (coloursOf data) out' (coloursOf data).length s = some t' ∧
      slice t (data.length / 2) (data.length / 2) = t'.take (data.length / 2) := by
  obtain ⟨n, hn⟩ : ∃ n, data.length = n * 16 := ⟨data.length / 16, by omega⟩
  have hc := coloursOf_length hn
  have e2 := (Bc2.transform_impl m s data out h16 ho).2
  obtain ⟨l1, e1⟩ := Bc1.transform_impl m' s (coloursOf data) out' (by omega) (by omega)
  simp only [] at e1 e2
  refine ⟨_, _, e2, e1, ?_⟩
  have h8 : data.length / 2 = n * 8 := by omega
  rw [hm] at l1 ⊢
  rw [h8, encode2_eq hn, second_half (column_length (by omega) hn fun _ hb => slice_length_of_le (by omega)) (by omega),
    List.take_left' (by omega)]

/-- **C110**, BC3. -/
theorem C110_bc3 (m m' : Machine) (hm : m'.endian = m.endian) (s : Bc3.Settings) (data out out' : Buf)
    (h16 : data.length % 16 = 0) (ho : data.length ≤ out.length) (ho' : data.length / 2 ≤ out'.length) :
    ∃ t t', Bc3.transformWithSettings m data out data.length s = some t ∧
      Bc1.transformWithSettings m' (coloursOf data) out' (coloursOf data).length ⟨s.decorr, s.splitColour⟩ = some t' ∧
      slice t (data.length / 2) (data.length / 2) = t'.take (data.length / 2) := by
  obtain ⟨n, hn⟩ : ∃ n, data.length = n * 16 := ⟨data.length / 16, by omega⟩
  have hc := coloursOf_length hn
  have e2 := (Bc3.transform_impl m s data out h16 ho).2
  obtain ⟨l1, e1⟩ := Bc1.transform_impl m' ⟨s.decorr, s.splitColour⟩ (coloursOf data) out' (by omega) (by omega)
  simp only [] at e1 e2
  refine ⟨_, _, e2, e1, ?_⟩
  have h8 : data.length / 2 = n * 8 := by omega
  obtain ⟨ws, hsum, hfit⟩ := alphaFields_fits s.splitAlpha
  rw [hm] at l1 ⊢
  rw [h8, encode3_eq hn, second_half (by rw [columns_length (by omega) hn hfit, hsum]) (by omega), List.take_left' (by omega)]

/-- **C110**, BC2 backwards: the colour blocks of what is restored are what the BC1 crate restores from the second half. -/
theorem C110_bc2_untransform (m m' : Machine) (hm : m'.endian = m.endian) (s : ColourSettings) (data out out' : Buf)
    (h16 : data.length % 16 = 0) (ho : data.length ≤ out.length) (ho' : data.length / 2 ≤ out'.length) :
    ∃ t t', Bc2.untransformWithSettings m data out data.length s = some t ∧
      Bc1.untransformWithSettings m' (data.drop (data.length / 2)) out' (data.length / 2) s = some t' ∧
      coloursOf (t.take data.length) = t'.take (data.length / 2) := by
  obtain ⟨n, hn⟩ : ∃ n, data.length = n * 16 := ⟨data.length / 16, by omega⟩
  have h8 : data.length / 2 = n * 8 := by omega
  obtain ⟨l2, e2⟩ := Bc2.untransform_impl m s data out h16 ho
  have hd : (data.drop (n * 8)).length = n * 8 := by rw [List.length_drop]; omega
  obtain ⟨l1, e1⟩ := Bc1.untransform_impl m' s (data.drop (n * 8)) out' (by omega) (by omega)
  simp only [] at e1 e2
  rw [hd] at e1 l1
  refine ⟨_, _, e2, by rw [h8]; exact e1, ?_⟩
  rw [List.take_left' (by omega), h8, List.take_left' (by omega)]
  have hback := Bc2.encode_decode m.endian s data h16
  have hl : (Bc2.decode m.endian s data).length = n * 16 := by omega
  have hlc := coloursOf_length hl
  rw [encode2_eq hl] at hback
  have hh : data.drop (n * 8) = Bc1.encode m.endian s (coloursOf (Bc2.decode m.endian s data)) := by
    rw [← hback, List.drop_left' (column_length (by omega) hl fun _ hb => slice_length_of_le (by omega))]
    rw [hback]
  rw [hh, hm, Bc1.decode_encode _ _ _ (by omega)]

/-- **C110**, BC3 backwards. -/
theorem C110_bc3_untransform (m m' : Machine) (hm : m'.endian = m.endian) (s : Bc3.Settings) (data out out' : Buf)
    (h16 : data.length % 16 = 0) (ho : data.length ≤ out.length) (ho' : data.length / 2 ≤ out'.length) :
    ∃ t t', Bc3.untransformWithSettings m data out data.length s = some t ∧
      Bc1.untransformWithSettings m' (data.drop (data.length / 2)) out' (data.length / 2) ⟨s.decorr, s.splitColour⟩ = some t' ∧
      coloursOf (t.take data.length) = t'.take (data.length / 2) := by
  obtain ⟨n, hn⟩ : ∃ n, data.length = n * 16 := ⟨data.length / 16, by omega⟩
  have h8 : data.length / 2 = n * 8 := by omega
  obtain ⟨l2, e2⟩ := Bc3.untransform_impl m s data out h16 ho
  have hd : (data.drop (n * 8)).length = n * 8 := by rw [List.length_drop]; omega
  obtain ⟨l1, e1⟩ := Bc1.untransform_impl m' ⟨s.decorr, s.splitColour⟩ (data.drop (n * 8)) out' (by omega) (by omega)
  simp only [] at e1 e2
  rw [hd] at e1 l1
  refine ⟨_, _, e2, by rw [h8]; exact e1, ?_⟩
  rw [List.take_left' (by omega), h8, List.take_left' (by omega)]
  have hback := Bc3.encode_decode m.endian s data h16
  have hl : (Bc3.decode m.endian s data).length = n * 16 := by omega
  have hlc := coloursOf_length hl
  obtain ⟨ws, hsum, hfit⟩ := alphaFields_fits s.splitAlpha
  rw [encode3_eq hl] at hback
  have hh : data.drop (n * 8) = Bc1.encode m.endian ⟨s.decorr, s.splitColour⟩ (coloursOf (Bc3.decode m.endian s data)) := by
    rw [← hback, List.drop_left' (by rw [columns_length (by omega) hl hfit, hsum])]
    rw [hback]
  rw [hh, hm, Bc1.decode_encode _ _ _ (by omega)]

/-! ## The automatic choice -/

/-- **C110**, automatic transform of BC2: with the same estimator the BC1 search on the colour blocks asks the same questions in the same
order (it leaves the estimator in the same state) and comes to the same settings or the same error. -/
theorem C110_bc2_auto (env : Env) (m m' : Machine) (hm : m'.endian = m.endian) (est : Estimator σ E) (useAll : Bool) (data out out' : Buf)
    (st : σ) (h16 : data.length % 16 = 0) (ho : data.length ≤ out.length) (ho' : data.length / 2 ≤ out'.length) :
    ∃ t t' st' r, Bc2.transformAuto env m est useAll data out data.length st = some (t, st', r) ∧
      Bc1.transformAuto env m' est useAll (coloursOf data) out' (coloursOf data).length st = some (t', st', r) := by
  obtain ⟨n, hn⟩ : ∃ n, data.length = n * 16 := ⟨data.length / 16, by omega⟩
  have hc := coloursOf_length hn
  have q : (coloursOf data).length / 2 = data.length / 4 := by omega
  unfold Bc2.transformAuto Bc1.transformAuto
  rw [q]
  refine Auto.prepare_twin (runs2 m (data := data) (out := out) (by omega) (by omega))
    (runs1 m' (data := coloursOf data) (out := out') (by omega) (by omega))
    (fun k st s => ?_) env est _ _ _ _ _ _ ⟨rfl, rfl⟩ ⟨rfl, rfl⟩
  unfold Bc2.measure Bc1.measure
  have ha : (column 16 data fun b => slice b 0 8).length = n * 8 :=
    column_length (by omega) hn fun _ hb => slice_length_of_le (by omega)
  have h8 : data.length / 2 = n * 8 := by omega
  have l1 := Bc1.encode_length m.endian s (data := coloursOf data) (by omega)
  simp only []
  rw [q, h8, encode2_eq hn, hm, List.append_assoc, slice_append_right _ _ _ 0 _ (by omega),
    slice_append_left _ _ _ _ (by omega), slice_append_left _ _ _ _ (by omega)]

/-! ## Concrete textures -/

/-- Two blocks of 16 different bytes each, transformed as BC2 and BC3 with decorrelated and separated colours: the second halves are the BC1
texture of bytes 8 to 15 and 24 to 31. -/
example :
    coloursOf ((List.range 32).map (BitVec.ofNat 8)) = [8, 9, 10, 11, 12, 13, 14, 15, 24, 25, 26, 27, 28, 29, 30, 31] ∧
    ((Bc2.transformWithSettings (.other .little fun _ => 0) ((List.range 32).map (BitVec.ofNat 8)) (List.replicate 32 0) 32
      ⟨.v1, true⟩).map fun t => slice t 16 16) =
      (Bc1.transformWithSettings (.other .little fun _ => 0) [8, 9, 10, 11, 12, 13, 14, 15, 24, 25, 26, 27, 28, 29, 30, 31]
        (List.replicate 16 0) 16 ⟨.v1, true⟩) ∧
    ((Bc3.transformWithSettings (.other .little fun _ => 0) ((List.range 32).map (BitVec.ofNat 8)) (List.replicate 32 0) 32
      ⟨.v1, true, true⟩).map fun t => slice t 16 16) =
      (Bc1.transformWithSettings (.other .little fun _ => 0) [8, 9, 10, 11, 12, 13, 14, 15, 24, 25, 26, 27, 28, 29, 30, 31]
        (List.replicate 16 0) 16 ⟨.v1, true⟩) := by
  decide +kernel

end Dlt.Props
