import Verif.Lemmas.Soa
import Verif.Model.Batch
/-! Start and end of a kernel run, the reverse round trip, and the rule for counted loops. -/

namespace Dlt
open Spec

theorem doneCols_zero (n : Nat) : ∀ (ws : List Nat) (base x : Nat), ¬ doneCols n 0 base ws x
  | [], _, _, h => h
  | w :: ws, base, x, h => by
    simp only [doneCols] at h
    rcases h with h | h
    · omega
    · exact doneCols_zero n ws _ x h

theorem agree_append_drop {P : Nat → Prop} {C out : Buf} {l : Nat} (hC : C.length = l)
    (ho : l ≤ out.length) (hP : ∀ x, P x → l ≤ x) : Agree P (C ++ out.drop l) out := by
  constructor
  · simp; omega
  · intro x hx
    have := hP x hx
    rw [List.getElem?_append_right (by omega), List.getElem?_drop]
    congr 1; omega

/-- Before the first block. -/
theorem agree_startT {n : Nat} {ws : List Nat} {C out : Buf} (hC : C.length = n * ws.sum)
    (ho : n * ws.sum ≤ out.length) :
    Agree (DoneT n ws 0) (C ++ out.drop (n * ws.sum)) out :=
  agree_append_drop hC ho (fun x hx => by
    rcases hx with h | h
    · exact h
    · exact absurd h (doneCols_zero _ _ _ _))

theorem agree_startU {n B : Nat} {C out : Buf} (hC : C.length = n * B)
    (ho : n * B ≤ out.length) :
    Agree (DoneU n B 0) (C ++ out.drop (n * B)) out :=
  agree_append_drop hC ho (fun x hx => by
    rcases hx with h | h
    · exact h
    · omega)

/-- After the last block. -/
theorem ok_endT {m : Option Buf} {n : Nat} {ws : List Nat} {T : Buf}
    (h : Ok m (Agree (DoneT n ws n) T)) : m = some T := by
  obtain ⟨a, rfl, ha⟩ := h
  rw [ha.eq (fun x _ => doneT_full n ws x)]

theorem ok_endU {m : Option Buf} {n B : Nat} {T : Buf}
    (h : Ok m (Agree (DoneU n B n) T)) : m = some T := by
  obtain ⟨a, rfl, ha⟩ := h
  rw [ha.eq (fun x _ => by unfold DoneU; omega)]

/-! ## Reverse round trip -/

theorem block_unsoa {n B : Nat} {ws : List Nat} {g : List Buf → Buf} {inp : Buf}
    (hl : n * ws.sum ≤ inp.length) (hg : ∀ l, Shape l ws → (g l).length = B) {i : Nat} (hi : i < n) :
    block B (unsoa n ws g inp) i = g (fieldsAt n inp i 0 ws) := by
  have := unsoa_slice [] hl hg (i := i) (N := 1) (by omega)
  simpa [block] using this

theorem flatMap_congr_range {α : Type} {n : Nat} {f g : Nat → List α} (h : ∀ i, i < n → f i = g i) :
    (List.range n).flatMap f = (List.range n).flatMap g := by
  rw [List.flatMap_def, List.flatMap_def]
  congr 1
  apply List.map_congr_left
  intro i hi
  exact h i (List.mem_range.1 hi)

theorem flatMap_slices {inp : Buf} {base n w : Nat} (h : base + n * w ≤ inp.length) :
    (List.range n).flatMap (fun i => slice inp (base + i * w) w) = slice inp base (n * w) := by
  have hl : (slice inp base (n * w)).length = n * w := slice_length_of_le (by omega)
  rw [← flatMap_blocks hl]
  apply flatMap_congr_range
  intro i hi
  have : (i + 1) * w ≤ n * w := Nat.mul_le_mul_right _ hi
  rw [Nat.succ_mul] at this
  rw [block, slice_slice _ _ _ _ _ (by omega)]

theorem slice_append_slice {α : Type} (l : List α) (a m k : Nat) :
    slice l a m ++ slice l (a + m) k = slice l a (m + k) := by
  unfold slice
  rw [List.take_add, List.drop_drop]

theorem columns_unsoa_aux {n B : Nat} {data inp : Buf} (hB : 0 < B) (hd : data.length = n * B) :
    ∀ (fs : List (Buf → Buf)) (ws : List Nat) (base : Nat), base + n * ws.sum ≤ inp.length →
      (∀ i, i < n → fs.map (fun f => f (block B data i)) = fieldsAt n inp i base ws) →
      0 < n → columns B fs data = slice inp base (n * ws.sum)
  | [], [], base, _, _, _ => by simp [columns, slice]
  | f :: fs, w :: ws, base, hl, h, hn => by
    rw [List.sum_cons, Nat.mul_add] at hl ⊢
    have ih := columns_unsoa_aux (inp := inp) hB hd fs ws (base + n * w) (by omega)
      (fun i hi => by
        have := h i hi
        simp only [List.map_cons, fieldsAt, List.cons.injEq] at this
        exact this.2) hn
    have hc : column B data f = slice inp base (n * w) := by
      unfold column
      rw [length_div hB hd, ← flatMap_slices (by omega)]
      apply flatMap_congr_range
      intro i hi
      have := h i hi
      simp only [List.map_cons, fieldsAt, List.cons.injEq] at this
      exact this.1
    unfold columns at ih ⊢
    rw [List.flatMap_cons, hc, ih, slice_append_slice]
  | [], _ :: _, _, _, h, hn => by have := h 0 hn; simp [fieldsAt] at this
  | _ :: _, [], _, _, h, hn => by have := h 0 hn; simp [fieldsAt] at this

/-- Transforming an untransformed string gives the string back. -/
theorem columns_unsoa {B n : Nat} {inp : Buf} (hB : 0 < B) {fs : List (Buf → Buf)} {ws : List Nat}
    (hl : inp.length = n * ws.sum) {g : List Buf → Buf}
    (hg : ∀ l, Shape l ws → (g l).length = B)
    (hfg : ∀ l, Shape l ws → fs.map (fun f => f (g l)) = l) :
    columns B fs (unsoa n ws g inp) = inp := by
  have hd := unsoa_length (n := n) (inp := inp) (by omega) hg
  by_cases hn : 0 < n
  · rw [columns_unsoa_aux (inp := inp) hB hd fs ws 0 (by omega) _ hn]
    · unfold slice; simp [← hl]
    · intro i hi
      rw [block_unsoa (by omega) hg hi, hfg _ (fieldsAt_shape hi 0 ws (by omega))]
  · have : n = 0 := by omega
    subst this
    have h0 : inp = [] := by
      apply List.eq_nil_of_length_eq_zero; omega
    subst h0
    simp only [columns, unsoa, List.range_zero, List.flatMap_nil]
    simp [column, Spec.block]

/-- Equal blockwise inverses give equal strings. -/
theorem unsoa_congr {n : Nat} {ws ws' : List Nat} {g g' : List Buf → Buf} {inp inp' : Buf}
    (h : ∀ i, i < n → g (fieldsAt n inp i 0 ws) = g' (fieldsAt n inp' i 0 ws')) :
    unsoa n ws g inp = unsoa n ws' g' inp' := flatMap_congr_range h

theorem slice_all {l : Buf} {n : Nat} (h : l.length = n) : slice l 0 n = l := by
  subst h; simp [slice]

/-! ## Counted loops -/

theorem Ok.forM {body : Nat → Buf → Option Buf} {Q : Buf → Prop} (Inv : Nat → Buf → Prop)
    (x0 n : Nat) {s : Buf} (h0 : Inv x0 s)
    (hstep : ∀ x s, x0 ≤ x → x < x0 + n → Inv x s → Ok (body x s) (Inv (x + 1)))
    (hend : ∀ s, Inv (x0 + n) s → Q s) : Ok (Dlt.forM body x0 n s) Q := by
  induction n generalizing x0 s with
  | zero => exact Ok.pure (hend s h0)
  | succ n ih =>
    apply Ok.bind'
    refine (hstep x0 s (by omega) (by omega) h0).mono (fun s1 h1 => ?_)
    refine ih (x0 + 1) h1 (fun x s hx hx' hs => hstep x s (by omega) (by omega) hs) (fun s hs => hend s ?_)
    rw [show x0 + (n + 1) = x0 + 1 + n by omega]; exact hs

end Dlt

namespace Dlt

/-- The operation `F input output len` computes `f input` into the first `len` bytes of the output,
for inputs of whole blocks of `B` bytes. -/
def Implements (B : Nat) (F : Buf → Buf → Nat → Option Buf) (f : Buf → Buf) : Prop :=
  ∀ data out : Buf, data.length % B = 0 → data.length ≤ out.length →
    (f data).length = data.length ∧ F data out data.length = some (f data ++ out.drop data.length)

/-- Composition of an operation with its inverse. -/
theorem Implements.roundtrip {B : Nat} {F G : Buf → Buf → Nat → Option Buf} {f g : Buf → Buf}
    (hF : Implements B F f) (hG : Implements B G g)
    (hgf : ∀ data : Buf, data.length % B = 0 → g (f data) = data) {data out out' : Buf}
    (hB : data.length % B = 0) (ho : data.length ≤ out.length) (ho' : data.length ≤ out'.length) :
    ∃ t r, F data out data.length = some t ∧ G (t.take data.length) out' data.length = some r ∧
      r.take data.length = data := by
  obtain ⟨hl, hf⟩ := hF data out hB ho
  have hg := (hG (f data) out' (by rw [hl]; exact hB) (by rw [hl]; exact ho')).2
  rw [hgf data hB, hl] at hg
  refine ⟨_, data ++ out'.drop data.length, hf, ?_, ?_⟩
  · rw [List.take_left' hl]; exact hg
  · rw [List.take_left]

theorem Implements.injective {B : Nat} {F G : Buf → Buf → Nat → Option Buf} {f g : Buf → Buf}
    (hF : Implements B F f) (hG : Implements B G g)
    (hgf : ∀ data : Buf, data.length % B = 0 → g (f data) = data) {a b out : Buf}
    (hB : a.length % B = 0) (hab : a.length = b.length) (ho : a.length ≤ out.length)
    (h : F a out a.length = F b out b.length) : a = b := by
  obtain ⟨t, r, h1, h2, h3⟩ := hF.roundtrip hG hgf hB ho ho
  obtain ⟨t', r', h1', h2', h3'⟩ := hF.roundtrip hG hgf (data := b) (out := out) (out' := out)
    (by rw [← hab]; exact hB) (by omega) (by omega)
  rw [h, h1'] at h1
  obtain rfl := Option.some.inj h1
  rw [← hab, h2] at h2'
  obtain rfl := Option.some.inj h2'
  rw [← h3, ← h3', hab]

end Dlt
