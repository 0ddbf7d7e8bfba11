import Verif.Spec
import Verif.Lemmas.Mem
/-! Structure-of-arrays layouts: slices of a layout, inverse layout, round trips. -/

namespace Dlt
open Spec

/-! ## Concatenations of equally long pieces -/

theorem flatMap_range_length {α : Type} (n w : Nat) (g : Nat → List α)
    (h : ∀ i, i < n → (g i).length = w) : ((List.range n).flatMap g).length = n * w := by
  induction n with
  | zero => simp
  | succ n ih =>
    rw [List.range_succ, List.flatMap_append, List.length_append, ih (fun i hi => h i (by omega))]
    simp [h n (by omega), Nat.succ_mul]

theorem flatMap_range_slice {α : Type} (n w i N : Nat) (g : Nat → List α)
    (h : ∀ i, i < n → (g i).length = w) (hi : i + N ≤ n) :
    slice ((List.range n).flatMap g) (i * w) (N * w) = (List.range N).flatMap (fun k => g (i + k)) := by
  obtain ⟨r, rfl⟩ : ∃ r, n = i + (N + r) := ⟨n - i - N, by omega⟩
  rw [List.range_add, List.flatMap_append]
  have l1 : ((List.range i).flatMap g).length = i * w :=
    flatMap_range_length _ _ _ (fun j hj => h j (by omega))
  rw [slice_append_right _ _ _ 0 _ (by omega)]
  rw [List.flatMap_map, List.range_add, List.flatMap_append]
  have l2 : ((List.range N).flatMap (fun a => g (i + a))).length = N * w :=
    flatMap_range_length _ _ _ (fun j hj => h _ (by omega))
  rw [slice_append_left _ _ _ _ (by omega)]
  unfold slice
  rw [List.drop_zero, List.take_of_length_le (by omega)]

/-! ## Layout -/

/-- Field `j` maps a `B`-byte block to `ws[j]` bytes. -/
def Fits (B : Nat) : List (Buf → Buf) → List Nat → Prop
  | [], [] => True
  | f :: fs, w :: ws => (∀ b : Buf, b.length = B → (f b).length = w) ∧ Fits B fs ws
  | _, _ => False

theorem block_length {B n : Nat} {data : Buf} (hd : data.length = n * B) {i : Nat} (hi : i < n) :
    (block B data i).length = B := by
  have : (i + 1) * B ≤ n * B := Nat.mul_le_mul_right _ hi
  rw [Nat.succ_mul] at this
  exact slice_length_of_le (by omega)

theorem length_div {B n : Nat} {data : Buf} (hB : 0 < B) (hd : data.length = n * B) :
    data.length / B = n := by rw [hd]; exact Nat.mul_div_cancel _ hB

theorem column_length {B n w : Nat} {data : Buf} {f : Buf → Buf} (hB : 0 < B)
    (hd : data.length = n * B) (hf : ∀ b : Buf, b.length = B → (f b).length = w) :
    (column B data f).length = n * w := by
  unfold column
  rw [length_div hB hd]
  exact flatMap_range_length _ _ _ (fun i hi => hf _ (block_length hd hi))

theorem columns_length {B n : Nat} {data : Buf} (hB : 0 < B) (hd : data.length = n * B) :
    ∀ {fs : List (Buf → Buf)} {ws : List Nat}, Fits B fs ws →
      (columns B fs data).length = n * ws.sum
  | [], [], _ => by simp [columns]
  | f :: fs, w :: ws, h => by
    have ih := columns_length hB hd h.2
    simp only [columns, List.flatMap_cons, List.length_append, List.sum_cons] at ih ⊢
    rw [column_length hB hd h.1, ih, Nat.mul_add]
  | [], _ :: _, h => h.elim
  | _ :: _, [], h => h.elim

theorem block_eq_mk {B n : Nat} {data : Buf} (hd : data.length = n * B) {i k : Nat} (h : i + k < n) :
    block B data (i + k) = mk B (fun x => rd data (i * B) (k * B + x)) := by
  have : (i + k + 1) * B ≤ n * B := Nat.mul_le_mul_right _ h
  rw [Nat.succ_mul] at this
  unfold block
  rw [slice_eq_mk (by omega)]
  congr 1
  funext x
  rw [Nat.add_mul, rd_add]

/-- `N` blocks, starting with block `i`, inside section `j` of a layout. -/
theorem columns_slice {B n : Nat} {data : Buf} (hB : 0 < B) (hd : data.length = n * B) (tail : Buf)
    {i N : Nat} (hi : i + N ≤ n) :
    ∀ {fs : List (Buf → Buf)} {ws : List Nat} (j : Nat) {f : Buf → Buf} {w a : Nat}, Fits B fs ws →
      fs[j]? = some f → ws[j]? = some w → a = n * (ws.take j).sum + i * w →
      slice (columns B fs data ++ tail) a (N * w) =
        (List.range N).flatMap (fun k => f (mk B (fun x => rd data (i * B) (k * B + x))))
  | [], [], _, _, _, _, _, h, _, _ => by simp at h
  | f :: fs, w :: ws, 0, f', w', a, h, hf, hw, ha => by
    simp only [List.getElem?_cons_zero, Option.some.injEq] at hf hw
    subst hf hw
    simp only [columns, List.flatMap_cons, List.append_assoc]
    have hl := column_length hB hd h.1
    have : (i + N) * w ≤ n * w := Nat.mul_le_mul_right _ hi
    rw [Nat.add_mul] at this
    simp only [List.take_zero, List.sum_nil, Nat.mul_zero, Nat.zero_add] at ha
    rw [slice_append_left _ _ _ _ (by omega), ha]
    unfold column
    rw [length_div hB hd, flatMap_range_slice _ _ _ _ _ (fun j hj => h.1 _ (block_length hd hj)) hi]
    rw [List.flatMap_def, List.flatMap_def]
    congr 1
    apply List.map_congr_left
    intro k hk
    rw [List.mem_range] at hk
    rw [block_eq_mk hd (by omega)]
  | f :: fs, w :: ws, j + 1, f', w', a, h, hf, hw, ha => by
    simp only [List.getElem?_cons_succ] at hf hw
    have ih := columns_slice hB hd tail hi j h.2 hf hw rfl
    have hl := column_length hB hd h.1
    simp only [columns, List.flatMap_cons, List.append_assoc]
    rw [slice_append_right _ _ _ (n * (ws.take j).sum + i * w') _ (by
      rw [hl, ha, List.take_succ_cons, List.sum_cons, Nat.mul_add]; omega)]
    exact ih
  | [], _ :: _, _, _, _, _, h, _, _, _ => h.elim
  | _ :: _, [], _, _, _, _, h, _, _, _ => h.elim

/-- Offsets already written after `k` blocks have been processed. -/
def doneCols (n k : Nat) : Nat → List Nat → Nat → Prop
  | _, [], _ => False
  | base, w :: ws, x => (base ≤ x ∧ x < base + k * w) ∨ doneCols n k (base + n * w) ws x

/-- Offsets already written, or beyond the end of the layout. -/
def DoneT (n : Nat) (ws : List Nat) (k : Nat) (x : Nat) : Prop :=
  n * ws.sum ≤ x ∨ doneCols n k 0 ws x

theorem doneCols_full (n : Nat) : ∀ (ws : List Nat) (base x : Nat), base ≤ x →
    x < base + n * ws.sum → doneCols n n base ws x
  | [], base, x, h1, h2 => by simp at h2; omega
  | w :: ws, base, x, h1, h2 => by
    simp only [doneCols]
    by_cases h : x < base + n * w
    · exact Or.inl ⟨h1, h⟩
    · right
      apply doneCols_full n ws (base + n * w) x (by omega)
      rw [List.sum_cons, Nat.mul_add] at h2; omega

theorem doneT_full (n : Nat) (ws : List Nat) (x : Nat) : DoneT n ws n x := by
  by_cases h : n * ws.sum ≤ x
  · exact Or.inl h
  · exact Or.inr (doneCols_full n ws 0 x (by omega) (by omega))

/-! ## Inverse layout -/

/-- The fields of block `i` in a layout of `n` blocks with field widths `ws`. -/
def fieldsAt (n : Nat) (inp : Buf) (i : Nat) : Nat → List Nat → List Buf
  | _, [] => []
  | base, w :: ws => slice inp (base + i * w) w :: fieldsAt n inp i (base + n * w) ws

/-- Rebuild the blocks of a layout with the per-block inverse `g`. -/
def unsoa (n : Nat) (ws : List Nat) (g : List Buf → Buf) (inp : Buf) : Buf :=
  (List.range n).flatMap (fun i => g (fieldsAt n inp i 0 ws))

theorem slice_eq_mk_block {inp : Buf} {base i k w n : Nat} (h : base + n * w ≤ inp.length)
    (hi : i + k < n) :
    slice inp (base + (i + k) * w) w = mk w (fun x => rd inp (base + i * w) (k * w + x)) := by
  have : (i + k + 1) * w ≤ n * w := Nat.mul_le_mul_right _ hi
  rw [Nat.succ_mul] at this
  rw [slice_eq_mk (by omega)]
  congr 1
  funext x
  rw [Nat.add_mul, ← Nat.add_assoc, rd_add]

/-- Fields have the stated widths. -/
def Shape : List Buf → List Nat → Prop
  | [], [] => True
  | b :: bs, w :: ws => b.length = w ∧ Shape bs ws
  | _, _ => False

theorem fieldsAt_shape {n : Nat} {inp : Buf} {i : Nat} (hi : i < n) :
    ∀ (base : Nat) (ws : List Nat), base + n * ws.sum ≤ inp.length → Shape (fieldsAt n inp i base ws) ws
  | base, [], _ => trivial
  | base, w :: ws, h => by
    rw [List.sum_cons, Nat.mul_add] at h
    have : (i + 1) * w ≤ n * w := Nat.mul_le_mul_right _ hi
    rw [Nat.succ_mul] at this
    exact ⟨slice_length_of_le (by omega), fieldsAt_shape hi _ ws (by omega)⟩

/-- Offsets written after `k` blocks of an untransform. -/
def DoneU (n B k x : Nat) : Prop := n * B ≤ x ∨ x < k * B

theorem unsoa_length {n B : Nat} {ws : List Nat} {g : List Buf → Buf} {inp : Buf}
    (hl : n * ws.sum ≤ inp.length) (hg : ∀ l, Shape l ws → (g l).length = B) :
    (unsoa n ws g inp).length = n * B :=
  flatMap_range_length _ _ _ (fun i hi => hg _ (fieldsAt_shape hi 0 ws (by omega)))

theorem unsoa_slice {n B : Nat} {ws : List Nat} {g : List Buf → Buf} {inp : Buf} (tail : Buf)
    (hl : n * ws.sum ≤ inp.length) (hg : ∀ l, Shape l ws → (g l).length = B) {i N : Nat}
    (hi : i + N ≤ n) :
    slice (unsoa n ws g inp ++ tail) (i * B) (N * B) =
      (List.range N).flatMap (fun k => g (fieldsAt n inp (i + k) 0 ws)) := by
  have : (i + N) * B ≤ n * B := Nat.mul_le_mul_right _ hi
  rw [Nat.add_mul] at this
  rw [slice_append_left _ _ _ _ (by rw [unsoa_length hl hg]; omega)]
  exact flatMap_range_slice _ _ _ _ _ (fun i hi => hg _ (fieldsAt_shape hi 0 ws (by omega))) hi

/-- The fields of block `i + k`, read relative to block `i`. -/
def chunkFields (n : Nat) (inp : Buf) (i k : Nat) : Nat → List Nat → List Buf
  | _, [] => []
  | base, w :: ws =>
    mk w (fun x => rd inp (base + i * w) (k * w + x)) :: chunkFields n inp i k (base + n * w) ws

theorem fieldsAt_eq_chunk {n : Nat} {inp : Buf} {i k : Nat} (hi : i + k < n) :
    ∀ (base : Nat) (ws : List Nat), base + n * ws.sum ≤ inp.length →
      fieldsAt n inp (i + k) base ws = chunkFields n inp i k base ws
  | _, [], _ => rfl
  | base, w :: ws, h => by
    rw [List.sum_cons, Nat.mul_add] at h
    simp only [fieldsAt, chunkFields]
    rw [slice_eq_mk_block (n := n) (by omega) hi, fieldsAt_eq_chunk hi _ ws (by omega)]

/-- `N` blocks of an inverse layout, starting with block `i`. -/
theorem unsoa_chunk {n B : Nat} {ws : List Nat} {g : List Buf → Buf} {inp : Buf} (tail : Buf)
    (hl : n * ws.sum ≤ inp.length) (hg : ∀ l, Shape l ws → (g l).length = B) {i N : Nat}
    (hi : i + N ≤ n) :
    slice (unsoa n ws g inp ++ tail) (i * B) (N * B) =
      (List.range N).flatMap (fun k => g (chunkFields n inp i k 0 ws)) := by
  rw [unsoa_slice tail hl hg hi, List.flatMap_def, List.flatMap_def]
  congr 1
  apply List.map_congr_left
  intro k hk
  rw [List.mem_range] at hk
  rw [fieldsAt_eq_chunk (by omega) 0 ws (by omega)]

/-! ## Round trips -/

theorem fieldsAt_columns {B n : Nat} {data : Buf} (hB : 0 < B) (hd : data.length = n * B) {i : Nat}
    (hi : i < n) :
    ∀ (fs : List (Buf → Buf)) (ws : List Nat) (pre : Buf) (tail : Buf) (base : Nat), Fits B fs ws →
      base = pre.length →
      fieldsAt n (pre ++ (columns B fs data ++ tail)) i base ws = fs.map (fun f => f (block B data i))
  | [], [], _, _, _, _, _ => rfl
  | f :: fs, w :: ws, pre, tail, base, h, hb => by
    simp only [fieldsAt, List.map_cons]
    congr 1
    · rw [slice_append_right _ _ _ (i * w) _ (by omega)]
      have := columns_slice hB hd tail (i := i) (N := 1) (by omega) 0 h rfl rfl rfl
      simp only [List.take_zero, List.sum_nil, Nat.mul_zero, Nat.zero_add, Nat.one_mul] at this
      rw [this]
      simp only [List.range_one, List.flatMap_cons, List.flatMap_nil, List.append_nil]
      rw [← block_eq_mk hd (k := 0) (by omega), Nat.add_zero]
    · have ih := fieldsAt_columns hB hd hi fs ws (pre ++ column B data f) tail (base + n * w) h.2
        (by rw [List.length_append, column_length hB hd h.1, hb])
      simpa [columns, List.append_assoc] using ih
  | [], _ :: _, _, _, _, h, _ => h.elim
  | _ :: _, [], _, _, _, h, _ => h.elim

theorem flatMap_blocks {B n : Nat} {data : Buf} (hd : data.length = n * B) :
    (List.range n).flatMap (block B data) = data := by
  apply List.ext_getElem?
  intro x
  have hlen : ((List.range n).flatMap (block B data)).length = n * B :=
    flatMap_range_length _ _ _ (fun i hi => block_length hd hi)
  by_cases hx : x < n * B
  · have hB : 0 < B := by
      rcases Nat.eq_zero_or_pos B with h | h
      · subst h; omega
      · exact h
    have hq : x / B < n := (Nat.div_lt_iff_lt_mul hB).2 hx
    have e : x = x / B * B + x % B := by rw [Nat.mul_comm]; exact (Nat.div_add_mod x B).symm
    have hm : x % B < B := Nat.mod_lt _ hB
    have h1 := flatMap_range_slice n B (x / B) 1 (block B data)
      (fun i hi => block_length hd hi) (by omega)
    have h2 := congrArg (fun l => l[x % B]?) h1
    simp only [Nat.one_mul, List.range_one, List.flatMap_cons, List.flatMap_nil, List.append_nil,
      Nat.add_zero, block] at h2
    rw [slice_getElem?, slice_getElem?, if_pos hm, if_pos hm, ← e] at h2
    exact h2
  · rw [List.getElem?_eq_none (by omega), List.getElem?_eq_none (by omega)]

/-- Untransforming a transformed string gives the string back. -/
theorem unsoa_columns {B n : Nat} {data : Buf} (hB : 0 < B) (hd : data.length = n * B)
    {fs : List (Buf → Buf)} {ws : List Nat} (hf : Fits B fs ws) {g : List Buf → Buf}
    (hg : ∀ b : Buf, b.length = B → g (fs.map (fun f => f b)) = b) (tail : Buf) :
    unsoa n ws g (columns B fs data ++ tail) = data := by
  unfold unsoa
  conv => rhs; rw [← flatMap_blocks hd]
  rw [List.flatMap_def, List.flatMap_def]
  congr 1
  apply List.map_congr_left
  intro i hi
  rw [List.mem_range] at hi
  have := fieldsAt_columns hB hd hi fs ws [] tail 0 hf rfl
  rw [List.nil_append] at this
  rw [this, hg _ (block_length hd hi)]

end Dlt
