import Verif.Props.Brightness
import Verif.Props.Auto
/-!
# C120: equal colours stay equal and different ones different

Whatever the settings, the colours of a transformed texture repeat exactly where those of the original did.
-/

namespace Dlt.Props
open Spec

/-! ## Specification -/

/-- The colour end points of `n` blocks: number of the block, first or second colour. -/
def endsOf (n : Nat) : List (Nat × Nat) := (List.range n).flatMap fun i => [(i, 0), (i, 1)]

/-- The two bytes of an end point of a texture with blocks of `B` bytes and the colours at byte `c` of each. -/
def colourIn (B c : Nat) (data : Buf) (e : Nat × Nat) : Buf := slice data (e.1 * B + (c + 2 * e.2)) 2

/-- The two bytes of an end point after the transform. -/
def colourAfter (c : Nat) (split : Bool) (n : Nat) (o : Buf) (e : Nat × Nat) : Buf := slice o (place c split n e.1 e.2) 2

/-- Two end points are equal in the output exactly if they are in the texture; and each colour occurs equally often. -/
def RepeatsKept (split : Bool) (B c n : Nat) (data o : Buf) : Prop :=
  (∀ e ∈ endsOf n, ∀ e' ∈ endsOf n, colourAfter c split n o e = colourAfter c split n o e' ↔ colourIn B c data e = colourIn B c data e') ∧
  ∀ e ∈ endsOf n, ((endsOf n).map (colourAfter c split n o)).count (colourAfter c split n o e) =
    ((endsOf n).map (colourIn B c data)).count (colourIn B c data e)

/-! ## Proof -/

theorem mem_endsOf {n : Nat} {e : Nat × Nat} : e ∈ endsOf n ↔ e.1 < n ∧ e.2 < 2 := by
  obtain ⟨i, q⟩ := e
  simp only [endsOf, List.mem_flatMap, List.mem_range, List.mem_cons, Prod.mk.injEq, List.not_mem_nil, or_false]
  constructor
  · rintro ⟨a, h, ⟨rfl, rfl⟩ | ⟨rfl, rfl⟩⟩ <;> omega
  · rintro ⟨h1, h2⟩
    exact ⟨i, h1, by omega⟩

theorem encCol_inj (e : Endian) (v : Variant) {x y : Buf} (hx : x.length = 2) (hy : y.length = 2) : encCol e v x = encCol e v y ↔ x = y :=
  ⟨fun h => by rw [← decCol_encCol e v hx, h, decCol_encCol e v hy], fun h => by rw [h]⟩

theorem repeats_kept {e : Endian} {v : Variant} {split : Bool} {B c n : Nat} {data o : Buf} (hB : c + 4 ≤ B) (hd : data.length = n * B)
    (h : ∀ i q, i < n → q < 2 → slice o (place c split n i q) 2 = encCol e v (slice data (i * B + (c + 2 * q)) 2)) :
    RepeatsKept split B c n data o := by
  have key : ∀ a ∈ endsOf n, ∀ b ∈ endsOf n,
      colourAfter c split n o a = colourAfter c split n o b ↔ colourIn B c data a = colourIn B c data b := by
    intro a ha b hb
    rw [mem_endsOf] at ha hb
    have len : ∀ i q, i < n → q < 2 → (slice data (i * B + (c + 2 * q)) 2).length = 2 := by
      intro i q hi hq
      have h3 : (i + 1) * B ≤ n * B := Nat.mul_le_mul_right _ hi
      rw [Nat.succ_mul] at h3
      exact slice_length_of_le (by omega)
    unfold colourAfter colourIn
    rw [h _ _ ha.1 ha.2, h _ _ hb.1 hb.2]
    exact encCol_inj e v (len _ _ ha.1 ha.2) (len _ _ hb.1 hb.2)
  refine ⟨key, fun a ha => ?_⟩
  rw [List.count, List.count, List.countP_map, List.countP_map]
  refine List.countP_congr fun b hb => ?_
  simp only [Function.comp, beq_iff_eq]
  exact key b hb a ha

section
variable {σ E : Type} (m : Machine) (n : Nat) (data out : Buf)

/-- **C120** (BC1), on every machine of either byte order, with all settings. -/
theorem C120_bc1 (s : ColourSettings) (hd : data.length = n * 8) (ho : n * 8 ≤ out.length) :
    ∃ o, Bc1.transformWithSettings m data out data.length s = some o ∧ RepeatsKept s.split 8 0 n data o := by
  obtain ⟨-, e⟩ := Bc1.transform_impl m s data out (by omega) (by omega)
  exact ⟨_, e, repeats_kept (by omega) hd fun i q hi hq => bc1_colour_at m.endian s _ hd hi hq⟩

/-- **C120** (BC2). -/
theorem C120_bc2 (s : ColourSettings) (hd : data.length = n * 16) (ho : n * 16 ≤ out.length) :
    ∃ o, Bc2.transformWithSettings m data out data.length s = some o ∧ RepeatsKept s.split 16 8 n data o := by
  obtain ⟨-, e⟩ := Bc2.transform_impl m s data out (by omega) (by omega)
  exact ⟨_, e, repeats_kept (by omega) hd fun i q hi hq => bc2_colour_at m.endian s _ hd hi hq⟩

/-- **C120** (BC3). -/
theorem C120_bc3 (s : Bc3.Settings) (hd : data.length = n * 16) (ho : n * 16 ≤ out.length) :
    ∃ o, Bc3.transformWithSettings m data out data.length s = some o ∧ RepeatsKept s.splitColour 16 8 n data o := by
  obtain ⟨-, e⟩ := Bc3.transform_impl m s data out (by omega) (by omega)
  exact ⟨_, e, repeats_kept (by omega) hd fun i q hi hq => bc3_colour_at m.endian s _ hd hi hq⟩

/-- **C120** (BC1, automatic settings): so whatever settings the search returns. -/
theorem C120_bc1_auto (env : Env) (est : Estimator σ E) (useAll : Bool) (st : σ) (hd : data.length = n * 8) (ho : n * 8 ≤ out.length) :
    ∃ o st' r, Bc1.transformAuto env m est useAll data out data.length st = some (o, st', r) ∧
      ∀ s, r = .ok s → RepeatsKept s.split 8 0 n data o := by
  obtain ⟨o, st', r, e, _, _, h⟩ := C17_bc1_auto_reports_used env m est useAll data out st (by omega) (by omega)
  refine ⟨o, st', r, e, fun s hr => ?_⟩
  obtain ⟨o', e', h'⟩ := C120_bc1 m n data out s hd ho
  obtain rfl := Option.some.inj (e'.symm.trans (h s hr).1)
  exact h'

/-- **C120** (BC2, automatic settings): so whatever settings the search returns. -/
theorem C120_bc2_auto (env : Env) (est : Estimator σ E) (useAll : Bool) (st : σ) (hd : data.length = n * 16) (ho : n * 16 ≤ out.length) :
    ∃ o st' r, Bc2.transformAuto env m est useAll data out data.length st = some (o, st', r) ∧
      ∀ s, r = .ok s → RepeatsKept s.split 16 8 n data o := by
  obtain ⟨o, st', r, e, _, _, h⟩ := C18_bc2_auto_reports_used env m est useAll data out st (by omega) (by omega)
  refine ⟨o, st', r, e, fun s hr => ?_⟩
  obtain ⟨o', e', h'⟩ := C120_bc2 m n data out s hd ho
  obtain rfl := Option.some.inj (e'.symm.trans (h s hr).1)
  exact h'

/-- **C120** (BC3, automatic settings): so whatever settings the search returns. -/
theorem C120_bc3_auto (env : Env) (est : Estimator σ E) (useAll : Bool) (st : σ) (hd : data.length = n * 16) (ho : n * 16 ≤ out.length) :
    ∃ o st' r, Bc3.transformAuto env m est useAll data out data.length st = some (o, st', r) ∧
      ∀ s, r = .ok s → RepeatsKept s.splitColour 16 8 n data o := by
  obtain ⟨o, st', r, e, _, _, h⟩ := C19_bc3_auto_reports_used env m est useAll data out st (by omega) (by omega)
  refine ⟨o, st', r, e, fun s hr => ?_⟩
  obtain ⟨o', e', h'⟩ := C120_bc3 m n data out s hd ho
  obtain rfl := Option.some.inj (e'.symm.trans (h s hr).1)
  exact h'

end

/-! ## A concrete texture -/

/-- Two blocks; the first colour of the first is the second colour of the second. -/
def chainData : Buf := [0xA3, 0x51, 0x87, 0x72, 1, 2, 3, 4, 0x00, 0xF8, 0xA3, 0x51, 5, 6, 7, 8]

/-- It has three colours, one of them twice, before and after the transform. -/
example :
    (endsOf 2).map (colourIn 8 0 chainData) = [[0xA3, 0x51], [0x87, 0x72], [0x00, 0xF8], [0xA3, 0x51]] ∧
    ([(true, Variant.v1), (false, .v3)].map fun (split, v) =>
      (Bc1.transformWithSettings (.other .little fun _ => 0) chainData (List.replicate 16 9) 16 ⟨v, split⟩).map (fun o =>
        (endsOf 2).map (colourAfter 0 split 2 o))) =
      [some [[0xE0, 0x31], [0xC0, 0x51], [0xD1, 0xBF], [0xE0, 0x31]], some [[0xC1, 0x31], [0xC0, 0x51], [0xE2, 0xBF], [0xC1, 0x31]]] := by
  decide +kernel

/-- An estimator that likes each attempt better than the one before. -/
def lateBest : Estimator Nat Unit := ⟨fun k _ => (k, .ok 0), fun k _ _ => (k + 1, .ok (100 - k))⟩

/-- The same with settings that the search finds. -/
example :
    (Bc1.transformAuto env64 (.other .little fun _ => 0) lateBest true chainData (List.replicate 16 9) 16 0).map (fun (o, _, r) =>
      (r.toOption, (endsOf 2).map (colourAfter 0 true 2 o))) =
      some (some ⟨.v1, true⟩, [[0xE0, 0x31], [0xC0, 0x51], [0xD1, 0xBF], [0xE0, 0x31]]) := by
  decide +kernel

end Dlt.Props
