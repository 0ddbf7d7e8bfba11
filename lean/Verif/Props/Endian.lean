import Verif.Lemmas.Bc2
import Verif.Lemmas.Bc3
/-!
# Little-endian and big-endian hosts: C49

The portable kernels read and write colours as native-endian words.  Without decorrelation the bytes
do not depend on the byte order.  With decorrelation they do, so data transformed on a little-endian host is not
restored on a big-endian one.
-/

namespace Dlt.Props
open Spec

section
open Bc1

/-- **C49** is false for BC1 with decorrelation: a little-endian host transforms this block, a big-endian host
untransforms it, and the result is a different block. -/
theorem C49_bc1_not_portable (fresh fresh' : Nat → Byte) :
    ∃ (data t r : Buf) (s : ColourSettings), data.length % 8 = 0 ∧
      transformWithSettings (.other .little fresh) data (List.replicate 8 0) data.length s = some t ∧
      untransformWithSettings (.other .big fresh') t (List.replicate 8 0) data.length s = some r ∧
      r ≠ data :=
  ⟨[0x1F, 0, 0, 0, 4, 5, 6, 7], [0x41, 0xF8, 0, 0, 4, 5, 6, 7], [0x05, 0x39, 0, 0, 4, 5, 6, 7], ⟨.v1, false⟩,
    by decide, rfl, rfl, by decide⟩

/-- **C49**, the part that holds for BC1: without decorrelation the host byte orders may differ.
Missing: settings with decorrelation, for which the statement is false (`C49_bc1_not_portable`). -/
theorem C49_bc1_portable_partial (m m' : Machine) (split : Bool) (data out out' : Buf)
    (h8 : data.length % 8 = 0) (ho : data.length ≤ out.length) (ho' : data.length ≤ out'.length) :
    ∃ t r, transformWithSettings m data out data.length ⟨.none, split⟩ = some t ∧
      untransformWithSettings m' (t.take data.length) out' data.length ⟨.none, split⟩ = some r ∧
      r.take data.length = data := by
  refine (transform_impl m ⟨.none, split⟩).roundtrip (untransform_impl m' ⟨.none, split⟩) (fun d h => ?_) h8 ho ho'
  obtain ⟨n, hn⟩ : ∃ n, d.length = n * 8 := ⟨d.length / 8, by omega⟩
  have h1 : encode m.endian ⟨.none, split⟩ d = encode m'.endian ⟨.none, split⟩ d :=
    (columns_none m.endian split hn).symm.trans (columns_none m'.endian split hn)
  rw [h1]; exact decode_encode _ _ d h

/-- The two hosts of the partial theorem may really differ. -/
example : ∃ t r, transformWithSettings (.x86 ⟨true, true, true, true, true, true, fun _ => 0⟩)
      (List.replicate 16 0xAB#8) (List.replicate 16 0#8) 16 ⟨.none, true⟩ = some t ∧
    untransformWithSettings (.other .big (fun _ => 7#8)) (t.take 16) (List.replicate 16 1#8) 16 ⟨.none, true⟩
      = some r ∧ r.take 16 = List.replicate 16 0xAB#8 :=
  C49_bc1_portable_partial _ _ _ (List.replicate 16 0xAB#8) _ _ (by decide) (by decide) (by decide)

end

section
open Bc2

/-- **C49** is false for BC2 with decorrelation: a little-endian host transforms this block, a big-endian host
untransforms it, and the result is a different block. -/
theorem C49_bc2_not_portable (fresh fresh' : Nat → Byte) :
    ∃ (data t r : Buf) (s : ColourSettings), data.length % 16 = 0 ∧
      transformWithSettings (.other .little fresh) data (List.replicate 16 0) data.length s = some t ∧
      untransformWithSettings (.other .big fresh') t (List.replicate 16 0) data.length s = some r ∧
      r ≠ data :=
  ⟨[8, 9, 0, 0, 0, 0, 0, 1, 0x1F, 0, 0, 0, 4, 5, 6, 7], [8, 9, 0, 0, 0, 0, 0, 1, 0x41, 0xF8, 0, 0, 4, 5, 6, 7], [8, 9, 0, 0, 0, 0, 0, 1, 0x05, 0x39, 0, 0, 4, 5, 6, 7], ⟨.v1, false⟩,
    by decide, rfl, rfl, by decide⟩

/-- **C49**, the part that holds for BC2: without decorrelation the host byte orders may differ.
Missing: settings with decorrelation, for which the statement is false (`C49_bc2_not_portable`). -/
theorem C49_bc2_portable_partial (m m' : Machine) (split : Bool) (data out out' : Buf)
    (h16 : data.length % 16 = 0) (ho : data.length ≤ out.length) (ho' : data.length ≤ out'.length) :
    ∃ t r, transformWithSettings m data out data.length ⟨.none, split⟩ = some t ∧
      untransformWithSettings m' (t.take data.length) out' data.length ⟨.none, split⟩ = some r ∧
      r.take data.length = data := by
  refine (transform_impl m ⟨.none, split⟩).roundtrip (untransform_impl m' ⟨.none, split⟩) (fun d h => ?_) h16 ho ho'
  obtain ⟨n, hn⟩ : ∃ n, d.length = n * 16 := ⟨d.length / 16, by omega⟩
  have h1 : encode m.endian ⟨.none, split⟩ d = encode m'.endian ⟨.none, split⟩ d :=
    columns_col (fun bs h => (encCol_none m.endian h).trans (encCol_none m'.endian h).symm) split hn
  rw [h1]; exact decode_encode _ _ d h

/-- Two different hosts. -/
example : ∃ t r, transformWithSettings (.x86 ⟨true, true, true, true, true, true, fun _ => 0⟩)
      (List.replicate 32 0xAB#8) (List.replicate 32 0#8) 32 ⟨.none, true⟩ = some t ∧
    untransformWithSettings (.other .big (fun _ => 7#8)) (t.take 32) (List.replicate 32 1#8) 32 ⟨.none, true⟩
      = some r ∧ r.take 32 = List.replicate 32 0xAB#8 :=
  C49_bc2_portable_partial _ _ _ (List.replicate 32 0xAB#8) _ _ (by decide) (by decide) (by decide)

end

section
open Bc3

/-- **C49** is false for BC3 with decorrelation: a little-endian host transforms this block, a big-endian host
untransforms it, and the result is a different block. -/
theorem C49_bc3_not_portable (fresh fresh' : Nat → Byte) :
    ∃ (data t r : Buf) (s : Bc3.Settings), data.length % 16 = 0 ∧
      transformWithSettings (.other .little fresh) data (List.replicate 16 0) data.length s = some t ∧
      untransformWithSettings (.other .big fresh') t (List.replicate 16 0) data.length s = some r ∧
      r ≠ data :=
  ⟨[8, 9, 0, 0, 0, 0, 0, 1, 0x1F, 0, 0, 0, 4, 5, 6, 7], [8, 9, 0, 0, 0, 0, 0, 1, 0x41, 0xF8, 0, 0, 4, 5, 6, 7], [8, 9, 0, 0, 0, 0, 0, 1, 0x05, 0x39, 0, 0, 4, 5, 6, 7], ⟨.v1, false, false⟩,
    by decide, rfl, rfl, by decide⟩

/-- **C49**, the part that holds for BC3: without decorrelation the host byte orders may differ.
Missing: settings with decorrelation, for which the statement is false (`C49_bc3_not_portable`). -/
theorem C49_bc3_portable_partial (m m' : Machine) (sa sc : Bool) (data out out' : Buf)
    (h16 : data.length % 16 = 0) (ho : data.length ≤ out.length) (ho' : data.length ≤ out'.length) :
    ∃ t r, transformWithSettings m data out data.length ⟨.none, sa, sc⟩ = some t ∧
      untransformWithSettings m' (t.take data.length) out' data.length ⟨.none, sa, sc⟩ = some r ∧
      r.take data.length = data := by
  refine (transform_impl m ⟨.none, sa, sc⟩).roundtrip (untransform_impl m' ⟨.none, sa, sc⟩) (fun d h => ?_) h16 ho ho'
  obtain ⟨n, hn⟩ : ∃ n, d.length = n * 16 := ⟨d.length / 16, by omega⟩
  have h1 : encode m.endian ⟨.none, sa, sc⟩ d = encode m'.endian ⟨.none, sa, sc⟩ d :=
    columns_col (fun bs h => (encCol_none m.endian h).trans (encCol_none m'.endian h).symm) sa sc hn
  rw [h1]; exact decode_encode _ _ d h

/-- Two different hosts. -/
example : ∃ t r, transformWithSettings (.x86 ⟨true, true, true, true, true, true, fun _ => 0⟩)
      (List.replicate 32 0xAB#8) (List.replicate 32 0#8) 32 ⟨.none, true, true⟩ = some t ∧
    untransformWithSettings (.other .big (fun _ => 7#8)) (t.take 32) (List.replicate 32 1#8) 32 ⟨.none, true, true⟩
      = some r ∧ r.take 32 = List.replicate 32 0xAB#8 :=
  C49_bc3_portable_partial _ _ _ _ (List.replicate 32 0xAB#8) _ _ (by decide) (by decide) (by decide)

end

end Dlt.Props
