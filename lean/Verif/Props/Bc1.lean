import Verif.Lemmas.SpecCol
/-!
# BC1: C01, C04, C05, C10, C11, C48

`Bc1.transformWithSettings m data out len s` runs the code on machine `m`; `none` would be undefined
behaviour (an access outside the regions), a panic or divergence.
-/

namespace Dlt.Props
open Bc1 Spec

/-- **C01.** Transforming and untransforming gives back the data: for every machine that transforms
and every machine of the same byte order that untransforms, all settings, all data of whole blocks and
any previous contents of the output buffers. -/
theorem C01_bc1_lossless (m m' : Machine) (hm : m.endian = m'.endian) (s : ColourSettings)
    (data out out' : Buf) (h8 : data.length % 8 = 0) (ho : data.length ≤ out.length)
    (ho' : data.length ≤ out'.length) :
    ∃ t r, transformWithSettings m data out data.length s = some t ∧
      untransformWithSettings m' (t.take data.length) out' data.length s = some r ∧
      r.take data.length = data :=
  (transform_impl m s).roundtrip (untransform_impl m' s)
    (fun d h => by rw [← hm]; exact decode_encode _ s d h) h8 ho ho'

/-- C01 on an AVX2 machine and a portable one: two blocks, second output buffer longer. -/
example : ∃ t r, transformWithSettings (.x86 ⟨true, true, true, false, false, false, fun _ => 0⟩)
      (List.replicate 16 0xAB#8) (List.replicate 16 0#8) 16 ⟨.v1, true⟩ = some t ∧
    untransformWithSettings (.other .little (fun _ => 7#8)) (t.take 16) (List.replicate 20 1#8) 16 ⟨.v1, true⟩
      = some r ∧ r.take 16 = List.replicate 16 0xAB#8 :=
  C01_bc1_lossless _ _ rfl _ (List.replicate 16 0xAB#8) _ _ (by decide) (by decide) (by decide)

/-- **C04** (BC1). Untransforming and transforming again gives back the data. -/
theorem C04_bc1_bijective (m m' : Machine) (hm : m.endian = m'.endian) (s : ColourSettings)
    (data out out' : Buf) (h8 : data.length % 8 = 0) (ho : data.length ≤ out.length)
    (ho' : data.length ≤ out'.length) :
    ∃ t r, untransformWithSettings m data out data.length s = some t ∧
      transformWithSettings m' (t.take data.length) out' data.length s = some r ∧
      r.take data.length = data :=
  (untransform_impl m s).roundtrip (transform_impl m' s)
    (fun d h => by rw [← hm]; exact encode_decode _ s d h) h8 ho ho'

/-- **C04** (BC1), injectivity: two textures with the same transformed form are equal. -/
theorem C04_bc1_injective (m : Machine) (s : ColourSettings) (a b out : Buf) (h8 : a.length % 8 = 0)
    (hab : a.length = b.length) (ho : a.length ≤ out.length)
    (h : transformWithSettings m a out a.length s = transformWithSettings m b out b.length s) : a = b :=
  (transform_impl m s).injective (untransform_impl m s) (decode_encode _ s) h8 hab ho h

/-- **C05.** On a little-endian machine the output is exactly the documented layout
(`Spec.bc1Fields`, colours replaced by `Spec.colour`), followed by the untouched rest of the buffer. -/
theorem C05_bc1_layout (m : Machine) (hm : m.endian = .little) (s : ColourSettings) (data out : Buf)
    (h8 : data.length % 8 = 0) (ho : data.length ≤ out.length) :
    transformWithSettings m data out data.length s =
      some (columns 8 (bc1Fields (colour s.decorr) s.split) data ++ out.drop data.length) := by
  obtain ⟨n, hn⟩ : ∃ n, data.length = n * 8 := ⟨data.length / 8, by omega⟩
  rw [hn, transform_eq m s hn (by omega), hm]
  congr 2
  apply columns_congr (by omega) hn
  intro b hb
  have h0 := encCol_little s.decorr (slice b 0 2) (slice_length_of_le (by omega))
  have h1 := encCol_little s.decorr (slice b 2 2) (slice_length_of_le (by omega))
  cases s.split <;> simp [bc1Fields, h0, h1]

/-- The layout of two concrete blocks, with and without splitting, computed from the specification. -/
example : columns 8 (bc1Fields (colour .none) true)
      [0, 1, 2, 3, 4, 5, 6, 7, 10, 11, 12, 13, 14, 15, 16, 17] =
      [0, 1, 10, 11, 2, 3, 12, 13, 4, 5, 6, 7, 14, 15, 16, 17] ∧
    columns 8 (bc1Fields (colour .none) false)
      [0, 1, 2, 3, 4, 5, 6, 7, 10, 11, 12, 13, 14, 15, 16, 17] =
      [0, 1, 2, 3, 10, 11, 12, 13, 4, 5, 6, 7, 14, 15, 16, 17] ∧
    columns 8 (bc1Fields (colour .v1) false) [0x1F, 0, 0, 0, 4, 5, 6, 7] =
      [0x41, 0xF8, 0, 0, 4, 5, 6, 7] := by decide

/-- **C10** (BC1). No access leaves the `len` input bytes or the output buffer (`some`), all of the
first `len` output bytes are determined by the input, and nothing behind them changes. -/
theorem C10_bc1_memory (m : Machine) (s : ColourSettings) (data : Buf) (h8 : data.length % 8 = 0) :
    ∃ t u : Buf, t.length = data.length ∧ u.length = data.length ∧
      ∀ out : Buf, data.length ≤ out.length →
        transformWithSettings m data out data.length s = some (t ++ out.drop data.length) ∧
        untransformWithSettings m data out data.length s = some (u ++ out.drop data.length) :=
  ⟨_, _, encode_length m.endian s h8, decode_length m.endian s h8, fun out ho =>
    ⟨(transform_impl m s data out h8 ho).2, (untransform_impl m s data out h8 ho).2⟩⟩

/-- The model does notice accesses outside the buffers: with an output buffer that is one byte short the
same call is not `some`. -/
example : transformWithSettings (.x86 ⟨true, true, true, true, true, true, fun _ => 0⟩) (List.replicate 8 1#8)
    (List.replicate 7 0#8) 8 ⟨.v1, true⟩ = none := by decide

/-- **C11.** The result does not depend on the CPU features; it is that of the portable code on any
other little-endian machine. -/
theorem C11_bc1_cpu_independent (f : Features) (fresh : Nat → Byte) (s : ColourSettings) (data out : Buf)
    (h8 : data.length % 8 = 0) (ho : data.length ≤ out.length) :
    transformWithSettings (.x86 f) data out data.length s =
      transformWithSettings (.other .little fresh) data out data.length s ∧
    untransformWithSettings (.x86 f) data out data.length s =
      untransformWithSettings (.other .little fresh) data out data.length s :=
  ⟨(transform_impl (.x86 f) s data out h8 ho).2.trans
      (transform_impl (.other .little fresh) s data out h8 ho).2.symm,
    (untransform_impl (.x86 f) s data out h8 ho).2.trans
      (untransform_impl (.other .little fresh) s data out h8 ho).2.symm⟩

/-- **C48** (BC1). Big-endian machines are lossless. -/
theorem C48_bc1_big_endian_lossless (fresh : Nat → Byte) (s : ColourSettings) (data out out' : Buf)
    (h8 : data.length % 8 = 0) (ho : data.length ≤ out.length) (ho' : data.length ≤ out'.length) :
    ∃ t r, transformWithSettings (.other .big fresh) data out data.length s = some t ∧
      untransformWithSettings (.other .big fresh) (t.take data.length) out' data.length s = some r ∧
      r.take data.length = data :=
  C01_bc1_lossless _ _ rfl s data out out' h8 ho ho'

end Dlt.Props
