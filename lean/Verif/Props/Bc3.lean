import Verif.Lemmas.Bc3
/-!
# BC3: C03, C04, C07, C10, C13, C48

`Bc3.transformWithSettings m data out len s` runs the code on machine `m`; `none` would be undefined
behaviour (an access outside the regions), a panic or divergence.
-/

namespace Dlt.Props
open Bc3 Spec

/-- **C03.** Transforming and untransforming gives back the data: for every machine that transforms
and every machine of the same byte order that untransforms, all settings, all data of whole blocks and
any previous contents of the output buffers. -/
theorem C03_bc3_lossless (m m' : Machine) (hm : m.endian = m'.endian) (s : Settings)
    (data out out' : Buf) (h16 : data.length % 16 = 0) (ho : data.length ≤ out.length)
    (ho' : data.length ≤ out'.length) :
    ∃ t r, transformWithSettings m data out data.length s = some t ∧
      untransformWithSettings m' (t.take data.length) out' data.length s = some r ∧
      r.take data.length = data :=
  (transform_impl m s).roundtrip (untransform_impl m' s)
    (fun d h => by rw [← hm]; exact decode_encode _ s d h) h16 ho ho'

/-- C03 on an AVX2 machine and a portable one: two blocks, second output buffer longer. -/
example : ∃ t r, transformWithSettings (.x86 ⟨true, true, true, false, false, false, fun _ => 0⟩)
      (List.replicate 32 0xAB#8) (List.replicate 32 0#8) 32 ⟨.v1, true, true⟩ = some t ∧
    untransformWithSettings (.other .little (fun _ => 7#8)) (t.take 32) (List.replicate 40 1#8) 32 ⟨.v1, true, true⟩
      = some r ∧ r.take 32 = List.replicate 32 0xAB#8 :=
  C03_bc3_lossless _ _ rfl _ (List.replicate 32 0xAB#8) _ _ (by decide) (by decide) (by decide)

/-- **C04** (BC3). Untransforming and transforming again gives back the data. -/
theorem C04_bc3_bijective (m m' : Machine) (hm : m.endian = m'.endian) (s : Settings)
    (data out out' : Buf) (h16 : data.length % 16 = 0) (ho : data.length ≤ out.length)
    (ho' : data.length ≤ out'.length) :
    ∃ t r, untransformWithSettings m data out data.length s = some t ∧
      transformWithSettings m' (t.take data.length) out' data.length s = some r ∧
      r.take data.length = data :=
  (untransform_impl m s).roundtrip (transform_impl m' s)
    (fun d h => by rw [← hm]; exact encode_decode _ s d h) h16 ho ho'

/-- **C04** (BC3), injectivity: two textures with the same transformed form are equal. -/
theorem C04_bc3_injective (m : Machine) (s : Settings) (a b out : Buf) (h16 : a.length % 16 = 0)
    (hab : a.length = b.length) (ho : a.length ≤ out.length)
    (h : transformWithSettings m a out a.length s = transformWithSettings m b out b.length s) : a = b :=
  (transform_impl m s).injective (untransform_impl m s) (decode_encode _ s) h16 hab ho h

/-- **C07.** On a little-endian machine the output is exactly the documented layout
(`Spec.bc3Fields`, colours replaced by `Spec.colour`), followed by the untouched rest of the buffer. -/
theorem C07_bc3_layout (m : Machine) (hm : m.endian = .little) (s : Settings) (data out : Buf)
    (h16 : data.length % 16 = 0) (ho : data.length ≤ out.length) :
    transformWithSettings m data out data.length s =
      some (columns 16 (bc3Fields (colour s.decorr) s.splitAlpha s.splitColour) data ++ out.drop data.length) := by
  obtain ⟨n, hn⟩ : ∃ n, data.length = n * 16 := ⟨data.length / 16, by omega⟩
  rw [hn, transform_eq m s hn (by omega), hm]
  congr 2
  exact columns_col (fun bs h => encCol_little s.decorr bs h) s.splitAlpha s.splitColour hn

/-- The layout of two concrete blocks, split or not, computed from the specification. -/
example : columns 16 (bc3Fields (colour .none) true true) ((List.range 32).map (BitVec.ofNat 8)) =
      [0, 16, 1, 17, 2, 3, 4, 5, 6, 7, 18, 19, 20, 21, 22, 23, 8, 9, 24, 25, 10, 11, 26, 27,
       12, 13, 14, 15, 28, 29, 30, 31] ∧
    columns 16 (bc3Fields (colour .none) false false) ((List.range 32).map (BitVec.ofNat 8)) =
      [0, 1, 16, 17, 2, 3, 4, 5, 6, 7, 18, 19, 20, 21, 22, 23, 8, 9, 10, 11, 24, 25, 26, 27,
       12, 13, 14, 15, 28, 29, 30, 31] ∧
    columns 16 (bc3Fields (colour .v1) true false) [1, 2, 0, 0, 0, 0, 0, 9, 0x1F, 0, 0, 0, 4, 5, 6, 7] =
      [1, 2, 0, 0, 0, 0, 0, 9, 0x41, 0xF8, 0, 0, 4, 5, 6, 7] := by decide

/-- **C10** (BC3). No access leaves the `len` input bytes or the output buffer (`some`), all of the
first `len` output bytes are determined by the input, and nothing behind them changes. -/
theorem C10_bc3_memory (m : Machine) (s : Settings) (data : Buf) (h16 : data.length % 16 = 0) :
    ∃ t u : Buf, t.length = data.length ∧ u.length = data.length ∧
      ∀ out : Buf, data.length ≤ out.length →
        transformWithSettings m data out data.length s = some (t ++ out.drop data.length) ∧
        untransformWithSettings m data out data.length s = some (u ++ out.drop data.length) :=
  ⟨_, _, encode_length m.endian s h16, decode_length m.endian s h16, fun out ho =>
    ⟨(transform_impl m s data out h16 ho).2, (untransform_impl m s data out h16 ho).2⟩⟩

/-- The model does notice accesses outside the buffers: with an output buffer that is one byte short the
same call is not `some`. -/
example : transformWithSettings (.x86 ⟨true, true, true, true, true, true, fun _ => 0⟩) (List.replicate 16 1#8)
    (List.replicate 15 0#8) 16 ⟨.v1, true, true⟩ = none := by decide

/-- **C13.** The result does not depend on the CPU features; it is that of the portable code on any
other little-endian machine. -/
theorem C13_bc3_cpu_independent (f : Features) (fresh : Nat → Byte) (s : Settings) (data out : Buf)
    (h16 : data.length % 16 = 0) (ho : data.length ≤ out.length) :
    transformWithSettings (.x86 f) data out data.length s =
      transformWithSettings (.other .little fresh) data out data.length s ∧
    untransformWithSettings (.x86 f) data out data.length s =
      untransformWithSettings (.other .little fresh) data out data.length s :=
  ⟨(transform_impl (.x86 f) s data out h16 ho).2.trans
      (transform_impl (.other .little fresh) s data out h16 ho).2.symm,
    (untransform_impl (.x86 f) s data out h16 ho).2.trans
      (untransform_impl (.other .little fresh) s data out h16 ho).2.symm⟩

/-- **C48** (BC3). Big-endian machines are lossless. -/
theorem C48_bc3_big_endian_lossless (fresh : Nat → Byte) (s : Settings) (data out out' : Buf)
    (h16 : data.length % 16 = 0) (ho : data.length ≤ out.length) (ho' : data.length ≤ out'.length) :
    ∃ t r, transformWithSettings (.other .big fresh) data out data.length s = some t ∧
      untransformWithSettings (.other .big fresh) (t.take data.length) out' data.length s = some r ∧
      r.take data.length = data :=
  C03_bc3_lossless _ _ rfl s data out out' h16 ho ho'

end Dlt.Props
