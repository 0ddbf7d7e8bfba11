import Verif.Props.Surfaces
import Verif.Props.Reproducible
/-!
# C109: the header decides where the texture is and of which format, and nothing else about the transform

The same texture can be wrapped in different ways: with the old four character code or with a DX10 header, as one level or as
several, wide or tall, followed by anything.  Here: the settings chosen, the transformed texture and the restored texture are
the same.
-/

namespace Dlt.Props

open Dlt.FileFormats Dlt.Dds Dlt.Embed

variable {σ E : Type}

/-! ## Specification -/

/-- A file holds `texture` as its texture data, behind a header of its own. -/
structure WrappedTexture (b texture : Buf) : Prop where
  header : headerSize b ≤ b.length
  small : texture.length < 2 ^ 32
  size : textureSize b = texture.length
  data : slice b (headerSize b) texture.length = texture

/-- The texture data of a file as it is after the call. -/
def textureAfter (b texture o : Buf) : Buf := slice o (headerSize b) texture.length

/-! ## What the handler finds -/

theorem WrappedTexture.fits {b t : Buf} (h : WrappedTexture b t) : headerSize b + t.length ≤ b.length := by
  have h1 := congrArg List.length h.data
  have h2 := h.header
  unfold slice at h1
  rw [List.length_take, List.length_drop] at h1
  omega

theorem WrappedTexture.reported {b t : Buf} (h : WrappedTexture b t) : reportedSize b = t.length := by
  rw [reportedSize_eq (by rw [h.size]; exact h.small), h.size]

theorem WrappedTexture.parse {b t : Buf} (h : WrappedTexture b t) (p : Platform) : parseIgnoreMagic p b = some (some (Props.reported b)) := by
  have hh := headerSize_le b
  have h1 := h.header
  have hd : IsDx10 b → headerSize b = 148 := fun h => if_pos h
  rw [parseIgnoreMagic_spec, if_pos ⟨by omega, fun hx => by have := hd hx; omega⟩, if_neg]
  rintro ⟨_, i, hi, hl⟩
  have h2 : levelSize b i ≤ textureSize b := le_total hi
  rw [h.size] at h2
  have := h.small
  omega

theorem WrappedTexture.parseDds {b t : Buf} (h : WrappedTexture b t) (p : Platform) (hm : slice b 0 4 = ascii "DDS ") :
    Dds.parseDds p b = some (some (Props.reported b)) := by
  have hh := headerSize_le b
  have h1 := h.header
  have hd : IsDx10 b → headerSize b = 148 := fun h => if_pos h
  rw [(C33_parse p b).2.2.1 ⟨hm, by omega, fun hx => by have := hd hx; omega⟩ |>.symm, h.parse p]

/-- **C109**.  Two files of the same format with the same texture data, whatever else is in them, are transformed alike: the same
result, the same settings in the first four bytes, the same transformed texture, and the estimator is left in the same state. -/
theorem C109_transform (p : Platform) (hw : Wide p) (dbg : E → String) (bundle : Bundle σ E) (x y texture out out' : Buf) (st : σ)
    (hx : WrappedTexture x texture) (hy : WrappedTexture y texture) (mx : slice x 0 4 = ascii "DDS ") (my : slice y 0 4 = ascii "DDS ")
    (hf : classify y = classify x) (ho : out.length = x.length) (ho' : out'.length = y.length) :
    ∃ o o' st' r, transformBundle p dbg bundle x out st = some (o, st', r) ∧
      transformBundle p dbg bundle y out' st = some (o', st', r) ∧
      (r = .ok () → slice o' 0 4 = slice o 0 4 ∧ textureAfter y texture o' = textureAfter x texture o) := by
  have hhx := headerSize_le x
  have hhy := headerSize_le y
  have hfx := hx.fits
  have hfy := hy.fits
  have hs := hx.small
  unfold Wide at hw
  rw [transform_eq p dbg bundle x out st (hx.parseDds p mx) (reported_offset x) ((reported_length x).trans hx.reported) hfx
      (by omega) (by omega),
    transform_eq p dbg bundle y out' st (hy.parseDds p my) (reported_offset y) ((reported_length y).trans hy.reported) hfy
      (by omega) (by omega), hx.data, hy.data]
  have e : (Props.reported y).format = (Props.reported x).format := hf
  rw [e]
  cases toTransformFormat (Props.reported x).format false with
  | error e => exact ⟨_, _, _, _, rfl, rfl, fun hr => by cases hr⟩
  | ok f =>
    simp only []
    obtain ⟨a, b, s2, r2, e1, e2, la, lb, hab⟩ := dispatch_written p.env p.m dbg bundle f texture (slice out (headerSize x) texture.length)
      (slice out' (headerSize y) texture.length) st (slice_length_of_le (by omega)) (slice_length_of_le (by omega))
    rw [e1, e2]
    cases r2 with
    | error e => exact ⟨_, _, _, _, rfl, rfl, fun hr => by cases hr⟩
    | ok w =>
      obtain rfl := hab w rfl
      have l4 : (to32 .little w.word).length = 4 := to32_length _ _
      have key : ∀ rest rest' : Buf,
          slice (assemble (to32 .little w.word) y b rest' (headerSize y)) 0 4 =
            slice (assemble (to32 .little w.word) x b rest (headerSize x)) 0 4 ∧
          textureAfter y texture (assemble (to32 .little w.word) y b rest' (headerSize y)) =
            textureAfter x texture (assemble (to32 .little w.word) x b rest (headerSize x)) := fun rest rest' => by
        unfold textureAfter
        rw [assemble_magic l4, assemble_magic l4, ← la, assemble_tex l4 (by omega) (by omega),
          assemble_tex l4 (by omega) (by omega)]
        exact ⟨rfl, rfl⟩
      simp only [ho, ho', if_true]
      by_cases c : headerSize x + texture.length < x.length <;> by_cases c' : headerSize y + texture.length < y.length
      · rw [if_pos c, if_pos c']; exact ⟨_, _, _, _, rfl, rfl, fun _ => key _ _⟩
      · rw [if_pos c, if_neg c']; exact ⟨_, _, _, _, rfl, rfl, fun _ => key _ _⟩
      · rw [if_neg c, if_pos c']; exact ⟨_, _, _, _, rfl, rfl, fun _ => key _ _⟩
      · rw [if_neg c, if_neg c']; exact ⟨_, _, _, _, rfl, rfl, fun _ => key _ _⟩

/-- **C109**, backwards: two transformed files with the same first four bytes and the same texture data are restored alike, even if
their headers name different formats. -/
theorem C109_untransform (p : Platform) (hw : Wide p) (x y texture out out' : Buf)
    (hx : WrappedTexture x texture) (hy : WrappedTexture y texture) (hm : slice y 0 4 = slice x 0 4)
    (ho : out.length = x.length) (ho' : out'.length = y.length) :
    ∃ o o' r, untransform p x out = some (o, r) ∧ untransform p y out' = some (o', r) ∧
      (r = .ok () → textureAfter y texture o' = textureAfter x texture o) := by
  have hhx := headerSize_le x
  have hhy := headerSize_le y
  have hfx := hx.fits
  have hfy := hy.fits
  have hs := hx.small
  unfold Wide at hw
  rw [untransform_eq p x out (hx.parse p) (reported_offset x) ((reported_length x).trans hx.reported) hfx
      (by omega) (by omega),
    untransform_eq p y out' (hy.parse p) (reported_offset y) ((reported_length y).trans hy.reported) hfy
      (by omega) (by omega), hx.data, hy.data, hm]
  obtain ⟨a, b, r, e1, e2, la, lb, hab⟩ := dispatchUntransform_written p.m ⟨of32 .little (slice x 0 4)⟩ texture
    (slice out (headerSize x) texture.length) (slice out' (headerSize y) texture.length)
    (slice_length_of_le (by omega)) (slice_length_of_le (by omega))
  rw [e1, e2]
  cases r with
  | error e => exact ⟨_, _, _, rfl, rfl, fun hr => by cases hr⟩
  | ok w =>
    obtain rfl := hab rfl
    have l4 : (to32 .little 0x20534444#32).length = 4 := to32_length _ _
    have key : ∀ rest rest' : Buf,
        textureAfter y texture (assemble (to32 .little 0x20534444#32) y b rest' (headerSize y)) =
          textureAfter x texture (assemble (to32 .little 0x20534444#32) x b rest (headerSize x)) := fun rest rest' => by
      unfold textureAfter
      rw [← la, assemble_tex l4 (by omega) (by omega), assemble_tex l4 (by omega) (by omega)]
    simp only [ho, ho', if_true]
    by_cases c : headerSize x + texture.length < x.length <;> by_cases c' : headerSize y + texture.length < y.length
    · rw [if_pos c, if_pos c']; exact ⟨_, _, _, rfl, rfl, fun _ => key _ _⟩
    · rw [if_pos c, if_neg c']; exact ⟨_, _, _, rfl, rfl, fun _ => key _ _⟩
    · rw [if_neg c, if_pos c']; exact ⟨_, _, _, rfl, rfl, fun _ => key _ _⟩
    · rw [if_neg c, if_neg c']; exact ⟨_, _, _, rfl, rfl, fun _ => key _ _⟩

/-! ## Concrete files -/

/-- Two BC1 blocks. -/
def twoBlocks : Buf := [1, 2, 3, 4, 5, 6, 7, 8, 9, 10, 11, 12, 13, 14, 15, 16]

/-- As 8 x 4 pixels behind an old header. -/
def oldStyle : Buf := ddsHeader 0x1007#32 4#32 8#32 1#32 4#32 "DXT1" [] ++ twoBlocks

/-- As two levels of 4 x 4 and 2 x 2 pixels behind a DX10 header (format 71), with three bytes more. -/
def newStyle : Buf :=
  ddsHeader 0x21007#32 4#32 4#32 2#32 4#32 "DX10" [] ++ to32 .little 71#32 ++ List.replicate 16 0 ++ twoBlocks ++ [7, 8, 9]

/-- Non-vacuity: both hold the two blocks, are of the same format and are transformed, to files that are not alike otherwise. -/
theorem example_styles :
    WrappedTexture oldStyle twoBlocks ∧ WrappedTexture newStyle twoBlocks ∧ slice oldStyle 0 4 = ascii "DDS " ∧ slice newStyle 0 4 = ascii "DDS " ∧
    classify oldStyle = .bc1 ∧ classify newStyle = .bc1 ∧ headerSize oldStyle ≠ headerSize newStyle ∧
    (transformBundle somePlatform (fun _ : Unit => "") (Bundle.defaultAll (σ := Unit)) oldStyle (List.replicate 144 7) ()).map
      (fun (o, _, r) => (slice o 0 4, textureAfter oldStyle twoBlocks o, r.toOption)) =
      some ([64, 0, 0, 0], [216, 231, 19, 246, 95, 7, 154, 29, 5, 6, 7, 8, 13, 14, 15, 16], some ()) := by
  refine ⟨⟨by decide +kernel, by decide +kernel, by decide +kernel, by decide +kernel⟩,
    ⟨by decide +kernel, by decide +kernel, by decide +kernel, by decide +kernel⟩, by decide +kernel, by decide +kernel,
    by decide +kernel, by decide +kernel, by decide +kernel, by decide +kernel⟩

end Dlt.Props
