import Verif.Props.DdsPanics
import Verif.Props.Builders
/-!
# C81: which files are transformed DDS files
-/

namespace Dlt.Props

open Dlt.FileFormats Dlt.Dds Dlt.Embed

variable {σ E : Type}

/-- The first four bytes name the format that the DDS header has. -/
def TagFits (b : Buf) : Prop := (num b 0 % 16 = 0 ∧ classify b = .bc1) ∨ (num b 0 % 16 = 1 ∧ classify b = .bc2)

instance (b : Buf) : Decidable (TagFits b) := by unfold TagFits; infer_instance

/-- The bundle transforms the format of the file with the settings stated in its first four bytes. -/
def SetAs (bundle : Bundle σ E) (b : Buf) : Prop :=
  (num b 0 % 16 = 0 → ∃ k : Bc1.ManualBuilder, bundle.bc1 = some (.manual k) ∧ k.getSettings = wordSettings (num b 0)) ∧
  (num b 0 % 16 = 1 → ∃ k : Bc2.ManualBuilder, bundle.bc2 = some (.manual k) ∧ k.getSettings = wordSettings (num b 0))

theorem header_word_bc1 {w : Nat} (h : w % 64 = 0) : (Embed.bc1.toHeader (wordSettings w)).word.toNat = w % 512 := by
  have hv : w / 128 % 4 = 0 ∨ w / 128 % 4 = 1 ∨ w / 128 % 4 = 2 ∨ w / 128 % 4 = 3 := by omega
  have hc : w / 64 % 2 = 0 ∨ w / 64 % 2 = 1 := by omega
  rcases hv with hv | hv | hv | hv <;> rcases hc with hc | hc <;> simp only [wordSettings, hv, hc] <;>
    first
    | exact (show _ = (0 : Nat) by rfl).trans (by omega)
    | exact (show _ = (64 : Nat) by rfl).trans (by omega)
    | exact (show _ = (128 : Nat) by rfl).trans (by omega)
    | exact (show _ = (192 : Nat) by rfl).trans (by omega)
    | exact (show _ = (256 : Nat) by rfl).trans (by omega)
    | exact (show _ = (320 : Nat) by rfl).trans (by omega)
    | exact (show _ = (384 : Nat) by rfl).trans (by omega)
    | exact (show _ = (448 : Nat) by rfl).trans (by omega)

theorem header_word_bc2 {w : Nat} (h : w % 64 = 1) : (Embed.bc2.toHeader (wordSettings w)).word.toNat = w % 512 := by
  have hv : w / 128 % 4 = 0 ∨ w / 128 % 4 = 1 ∨ w / 128 % 4 = 2 ∨ w / 128 % 4 = 3 := by omega
  have hc : w / 64 % 2 = 0 ∨ w / 64 % 2 = 1 := by omega
  rcases hv with hv | hv | hv | hv <;> rcases hc with hc | hc <;> simp only [wordSettings, hv, hc] <;>
    first
    | exact (show _ = (1 : Nat) by rfl).trans (by omega)
    | exact (show _ = (65 : Nat) by rfl).trans (by omega)
    | exact (show _ = (129 : Nat) by rfl).trans (by omega)
    | exact (show _ = (193 : Nat) by rfl).trans (by omega)
    | exact (show _ = (257 : Nat) by rfl).trans (by omega)
    | exact (show _ = (321 : Nat) by rfl).trans (by omega)
    | exact (show _ = (385 : Nat) by rfl).trans (by omega)
    | exact (show _ = (449 : Nat) by rfl).trans (by omega)

/-- Texture data that was restored is transformed back by the same settings. -/
theorem dispatch_back (env : Env) {m m' : Machine} (hm : m.endian = m'.endian) (dbg : E → String) {bundle : Bundle σ E}
    {w : U32} {tex out u : Buf} (ho : out.length = tex.length)
    (h : dispatchUntransform m ⟨w⟩ tex out = some (u, .ok ())) (st : σ) (out' : Buf) (ho' : out'.length = tex.length) :
    u.length = tex.length ∧ w.toNat % 16 < 2 ∧ w.toNat / 16 % 4 = 0 ∧
    (w.toNat % 16 = 0 → ∀ k : Bc1.ManualBuilder, bundle.bc1 = some (.manual k) → k.getSettings = wordSettings w.toNat →
      bundle.dispatchTransform env m' dbg .bc1 u out' st = some (tex, st, .ok (Embed.bc1.toHeader (wordSettings w.toNat)))) ∧
    (w.toNat % 16 = 1 → ∀ k : Bc2.ManualBuilder, bundle.bc2 = some (.manual k) → k.getSettings = wordSettings w.toNat →
      bundle.dispatchTransform env m' dbg .bc2 u out' st = some (tex, st, .ok (Embed.bc2.toHeader (wordSettings w.toNat)))) := by
  obtain ⟨o2, r2, e1, e2⟩ := dispatchUntransform_spec m ⟨w⟩ tex out
  rw [h, Option.some.injEq, Prod.mk.injEq] at e1
  rw [← e1.1] at e2
  obtain ⟨_, h2⟩ := C36_dispatch_obeys_header m ⟨w⟩ tex out
  obtain ⟨h3, h4, h5, h6⟩ := h2 (by omega)
  simp only [] at h3 h4 h5 h6
  have t1 : w.toNat % 16 < 2 := by
    by_cases ht : 2 ≤ w.toNat % 16
    · rw [h3 ht] at h; simp at h
    · omega
  have t2 : w.toNat / 16 % 4 = 0 := by
    by_cases hv : w.toNat / 16 % 4 = 0
    · exact hv
    · rw [h4 t1 hv] at h; simp at h
  refine ⟨by omega, t1, t2, fun ht k hk hs => ?_, fun ht k hk hs => ?_⟩
  · obtain ⟨h7, h8⟩ := h5 ht t2
    by_cases ha : tex.length % 8 = 0
    swap
    · rw [h7 ha] at h; simp at h
    obtain ⟨o, h9, h10⟩ := h8 ha
    rw [h, Option.some.injEq, Prod.mk.injEq] at h10
    rw [← h10.1] at h9
    obtain ⟨t, r, g1, g2, g3⟩ := C04_bc1_bijective m m' hm (wordSettings w.toNat) tex out out' ha (by omega) (by omega)
    rw [h9, Option.some.injEq] at g1
    rw [← g1, List.take_of_length_le (by omega)] at g2
    obtain ⟨out2, f1, f2⟩ := (C42_bc1_manual_transform m' k u out').2.2 (by omega) (by omega)
    rw [hs, show u.length = tex.length by omega, g2, Option.some.injEq] at f1
    have hr : r = tex := by
      have hl : r.length = tex.length := by
        have := (Bc1.transform_impl m' (wordSettings w.toNat)) u out' (by omega) (by omega)
        simp only [] at this
        rw [show u.length = tex.length by omega, g2, Option.some.injEq] at this
        rw [this.2, List.length_append, this.1, List.length_drop]
        omega
      rw [← g3, List.take_of_length_le (by omega)]
    unfold Bundle.dispatchTransform
    rw [if_neg (by omega), hk]
    simp only [Bc1Builder.transformSliceWithDetails, f2, ← f1, hr, hs]
    rfl
  · obtain ⟨h7, h8⟩ := h6 ht t2
    by_cases ha : tex.length % 16 = 0
    swap
    · rw [h7 ha] at h; simp at h
    obtain ⟨o, h9, h10⟩ := h8 ha
    rw [h, Option.some.injEq, Prod.mk.injEq] at h10
    rw [← h10.1] at h9
    obtain ⟨t, r, g1, g2, g3⟩ := C04_bc2_bijective m m' hm (wordSettings w.toNat) tex out out' ha (by omega) (by omega)
    rw [h9, Option.some.injEq] at g1
    rw [← g1, List.take_of_length_le (by omega)] at g2
    obtain ⟨out2, f1, f2⟩ := (C42_bc2_manual_transform m' k u out').2.2 (by omega) (by omega)
    rw [hs, show u.length = tex.length by omega, g2, Option.some.injEq] at f1
    have hr : r = tex := by
      have hl : r.length = tex.length := by
        have := (Bc2.transform_impl m' (wordSettings w.toNat)) u out' (by omega) (by omega)
        simp only [] at this
        rw [show u.length = tex.length by omega, g2, Option.some.injEq] at this
        rw [this.2, List.length_append, this.1, List.length_drop]
        omega
      rw [← g3, List.take_of_length_le (by omega)]
    unfold Bundle.dispatchTransform
    rw [if_neg (by omega), hk]
    simp only [Bc2Builder.transformSliceWithDetails, f2, ← f1, hr, hs]
    rfl

theorem num_zero {b : Buf} (h : 4 ≤ b.length) : num b 0 = (of32 .little (slice b 0 4)).toNat := (num_eq (by omega)).symm

/-- **C81**, first half: a file that could be restored is transformed back, by the settings in its first four bytes, to the
same file, apart from bits 9 to 31 of these bytes, which come back as zero.  The two programs may run on different CPUs of
the same byte order; if the second checks for overflow so does the first. -/
theorem C81_restored_transforms_back (p p' : Platform) (hm : p.m.endian = p'.m.endian)
    (hc : p'.overflowChecks = true → p.overflowChecks = true) (hu : 2 ^ 32 - 1 ≤ p.env.usizeMax)
    (dbg : E → String) (bundle : Bundle σ E) (t out r : Buf) (hlen : out.length = t.length)
    (hin : t.length ≤ p'.env.usizeMax) (h : untransform p t out = some (r, .ok ())) (hfit : TagFits t)
    (hset : SetAs bundle t) (st : σ) (out' : Buf) (ho' : out'.length = t.length) :
    ∃ o, transformBundle p' dbg bundle r out' st = some (o, st, .ok ()) ∧
      o.drop 4 = t.drop 4 ∧ num o 0 = num t 0 % 512 ∧ (o = t ↔ num t 0 < 512) := by
  obtain ⟨info, hp, h1, h2, h3, u, hd⟩ := untransform_ok hu h
  have hle := parse_offset_le hp
  obtain ⟨_, hfmt, _⟩ := (C33_parse p t).2.2.2.2 info hp
  generalize hoff : info.dataOffset.toNat = off at *
  generalize hlen' : info.dataLength.toNat = len at *
  have hr := untransform_eq p t out hp hoff hlen' h1 h3 h2
  rw [h, hd] at hr
  simp only [] at hr
  have hsl : (slice t off len).length = len := slice_length_of_le (by omega)
  have hsl' : (slice out off len).length = len := slice_length_of_le (by omega)
  have hn := num_zero (b := t) (by omega)
  have hull := (dispatch_back p'.env (σ := σ) hm dbg (bundle := bundle) (by omega) hd st (slice out off len) (by omega)).1
  rw [hsl] at hull
  have hr' : r = assemble (to32 .little 0x20534444#32) t u (t.drop (off + len)) off := by
    by_cases hx : off + len < t.length
    · rw [if_pos hx, if_pos hlen] at hr
      simp only [Option.some.injEq, Prod.mk.injEq, and_true] at hr
      exact hr
    · rw [if_neg hx] at hr
      simp only [Option.some.injEq, Prod.mk.injEq, and_true] at hr
      rw [hr, List.drop_of_length_le (by omega), List.drop_of_length_le (by omega)]
  have hw4 : (to32 .little 0x20534444#32).length = 4 := to32_length _ _
  have l1 : r.length = t.length := by
    rw [hr', assemble_length hw4 (by omega) (by omega)]
    simp; omega
  have e1 : slice r 4 (off - 4) = slice t 4 (off - 4) := by rw [hr', assemble_header hw4 (by omega)]
  have e2 : slice r off len = u := by
    have := assemble_tex (magic := to32 .little 0x20534444#32) (input := t) (tex := u) (rest := t.drop (off + len)) hw4
      (by omega : 4 ≤ off) (by omega)
    rw [hull] at this
    rw [hr', this]
  have e3 : slice r 0 4 = to32 .little 0x20534444#32 := by rw [hr', assemble_magic hw4]
  have e4 : r.drop (off + len) = t.drop (off + len) := by
    have := assemble_rest (magic := to32 .little 0x20534444#32) (input := t) (tex := u) (rest := t.drop (off + len)) hw4
      (by omega : 4 ≤ off) (by omega)
    rw [hull] at this
    rw [hr', this]
  have hpr : parseDds p' r = some (some info) := by
    rw [parseDds_eq, if_pos ⟨by omega, by rw [e3, of32_to32]⟩]
    exact parse_same_header (parse_platform hc hp) l1 (by rw [hoff]; exact e1)
  obtain ⟨_, t1, t2, b1, b2⟩ := dispatch_back p'.env (σ := σ) hm dbg (bundle := bundle) (by omega) hd st
    (slice out' off len) (by rw [hsl, slice_length_of_le (by omega)])
  rw [← hn] at t1 t2 b1 b2
  -- the common end of both formats
  have fin : ∀ (f : TransformFormat) (w : TransformHeader), toTransformFormat info.format false = .ok f →
      bundle.dispatchTransform p'.env p'.m dbg f u (slice out' off len) st = some (slice t off len, st, .ok w) →
      w.word.toNat = num t 0 % 512 →
      ∃ o, transformBundle p' dbg bundle r out' st = some (o, st, .ok ()) ∧
        o.drop 4 = t.drop 4 ∧ num o 0 = num t 0 % 512 ∧ (o = t ↔ num t 0 < 512) := by
    intro f w hf hdt hw
    have heq := transform_eq p' dbg bundle r out' st hpr hoff hlen' (by omega) (by omega) (by omega)
    rw [hf] at heq
    simp only [e2, hdt, l1] at heq
    have hw4' : (to32 .little w.word).length = 4 := to32_length _ _
    have hres : transformBundle p' dbg bundle r out' st =
        some (assemble (to32 .little w.word) r (slice t off len) (t.drop (off + len)) off, st, .ok ()) := by
      rw [heq]
      by_cases hx : off + len < t.length
      · rw [if_pos hx, if_pos ho', e4]
      · rw [if_neg hx, List.drop_of_length_le (l := out') (by omega), List.drop_of_length_le (l := t) (by omega)]
    have hrt : assemble (to32 .little w.word) r (slice t off len) (t.drop (off + len)) off =
        assemble (to32 .little w.word) t (slice t off len) (t.drop (off + len)) off := by
      unfold assemble; rw [e1]
    rw [hrt] at hres
    have hself := assemble_self (input := t) (off := off) (len := len) (by omega)
    have hdrop : (assemble (to32 .little w.word) t (slice t off len) (t.drop (off + len)) off).drop 4 = t.drop 4 := by
      conv_rhs => rw [← hself]
      unfold assemble
      simp only [List.append_assoc]
      rw [List.drop_left' hw4', List.drop_left' (slice_length_of_le (by omega))]
    have hl2 : (assemble (to32 .little w.word) t (slice t off len) (t.drop (off + len)) off).length = t.length := by
      rw [assemble_length hw4' (by omega) (by omega), hsl]; simp; omega
    have hnum : num (assemble (to32 .little w.word) t (slice t off len) (t.drop (off + len)) off) 0 = num t 0 % 512 := by
      rw [num_zero (by omega), assemble_magic hw4', of32_to32, hw]
    refine ⟨_, hres, hdrop, hnum, fun heqt => ?_, fun hlt => ?_⟩
    · rw [heqt] at hnum; omega
    · have : to32 .little w.word = slice t 0 4 := by
        have hww : w.word = of32 .little (slice t 0 4) := BitVec.eq_of_toNat_eq (by rw [hw, ← hn]; omega)
        rw [hww, slice4 (by omega), to32_of32]
      rw [this, hself]
  rcases hfit with ⟨g1, g2⟩ | ⟨g1, g2⟩
  · obtain ⟨k, k1, k2⟩ := hset.1 g1
    exact fin .bc1 _ (by rw [hfmt, g2]; rfl) (b1 g1 k k1 k2) (header_word_bc1 (by omega))
  · obtain ⟨k, k1, k2⟩ := hset.2 g1
    exact fin .bc2 _ (by rw [hfmt, g2]; rfl) (b2 g1 k k1 k2) (header_word_bc2 (by omega))

/-- **C81**: the files that the transformation can write, for some file, bundle and buffer, are those that can be restored, have
no bit set in the first four bytes above the settings and state the format there that the DDS header has. -/
theorem C81_image (p : Platform) (hu : 2 ^ 32 - 1 ≤ p.env.usizeMax) (dbg : E → String) (st : σ) (t : Buf)
    (hin : t.length ≤ p.env.usizeMax) :
    (∃ (bundle : Bundle σ E) (input output : Buf) (st' : σ), output.length = input.length ∧
      transformBundle p dbg bundle input output st = some (t, st', .ok ())) ↔
    (∃ out r, out.length = t.length ∧ untransform p t out = some (r, .ok ())) ∧ num t 0 < 512 ∧ TagFits t := by
  constructor
  · rintro ⟨bundle, input, output, st', hl, h⟩
    obtain ⟨info, f, tex, w, hp, hi, ha, hio, hf, hd, hd1, heq, ho⟩ := transform_ok hu h
    have hlt : t.length = input.length := by rw [dds_keeps_length hu h, hl]
    obtain ⟨_, hback⟩ := C26_dds_roundtrip p p rfl id hu dbg bundle input output t st st' (by omega) hl h
      (List.replicate input.length 0) (by simp)
    have hle := parse_offset_le (parseDds_some hp).1
    have hw4 : (to32 .little w.word).length = 4 := to32_length _ _
    have hnum : num t 0 = w.word.toNat := by
      rw [num_zero (by omega), ho, assemble_magic hw4, of32_to32]
    have e1 : slice t 4 (info.dataOffset.toNat - 4) = slice input 4 (info.dataOffset.toNat - 4) := by
      rw [ho, assemble_header hw4 (by omega)]
    have hpt : parseIgnoreMagic p t = some (some info) := parse_same_header (parseDds_some hp).1 hlt e1
    obtain ⟨_, hfmt, _⟩ := (C33_parse p t).2.2.2.2 info hpt
    obtain ⟨o2, s2, r, g1, _, _, g4⟩ := dispatchTransform_spec p.env p.m dbg bundle f
      (slice input info.dataOffset.toNat info.dataLength.toNat)
      (slice output info.dataOffset.toNat info.dataLength.toNat) st
    rw [hd] at g1
    simp only [Option.some.injEq, Prod.mk.injEq] at g1
    obtain ⟨_, s, hs⟩ := g4 w g1.2.2.symm
    refine ⟨⟨_, _, by rw [List.length_replicate, hlt], hback⟩, ?_⟩
    rw [hfmt] at hf
    unfold TagFits
    rw [hnum]
    obtain ⟨v, c⟩ := s
    rcases hs with ⟨hbc, _, hw, _⟩ | ⟨hbc, _, hw, _⟩
    · have : classify t = .bc1 := by
        rw [hbc] at hf
        revert hf
        cases classify t <;> simp [toTransformFormat]
      rw [hw]
      cases v <;> cases c <;> exact ⟨by decide, .inl ⟨by decide, this⟩⟩
    · have : classify t = .bc2 := by
        rw [hbc] at hf
        revert hf
        cases classify t <;> simp [toTransformFormat]
      rw [hw]
      cases v <;> cases c <;> exact ⟨by decide, .inr ⟨by decide, this⟩⟩
  · rintro ⟨⟨out, r, hl, h⟩, hlt, hfit⟩
    have hrl : r.length = t.length := by
      obtain ⟨info, hp, h1, h2, h3, u, hd⟩ := untransform_ok hu h
      have hle := parse_offset_le hp
      have hr := untransform_eq p t out hp rfl rfl h1 h3 h2
      rw [h, hd] at hr
      simp only [] at hr
      obtain ⟨o2, r2, e1, e2⟩ := dispatchUntransform_spec p.m ⟨of32 .little (slice t 0 4)⟩
        (slice t info.dataOffset.toNat info.dataLength.toNat) (slice out info.dataOffset.toNat info.dataLength.toNat)
      rw [hd, Option.some.injEq, Prod.mk.injEq] at e1
      rw [← e1.1, slice_length_of_le (by omega)] at e2
      have hw4 : (to32 .little 0x20534444#32).length = 4 := to32_length _ _
      by_cases hx : info.dataOffset.toNat + info.dataLength.toNat < t.length
      · rw [if_pos hx, if_pos hl] at hr
        simp only [Option.some.injEq, Prod.mk.injEq, and_true] at hr
        rw [hr, assemble_length hw4 (by omega) (by omega)]
        simp; omega
      · rw [if_neg hx] at hr
        simp only [Option.some.injEq, Prod.mk.injEq, and_true] at hr
        rw [hr, assemble_length hw4 (by omega) (by omega)]
        simp; omega
    let bundle : Bundle σ E := ⟨some (.manual ⟨wordSettings (num t 0)⟩), some (.manual ⟨wordSettings (num t 0)⟩)⟩
    obtain ⟨o, ho, _, _, hiff⟩ := C81_restored_transforms_back p p rfl id hu dbg bundle t out r hl hin h hfit
      ⟨fun _ => ⟨_, rfl, rfl⟩, fun _ => ⟨_, rfl, rfl⟩⟩ st out hl
    rw [hiff.2 hlt] at ho
    exact ⟨bundle, r, out, st, by omega, ho⟩

/-- `smallFile` with the first four bytes of a transformed file. -/
def markedFile (w : U32) : Buf := to32 .little w ++ smallFile.drop 4

/-- A 8 x 4 BC1 texture, marked as BC2. -/
def mislabelledFile : Buf :=
  to32 .little 65#32 ++ (ddsHeader 0x1007#32 4#32 8#32 1#32 4#32 "DXT1" []).drop 4 ++ (List.range 16).map (BitVec.ofNat 8)

/-- Non-vacuity: `markedFile 64` meets all conditions, so it is a result of the transformation; with bit 9 set, or marked as the
other format, a file is restored as well but it is not a result. -/
example :
    ((∃ (bundle : Bundle Unit Unit) (input output : Buf) (st' : Unit), output.length = input.length ∧
      transformBundle somePlatform (fun _ => "") bundle input output () = some (markedFile 64, st', .ok ()))) ∧
    (∃ r, untransform somePlatform (markedFile 576) (List.replicate 137 0) = some (r, .ok ())) ∧
    ¬ (∃ (bundle : Bundle Unit Unit) (input output : Buf) (st' : Unit), output.length = input.length ∧
      transformBundle somePlatform (fun _ => "") bundle input output () = some (markedFile 576, st', .ok ())) ∧
    (∃ r, untransform somePlatform mislabelledFile (List.replicate 144 0) = some (r, .ok ())) ∧
    ¬ (∃ (bundle : Bundle Unit Unit) (input output : Buf) (st' : Unit), output.length = input.length ∧
      transformBundle somePlatform (fun _ => "") bundle input output () = some (mislabelledFile, st', .ok ())) := by
  have ok : ∀ (t : Buf) (n : Nat),
      ((untransform somePlatform t (List.replicate n 0)).map fun x => x.2.toOption) = some (some ()) →
      ∃ r, untransform somePlatform t (List.replicate n 0) = some (r, .ok ()) := by
    intro t n h
    match hr : untransform somePlatform t (List.replicate n 0) with
    | none => rw [hr] at h; simp at h
    | some (o, .error e) => rw [hr] at h; simp [Except.toOption] at h
    | some (o, .ok ()) => exact ⟨o, rfl⟩
  have l1 : ∀ w, (markedFile w).length = 137 := fun w => by
    rw [markedFile, List.length_append, to32_length, show (smallFile.drop 4).length = 133 by decide +kernel]
  have hu : 2 ^ 32 - 1 ≤ somePlatform.env.usizeMax := by decide
  have hmax : somePlatform.env.usizeMax = 2 ^ 64 - 1 := rfl
  refine ⟨?_, ok _ _ (by decide +kernel), ?_, ok _ _ (by decide +kernel), ?_⟩
  · rw [C81_image somePlatform hu _ _ _ (by rw [l1, hmax]; omega)]
    obtain ⟨r, hr⟩ := ok (markedFile 64) 137 (by decide +kernel)
    exact ⟨⟨_, r, by rw [l1, List.length_replicate], hr⟩, by decide +kernel, by decide +kernel⟩
  · rw [C81_image somePlatform hu _ _ _ (by rw [l1, hmax]; omega)]
    rintro ⟨_, h, _⟩
    exact absurd h (by decide +kernel)
  · rw [C81_image somePlatform hu _ _ _ (by rw [show mislabelledFile.length = 144 by decide +kernel, hmax]; omega)]
    rintro ⟨_, _, h⟩
    exact absurd h (by decide +kernel)

end Dlt.Props
