import Verif.Props.AutoBlind
import Verif.Props.StoredFiles
/-!
# C84 for files: the tag of a transformed DDS file depends on the colour end points only
-/

namespace Dlt.Props
open Dlt.FileFormats Dlt.Dds Dlt.Embed Spec

variable {σ E : Type}

/-- The BC1 builder of a bundle does the same for two textures with the same end points, up to the output. -/
theorem details_blind1 (env : Env) (m m' : Machine) (hm : m.endian = m'.endian) (dbg : E → String) (q : Bc1Builder σ E) (n : Nat)
    (a b out out' : Buf) (st : σ) (ha : a.length = n * 8) (hb : b.length = n * 8) (ho : n * 8 ≤ out.length) (ho' : n * 8 ≤ out'.length)
    (h : SamePart 8 0 4 n a b) :
    ∃ x y st' r, q.transformSliceWithDetails env m dbg a out st = some (x, st', r) ∧
      q.transformSliceWithDetails env m' dbg b out' st = some (y, st', r) := by
  cases q with
  | manual q =>
    obtain ⟨o, -, e⟩ := (C42_bc1_manual_transform m q a out).2.2 (by omega) (by omega)
    obtain ⟨o', -, e'⟩ := (C42_bc1_manual_transform m' q b out').2.2 (by omega) (by omega)
    refine ⟨o, o', st, .ok q.getSettings, ?_, ?_⟩ <;> unfold Bc1Builder.transformSliceWithDetails
    · simp only [e]; rfl
    · simp only [e']; rfl
  | auto q =>
    obtain ⟨x, y, st', r, e, e'⟩ := C84_bc1 env m m' hm q.estimator q.useAll n a b out out' st ha hb ho ho' h
    have s : Bc1.transformAutoSafe env m q.estimator q.useAll a out st = some (x, st', r.mapError .determineBest) := by
      unfold Bc1.transformAutoSafe
      rw [if_neg (by omega), if_neg (by omega), e]; rfl
    have s' : Bc1.transformAutoSafe env m' q.estimator q.useAll b out' st = some (y, st', r.mapError .determineBest) := by
      unfold Bc1.transformAutoSafe
      rw [if_neg (by omega), if_neg (by omega), e']; rfl
    unfold Bc1Builder.transformSliceWithDetails Bc1.AutoBuilder.transform
    simp only [s, s']
    cases r <;> exact ⟨_, _, _, _, rfl, rfl⟩

/-- The BC2 builder of a bundle does the same for two textures with the same colour end points, up to the output. -/
theorem details_blind2 (env : Env) (m m' : Machine) (hm : m.endian = m'.endian) (dbg : E → String) (q : Bc2Builder σ E) (n : Nat)
    (a b out out' : Buf) (st : σ) (ha : a.length = n * 16) (hb : b.length = n * 16) (ho : n * 16 ≤ out.length)
    (ho' : n * 16 ≤ out'.length) (h : SamePart 16 8 4 n a b) :
    ∃ x y st' r, q.transformSliceWithDetails env m dbg a out st = some (x, st', r) ∧
      q.transformSliceWithDetails env m' dbg b out' st = some (y, st', r) := by
  cases q with
  | manual q =>
    obtain ⟨o, -, e⟩ := (C42_bc2_manual_transform m q a out).2.2 (by omega) (by omega)
    obtain ⟨o', -, e'⟩ := (C42_bc2_manual_transform m' q b out').2.2 (by omega) (by omega)
    refine ⟨o, o', st, .ok q.getSettings, ?_, ?_⟩ <;> unfold Bc2Builder.transformSliceWithDetails
    · simp only [e]; rfl
    · simp only [e']; rfl
  | auto q =>
    obtain ⟨x, y, st', r, e, e'⟩ := C84_bc2 env m m' hm q.estimator q.useAll n a b out out' st ha hb ho ho' h
    have s : Bc2.transformAutoSafe env m q.estimator q.useAll a out st = some (x, st', r.mapError .determineBest) := by
      unfold Bc2.transformAutoSafe
      rw [if_neg (by omega), if_neg (by omega), e]; rfl
    have s' : Bc2.transformAutoSafe env m' q.estimator q.useAll b out' st = some (y, st', r.mapError .determineBest) := by
      unfold Bc2.transformAutoSafe
      rw [if_neg (by omega), if_neg (by omega), e']; rfl
    unfold Bc2Builder.transformSliceWithDetails Bc2.AutoBuilder.transform
    simp only [s, s']
    cases r <;> exact ⟨_, _, _, _, rfl, rfl⟩

/-- What the handler asked the bundle for. -/
theorem bundle_asked {p : Platform} (hu : 2 ^ 32 - 1 ≤ p.env.usizeMax) {dbg : E → String} {b : Bundle σ E}
    {input output a : Buf} {st st' : σ} (h : transformBundle p dbg b input output st = some (a, st', .ok ())) :
    ∃ f tex w out, toTransformFormat (classify input) false = .ok f ∧ out.length = reportedSize input ∧
      b.dispatchTransform p.env p.m dbg f (textureIn input input) out st = some (tex, st', .ok w) ∧ a.take 4 = to32 .little w.word := by
  obtain ⟨info, f, tex, w, hp, hi, ha, hio, hf, hd, hd1, heq, ho⟩ := transform_ok hu h
  have hrep : info = reported input := by
    have := hp
    rw [parseDds_spec] at this
    split at this
    · split at this
      · simp at this
      · simpa using this.symm
    · simp at this
  subst hrep
  rw [reported_offset, reported_length] at hi ha hd heq ho
  have x0 := assemble_magic (magic := to32 .little w.word) (input := input) (tex := tex)
    (rest := if headerSize input + reportedSize input < input.length then input.drop (headerSize input + reportedSize input)
      else output.drop (headerSize input + reportedSize input)) (off := headerSize input) (to32_length _ _)
  rw [← ho, slice, List.drop_zero] at x0
  exact ⟨f, tex, w, textureIn input output, hf, slice_length_of_le (by omega), hd, x0⟩

/-- **C84** (DDS files): two DDS files of the same format and size whose blocks have the same colour end points, whatever their other
bytes, are given the same tag, if both are transformed with the same bundle; estimators are left in the same state. CPUs of one byte
order, addresses of at least 32 bits. -/
theorem C84_dds (p p' : Platform) (hu : 2 ^ 32 - 1 ≤ p.env.usizeMax) (he : p.env = p'.env) (hm : p.m.endian = p'.m.endian)
    (dbg : E → String) (b : Bundle σ E) (input output x input' output' y : Buf) (st st1 st1' : σ)
    (h : transformBundle p dbg b input output st = some (x, st1, .ok ()))
    (h' : transformBundle p' dbg b input' output' st = some (y, st1', .ok ()))
    (hc : classify input = classify input') (hn : reportedSize input = reportedSize input')
    (h1 : classify input = .bc1 → SamePart 8 0 4 (reportedSize input / 8) (textureIn input input) (textureIn input' input'))
    (h2 : classify input = .bc2 → SamePart 16 8 4 (reportedSize input / 16) (textureIn input input) (textureIn input' input')) :
    x.take 4 = y.take 4 ∧ st1 = st1' := by
  have hu' : 2 ^ 32 - 1 ≤ p'.env.usizeMax := he ▸ hu
  obtain ⟨l, _, _, _, k⟩ := any_texture hu h
  obtain ⟨l', -⟩ := any_texture hu' h'
  obtain ⟨f, tex, w, o, hf, lo, e, t⟩ := bundle_asked hu h
  obtain ⟨f', tex', w', o', hf', lo', e', t'⟩ := bundle_asked hu' h'
  rw [← hc, hf] at hf'
  obtain rfl : f = f' := by simpa using hf'
  rw [← he] at e'
  rw [t, t']
  unfold Bundle.dispatchTransform at e e'
  rw [if_neg (by omega)] at e e'
  rcases k with ⟨c, h8, -⟩ | ⟨c, h8, -⟩ <;> rw [c] at hf <;> simp only [toTransformFormat, Except.ok.injEq] at hf <;> subst hf
  · cases hb : b.bc1 with
    | none => simp [hb] at e
    | some q =>
      obtain ⟨u, v, s, r, k, k'⟩ := details_blind1 p.env p.m p'.m hm dbg q (reportedSize input / 8) _ _ o o' st
        (by rw [l]; omega) (by rw [l']; omega) (by omega) (by omega) (h1 c)
      simp only [hb, k] at e
      simp only [hb, k'] at e'
      cases r with
      | error r => simp [Except.map] at e
      | ok r =>
        simp [Except.map] at e e'
        obtain ⟨-, rfl, rfl⟩ := e
        obtain ⟨-, rfl, rfl⟩ := e'
        exact ⟨rfl, rfl⟩
  · cases hb : b.bc2 with
    | none => simp [hb] at e
    | some q =>
      obtain ⟨u, v, s, r, k, k'⟩ := details_blind2 p.env p.m p'.m hm dbg q (reportedSize input / 16) _ _ o o' st
        (by rw [l]; omega) (by rw [l']; omega) (by omega) (by omega) (h2 c)
      simp only [hb, k] at e
      simp only [hb, k'] at e'
      cases r with
      | error r => simp [Except.map] at e
      | ok r =>
        simp [Except.map] at e e'
        obtain ⟨-, rfl, rfl⟩ := e
        obtain ⟨-, rfl, rfl⟩ := e'
        exact ⟨rfl, rfl⟩

/-- `mossFile` with other indices. -/
def rockFile : Buf := mossFile.take 132 ++ [0xAA, 0xBB, 0xCC, 0xDD, 99]

/-- A case: two files that differ in the indices get the same tag, and in other bytes of the results the difference is kept. -/
example :
    rockFile.length = 137 ∧ rockFile ≠ mossFile ∧ classify rockFile = classify mossFile ∧ reportedSize rockFile = reportedSize mossFile ∧
    SamePart 8 0 4 1 (textureIn mossFile mossFile) (textureIn rockFile rockFile) ∧
    ((transformBundle somePlatform (fun _ => "") (Bundle.new.withBc1Auto (.newUltra lateBest)) mossFile (List.replicate 137 7) 0).map
      fun (o, k, r) => (r.toOption, o.take 4, k, o.drop 132)) = some (some (), [0x40, 0, 0, 0], 8, [1, 2, 3, 4, 99]) ∧
    ((transformBundle somePlatform (fun _ => "") (Bundle.new.withBc1Auto (.newUltra lateBest)) rockFile (List.replicate 137 7) 0).map
      fun (o, k, r) => (r.toOption, o.take 4, k, o.drop 132)) = some (some (), [0x40, 0, 0, 0], 8, [0xAA, 0xBB, 0xCC, 0xDD, 99]) := by
  refine ⟨by decide +kernel, by decide +kernel, by decide +kernel, by decide +kernel, fun i hi => ?_, by decide +kernel, by decide +kernel⟩
  obtain rfl : i = 0 := by omega
  decide +kernel

end Dlt.Props
