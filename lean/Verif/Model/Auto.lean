import Verif.Model.Safe
/-!
# Automatic choice of settings

Models `/repo/src/core/dxt-lossless-transform-bc{1,2,3}/src/transform/transform_auto.rs`, the test orders of
`transform/settings.rs` and the safe wrappers `transform/safe/transform_auto.rs`.

The estimator is arbitrary code behind the trait `SizeEstimationOperations`
(`/repo/src/api/dxt-lossless-transform-api-common/src/estimate/mod.rs:24-65`).  It is modelled as a state
machine over an arbitrary state `σ`: its answers may depend on everything that happened before,
including the contents it left in its scratch buffer (which are part of `σ`).
Simplification: it does not write outside its scratch buffer, as its contract demands, and it returns.
-/

namespace Dlt

/-- `SizeEstimationOperations`, api-common/src/estimate/mod.rs:24-65. -/
structure Estimator (σ E : Type) where
  /-- `max_compressed_size(len_bytes)` -/
  maxSize : σ → Nat → σ × Except E Nat
  /-- `estimate_compressed_size(input, output, output_len)`: the bytes to be measured and the size of
  the scratch buffer (0 for the null pointer that the callers pass when `maxSize` answered 0) -/
  estimate : σ → Buf → Nat → σ × Except E Nat

/-- The allocator and the word size. -/
structure Env where
  /-- Does `allocate_align_64(n)` succeed
  (`/repo/src/core/dxt-lossless-transform-common/src/allocate.rs`)? -/
  canAlloc : Nat → Bool
  /-- `usize::MAX` -/
  usizeMax : Nat

/-- `DetermineBestTransformError<E>`, bc1 transform_auto.rs:15-23 (bc2, bc3: same). -/
inductive DetermineBestError (E : Type) where
  | allocate
  | sizeEstimation (e : E)
  deriving DecidableEq, Repr

namespace Auto

/-- The loop over the test order: bc1 transform_auto.rs:237-261, bc2 transform_auto.rs:233-263,
bc3 transform_auto.rs:234-285.  `transform` is `transform_bcN_with_settings` on the fixed input, `measure` the
estimator calls of one iteration.  The result holds the output buffer, the estimator state and
either the first error or `(best, last_tested)`. -/
def loop {S σ E : Type} (transform : Buf → S → Option Buf) (measure : σ → Buf → σ × Except E Nat) :
    List S → Buf → σ → S → Nat → S → Option (Buf × σ × Except E (S × S))
  | [], out, st, best, _, last => some (out, st, .ok (best, last))
  | cur :: rest, out, st, best, bestSize, _ => do
    let out ← transform out cur
    match measure st out with
    | (st, .error e) => pure (out, st, .error e)
    | (st, .ok size) =>
      if size < bestSize then loop transform measure rest out st cur size cur
      else loop transform measure rest out st best bestSize cur

/-- The part of the functions after the allocation: the loop and the final transform
(bc1 transform_auto.rs:237-269, bc2 233-271, bc3 234-293). -/
def search {S σ E : Type} [DecidableEq S] (env : Env) (order : List S) (dflt : S)
    (transform : Buf → S → Option Buf) (measure : σ → Buf → σ × Except E Nat) (out : Buf) (st : σ) :
    Option (Buf × σ × Except (DetermineBestError E) S) := do
  match ← loop transform measure order out st dflt env.usizeMax dflt with
  | (out, st, .error e) => pure (out, st, .error (.sizeEstimation e))
  | (out, st, .ok (best, last)) =>
    if best ≠ last then
      let out ← transform out best
      pure (out, st, .ok best)
    else pure (out, st, .ok best)

/-- The part before: `max_compressed_size` and the allocation of the scratch buffer
(bc1 transform_auto.rs:215-227, bc2 211-223, bc3 212-224); `body` gets the scratch size. -/
def prepare {S σ E : Type} (env : Env) (est : Estimator σ E) (len : Nat) (out : Buf) (st : σ)
    (body : Nat → σ → Option (Buf × σ × Except (DetermineBestError E) S)) :
    Option (Buf × σ × Except (DetermineBestError E) S) :=
  match est.maxSize st len with
  | (st, .error e) => some (out, st, .error (.sizeEstimation e))
  | (st, .ok maxComp) =>
    if maxComp = 0 then body 0 st
    else if env.canAlloc maxComp then body maxComp st
    else some (out, st, .error .allocate)

end Auto

namespace Bc1

/-- `Default for Bc1TransformSettings`, bc1 settings.rs. -/
def defaultSettings : ColourSettings := ⟨.v1, true⟩

/-- `FAST_TEST_ORDER`, bc1 settings.rs:81-86. -/
def fastOrder : List ColourSettings :=
  [⟨.none, false⟩, ⟨.none, true⟩, ⟨.v1, false⟩, ⟨.v1, true⟩]

/-- `COMPREHENSIVE_TEST_ORDER`, bc1 settings.rs:89-98. -/
def fullOrder : List ColourSettings :=
  [⟨.v2, false⟩, ⟨.none, false⟩, ⟨.none, true⟩, ⟨.v3, false⟩,
   ⟨.v3, true⟩, ⟨.v2, true⟩, ⟨.v1, false⟩, ⟨.v1, true⟩]

/-- The choice between the test orders in `transform_bc1_auto`. -/
def testOrder (useAll : Bool) : List ColourSettings := if useAll then fullOrder else fastOrder

/-- The estimator call of one iteration, bc1 transform_auto.rs:253-256: the first half of the output. -/
def measure {σ E : Type} (_env : Env) (est : Estimator σ E) (len comp : Nat) (st : σ) (out : Buf) : σ × Except E Nat :=
  est.estimate st (slice out 0 (len / 2)) comp

/-- `transform_bc1_auto`, bc1 transform_auto.rs:200-270. -/
def transformAuto {σ E : Type} (env : Env) (m : Machine) (est : Estimator σ E) (useAll : Bool)
    (inp out : Buf) (len : Nat) (st : σ) : Option (Buf × σ × Except (DetermineBestError E) ColourSettings) :=
  Auto.prepare env est (len / 2) out st fun comp st =>
    Auto.search env (testOrder useAll) defaultSettings (fun out s => transformWithSettings m inp out len s)
      (measure env est len comp) out st

/-- `Bc1AutoTransformError<E>`, bc1 safe/transform_auto.rs:17-29. -/
inductive AutoError (E : Type) where
  | invalidLength (len : Nat)
  | outputBufferTooSmall (needed actual : Nat)
  | determineBest (e : DetermineBestError E)
  deriving DecidableEq, Repr

/-- `transform_bc1_auto` (safe), bc1 safe/transform_auto.rs:95-122. -/
def transformAutoSafe {σ E : Type} (env : Env) (m : Machine) (est : Estimator σ E) (useAll : Bool)
    (input output : Buf) (st : σ) : Option (Buf × σ × Except (AutoError E) ColourSettings) :=
  if input.length % 8 ≠ 0 then some (output, st, .error (.invalidLength input.length))
  else if output.length < input.length then
    some (output, st, .error (.outputBufferTooSmall input.length output.length))
  else do
    let (output, st, r) ← transformAuto env m est useAll input output input.length st
    pure (output, st, r.mapError .determineBest)

end Bc1

namespace Bc2

/-- `Default for Bc2TransformSettings`, bc2 settings.rs. -/
def defaultSettings : ColourSettings := ⟨.v1, true⟩

/-- `FAST_TEST_ORDER`, bc2 settings.rs:81-86. -/
def fastOrder : List ColourSettings :=
  [⟨.none, false⟩, ⟨.none, true⟩, ⟨.v1, false⟩, ⟨.v1, true⟩]

/-- `COMPREHENSIVE_TEST_ORDER`, bc2 settings.rs:89-98. -/
def fullOrder : List ColourSettings :=
  [⟨.v2, false⟩, ⟨.none, false⟩, ⟨.none, true⟩, ⟨.v3, false⟩,
   ⟨.v3, true⟩, ⟨.v2, true⟩, ⟨.v1, false⟩, ⟨.v1, true⟩]

/-- The choice between the test orders in `transform_bc2_auto`. -/
def testOrder (useAll : Bool) : List ColourSettings := if useAll then fullOrder else fastOrder

/-- The estimator call of one iteration, bc2 transform_auto.rs:250-258: the colour section. -/
def measure {σ E : Type} (_env : Env) (est : Estimator σ E) (len comp : Nat) (st : σ) (out : Buf) : σ × Except E Nat :=
  est.estimate st (slice out (len / 2) (len / 4)) comp

/-- `transform_bc2_auto`, bc2 transform_auto.rs:196-272. -/
def transformAuto {σ E : Type} (env : Env) (m : Machine) (est : Estimator σ E) (useAll : Bool)
    (inp out : Buf) (len : Nat) (st : σ) : Option (Buf × σ × Except (DetermineBestError E) ColourSettings) :=
  Auto.prepare env est (len / 4) out st fun comp st =>
    Auto.search env (testOrder useAll) defaultSettings (fun out s => transformWithSettings m inp out len s)
      (measure env est len comp) out st

/-- `Bc2AutoTransformError<E>`, bc2 safe/transform_auto.rs:17-29. -/
inductive AutoError (E : Type) where
  | invalidLength (len : Nat)
  | outputBufferTooSmall (needed actual : Nat)
  | determineBest (e : DetermineBestError E)
  deriving DecidableEq, Repr

/-- `transform_bc2_auto` (safe), bc2 safe/transform_auto.rs:95-122. -/
def transformAutoSafe {σ E : Type} (env : Env) (m : Machine) (est : Estimator σ E) (useAll : Bool)
    (input output : Buf) (st : σ) : Option (Buf × σ × Except (AutoError E) ColourSettings) :=
  if input.length % 16 ≠ 0 then some (output, st, .error (.invalidLength input.length))
  else if output.length < input.length then
    some (output, st, .error (.outputBufferTooSmall input.length output.length))
  else do
    let (output, st, r) ← transformAuto env m est useAll input output input.length st
    pure (output, st, r.mapError .determineBest)

end Bc2

namespace Bc3

/-- `Default for Bc3TransformSettings`, bc3 settings.rs. -/
def defaultSettings : Settings := ⟨.v1, true, true⟩

/-- `FAST_TEST_ORDER`, bc3 settings.rs:91-100. -/
def fastOrder : List Settings :=
  [⟨.v1, true, false⟩, ⟨.v1, true, true⟩, ⟨.none, true, false⟩, ⟨.none, false, true⟩,
   ⟨.none, true, true⟩, ⟨.v1, false, true⟩, ⟨.none, false, false⟩, ⟨.v1, false, false⟩]

/-- `COMPREHENSIVE_TEST_ORDER`, bc3 settings.rs:104-121. -/
def fullOrder : List Settings :=
  [⟨.v2, true, false⟩, ⟨.v2, true, true⟩, ⟨.v3, true, true⟩, ⟨.v3, true, false⟩,
   ⟨.v1, true, false⟩, ⟨.v3, false, true⟩, ⟨.v1, true, true⟩, ⟨.v2, false, true⟩,
   ⟨.v2, false, false⟩, ⟨.v3, false, false⟩, ⟨.none, true, false⟩, ⟨.none, false, true⟩,
   ⟨.none, true, true⟩, ⟨.v1, false, true⟩, ⟨.none, false, false⟩, ⟨.v1, false, false⟩]

/-- The choice between the test orders in `transform_bc3_auto`. -/
def testOrder (useAll : Bool) : List Settings := if useAll then fullOrder else fastOrder

/-- The estimator calls of one iteration, bc3 transform_auto.rs:253-279: the alpha endpoints, then the
colour endpoints.  The sizes are added with `usize` arithmetic, which wraps around in release builds. -/
def measure {σ E : Type} (env : Env) (est : Estimator σ E) (len comp : Nat) (st : σ) (out : Buf) : σ × Except E Nat :=
  match est.estimate st (slice out 0 (len / 16 * 2)) comp with
  | (st, .error e) => (st, .error e)
  | (st, .ok alpha) =>
    match est.estimate st (slice out (len / 2) (len / 16 * 4)) comp with
    | (st, .error e) => (st, .error e)
    | (st, .ok colour) => (st, .ok ((alpha + colour) % (env.usizeMax + 1)))

/-- `transform_bc3_auto`, bc3 transform_auto.rs:196-294. -/
def transformAuto {σ E : Type} (env : Env) (m : Machine) (est : Estimator σ E) (useAll : Bool)
    (inp out : Buf) (len : Nat) (st : σ) : Option (Buf × σ × Except (DetermineBestError E) Settings) :=
  Auto.prepare env est (len / 4) out st fun comp st =>
    Auto.search env (testOrder useAll) defaultSettings (fun out s => transformWithSettings m inp out len s)
      (measure env est len comp) out st

/-- `Bc3AutoTransformError<E>`, bc3 safe/transform_auto.rs:17-29. -/
inductive AutoError (E : Type) where
  | invalidLength (len : Nat)
  | outputBufferTooSmall (needed actual : Nat)
  | determineBest (e : DetermineBestError E)
  deriving DecidableEq, Repr

/-- `transform_bc3_auto` (safe), bc3 safe/transform_auto.rs:95-121. -/
def transformAutoSafe {σ E : Type} (env : Env) (m : Machine) (est : Estimator σ E) (useAll : Bool)
    (input output : Buf) (st : σ) : Option (Buf × σ × Except (AutoError E) Settings) :=
  if input.length % 16 ≠ 0 then some (output, st, .error (.invalidLength input.length))
  else if output.length < input.length then
    some (output, st, .error (.outputBufferTooSmall input.length output.length))
  else do
    let (output, st, r) ← transformAuto env m est useAll input output input.length st
    pure (output, st, r.mapError .determineBest)

end Bc3

end Dlt
