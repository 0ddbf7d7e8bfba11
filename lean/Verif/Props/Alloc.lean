import Verif.Lemmas.Alloc
import Verif.Props.NormTransform
/-!
# C78, C79: the scratch memory of the library

C78: `FixedRawAllocArray` and the automatic transforms neither leak nor release twice.
C79: how much memory the automatic transforms take.

`Heap.Ok` says that the recorded peak is at least what is live; it holds at the start of a program and is kept.
-/

namespace Dlt.Props
open Alloc

/-! ## What is demanded of the system allocator -/

/-- Two blocks do not overlap. -/
def Apart (b c : Block) : Prop := b.addr + b.size ≤ c.addr ∨ c.addr + c.size ≤ b.addr

/-- A block where a `Layout` of alignment 64 may lie. -/
def Placed (b : Block) : Prop := b.addr ≠ 0 ∧ b.addr % 64 = 0

/-- A correct allocator: new blocks are aligned, not null, and overlap no live block. -/
def SoundAlloc (A : Allocator) : Prop := ∀ h n a, A.give h n = some a →
  a ≠ 0 ∧ a % 64 = 0 ∧ ∀ b ∈ h.live, a + n ≤ b.addr ∨ b.addr + b.size ≤ a

/-- The live blocks are where they may be. -/
def Tidy (h : Heap) : Prop := h.live.Pairwise Apart ∧ ∀ b ∈ h.live, Placed b

theorem tidy_alloc {A : Allocator} (hA : SoundAlloc A) {n : Nat} {h h' : Heap} {b : Block} (ht : Tidy h)
    (e : allocateAlign64 A n h = (.ok b, h')) : Tidy h' := by
  rcases alloc_cases A n h with ⟨x, hx⟩ | ⟨a, hg, ha⟩
  · rw [hx] at e; simp at e
  · rw [ha] at e
    simp only [Prod.mk.injEq, Except.ok.injEq] at e
    obtain ⟨rfl, rfl⟩ := e
    obtain ⟨h0, h64, hd⟩ := hA h n a hg
    refine ⟨List.pairwise_cons.2 ⟨fun c hc => hd c hc, ht.1⟩, ?_⟩
    intro c hc
    rcases List.mem_cons.1 hc with rfl | hc
    · exact ⟨h0, h64⟩
    · exact ht.2 c hc

theorem tidy_newLoop {A : Allocator} (hA : SoundAlloc A) {n : Nat} : ∀ (k i : Nat) (slots : List (Option Block)) (c : Nat)
    (h h' : Heap) (r : List (Option Block)), Tidy h → newLoop A n k i slots c h = some (.ok r, h') → Tidy h' := by
  intro k
  induction k with
  | zero =>
    intro i slots c h h' r ht e
    simp only [newLoop, Option.some.injEq, Prod.mk.injEq] at e
    exact e.2 ▸ ht
  | succ k ih =>
    intro i slots c h h' r ht e
    rw [newLoop] at e
    cases ha : allocateAlign64 A n h with
    | mk x h1 =>
      rw [ha] at e
      cases x with
      | ok b => exact ih _ _ _ _ _ _ (tidy_alloc hA ht ha) e
      | error x =>
        simp only at e
        split at e
        · cases hd : dropSlots (slots.take c) h1 with
          | none => simp [hd] at e
          | some h2 => simp [hd] at e
        · simp at e

theorem newLoop_error {A : Allocator} {n : Nat} : ∀ (k i : Nat) (slots : List (Option Block)) (c : Nat)
    (h h' : Heap) (x : AllocateError), newLoop A n k i slots c h = some (.error x, h') →
    (x = .layout ↔ A.isizeMax + 1 < n + 64) := by
  intro k
  induction k with
  | zero => intro i slots c h h' x e; simp [newLoop] at e
  | succ k ih =>
    intro i slots c h h' x e
    rw [newLoop] at e
    by_cases hl : A.isizeMax + 1 < n + 64
    · have ha : allocateAlign64 A n h = (.error .layout, h) := by unfold allocateAlign64; rw [if_pos hl]
      rw [ha] at e
      simp only at e
      split at e
      · cases hd : dropSlots (slots.take c) h with
        | none => simp [hd] at e
        | some h2 => simp [hd] at e; simp [← e.1, hl]
      · simp at e
    · cases hg : A.give h n with
      | none =>
        have ha : allocateAlign64 A n h = (.error .failed, h) := by
          unfold allocateAlign64; rw [if_neg hl, hg]
        rw [ha] at e
        simp only at e
        split at e
        · cases hd : dropSlots (slots.take c) h with
          | none => simp [hd] at e
          | some h2 => simp [hd] at e; simp [← e.1, hl]
        · simp at e
      | some a =>
        unfold allocateAlign64 at e
        rw [if_neg hl, hg] at e
        exact ih _ _ _ _ _ _ e

/-! ## C78 -/

/-- **C78.** `FixedRawAllocArray::<N>::new(n)`, for every `N`, `n`, allocator and state: it returns (no slot is
dropped or read before it was written, no block is released twice).  On failure exactly the blocks that
were live before are live, and the error tells whether the size was at fault.  On success exactly `N` new
blocks of `n` bytes are live in addition; dropping the array releases them all. -/
theorem C78_array (A : Allocator) (N n : Nat) (h : Heap) (hok : h.Ok) :
    ∃ r h', newArray A N n h = some (r, h') ∧
      (∀ e, r = .error e → h'.live = h.live ∧ (e = .layout ↔ A.isizeMax + 1 < n + 64)) ∧
      (∀ bs, r = .ok bs → bs.length = N ∧ (∀ b ∈ bs, b.size = n ∧ h.next ≤ b.id) ∧ bs.Nodup ∧
        h'.live = bs.reverse ++ h.live ∧
        ∃ h'', dropArray bs h' = some h'' ∧ h''.live = h.live) := by
  rcases newArray_cases A N n h hok with ⟨e, h', h1, h2, _⟩ | ⟨bs, h', h1, h2, h3, h4, h5, _⟩
  · refine ⟨_, h', h1, ?_, fun bs hb => nomatch hb⟩
    intro e' he'
    cases he'
    refine ⟨h2, ?_⟩
    unfold newArray at h1
    cases hl : newLoop A n N 0 (List.replicate N none) 0 h with
    | none => simp [hl] at h1
    | some x =>
      obtain ⟨r, h2⟩ := x
      rw [hl] at h1
      cases r with
      | error e2 =>
        simp at h1
        obtain ⟨rfl, rfl⟩ := h1
        exact newLoop_error _ _ _ _ _ _ _ hl
      | ok slots =>
        simp only [Option.bind_eq_bind, Option.bind_some] at h1
        cases hm : slots.mapM (m := Option) id with
        | none => simp [hm] at h1
        | some z => simp [hm] at h1
  · refine ⟨_, h', h1, (fun e he => nomatch he), ?_⟩
    intro bs' hb
    cases hb
    refine ⟨h2, fun b hb => ⟨h4 b hb, (h3.range hb).1⟩, h3.nodup, h5, ⟨h.live, h'.next, h'.peak⟩, ?_, rfl⟩
    have := dropArray_mid (X := []) (L := h.live) (n := h'.next) (p := h'.peak) h3.nodup (by simp)
    rw [List.nil_append, ← h5] at this
    exact this

/-- **C78.** With a correct allocator the pointers of `get_pointer_slice` are those of the `N` blocks in
order, aligned to 64 bytes and not null, and no two of the blocks, nor one of them and a block that
was live before, overlap. -/
theorem C78_pointers (A : Allocator) (hA : SoundAlloc A) (N n : Nat) (h h' : Heap) (bs : List Block) (hok : h.Ok)
    (ht : Tidy h) (e : newArray A N n h = some (.ok bs, h')) :
    (pointerSlice bs).length = N ∧ (∀ i (hi : i < bs.length), (pointerSlice bs)[i]? = some bs[i].addr) ∧
    (∀ p ∈ pointerSlice bs, p ≠ 0 ∧ p % 64 = 0) ∧ bs.reverse.Pairwise Apart ∧
    (∀ b ∈ bs, ∀ c ∈ h.live, Apart b c) := by
  obtain ⟨r, h2, h1, _, h3⟩ := C78_array A N n h hok
  rw [e] at h1
  simp only [Option.some.injEq, Prod.mk.injEq] at h1
  obtain ⟨rfl, rfl⟩ := h1
  obtain ⟨hl, _, _, hv, _⟩ := h3 bs rfl
  have hT : Tidy h' := by
    unfold newArray at e
    cases hl : newLoop A n N 0 (List.replicate N none) 0 h with
    | none => simp [hl] at e
    | some x =>
      obtain ⟨r, h2⟩ := x
      rw [hl] at e
      cases r with
      | error e2 => simp at e
      | ok slots =>
        simp only [Option.bind_eq_bind, Option.bind_some] at e
        cases hm : slots.mapM (m := Option) id with
        | none => simp [hm] at e
        | some z =>
          simp [hm] at e
          obtain ⟨_, rfl⟩ := e
          exact tidy_newLoop hA _ _ _ _ _ _ _ ht hl
  have hp := hT.1
  rw [hv, List.pairwise_append] at hp
  refine ⟨by simp [pointerSlice, hl], ?_, ?_, hp.1, fun b hb c hc => hp.2.2 b (by simpa using hb) c hc⟩
  · intro i hi
    simp [pointerSlice, hi]
  · intro p hp
    obtain ⟨b, hb, rfl⟩ := List.mem_map.1 hp
    exact hT.2 b (by rw [hv]; simp [hb])

/-- **C78.** If the allocator has memory and the size is a legal one, `FixedRawAllocArray::new` succeeds. -/
theorem C78_succeeds (A : Allocator) (N n : Nat) (h : Heap) (hok : h.Ok) (hg : ∀ h, A.give h n ≠ none)
    (hn : n + 64 ≤ A.isizeMax + 1) : ∃ bs h', newArray A N n h = some (.ok bs, h') := by
  rcases newArray_cases A N n h hok with ⟨e, h', h1, _⟩ | ⟨bs, h', h1, _⟩
  · exfalso
    have key : ∀ (k i : Nat) (slots : List (Option Block)) (c : Nat) (h h' : Heap) (x : AllocateError),
        newLoop A n k i slots c h ≠ some (.error x, h') := by
      intro k
      induction k with
      | zero => intro i slots c h h' x e; simp [newLoop] at e
      | succ k ih =>
        intro i slots c h h' x e
        rw [newLoop] at e
        unfold allocateAlign64 at e
        rw [if_neg (by omega)] at e
        cases hx : A.give h n with
        | none => exact hg h hx
        | some a => rw [hx] at e; exact ih _ _ _ _ _ _ e
    unfold newArray at h1
    cases hl : newLoop A n N 0 (List.replicate N none) 0 h with
    | none => simp [hl] at h1
    | some x =>
      obtain ⟨r, h2⟩ := x
      rw [hl] at h1
      cases r with
      | error e2 => exact key _ _ _ _ _ _ _ hl
      | ok slots =>
        simp only [Option.bind_eq_bind, Option.bind_some] at h1
        cases hm : slots.mapM (m := Option) id with
        | none => simp [hm] at h1
        | some z => simp [hm] at h1
  · exact ⟨bs, h', h1⟩

variable {σ E : Type}

/-- **C78** (BC1).  `transform_bc1_auto` with its scratch buffer: for all data, estimators, also failing ones,
allocators and states it computes what C17, C20 to C22 are about, with the allocator's answer, releases
nothing twice, and afterwards exactly the blocks are live that were live before. -/
theorem C78_bc1_auto (A : Allocator) (umax : Nat) (m : Machine) (est : Estimator σ E) (useAll : Bool)
    (data out : Buf) (st : σ) (h : Heap) (hok : h.Ok) :
    ∃ h', bc1Auto A umax m est useAll data out data.length st h =
        (Bc1.transformAuto ⟨fun n => (allocateAlign64 A n h).1.isOk, umax⟩ m est useAll data out data.length st).map
          (·, h') ∧ h'.live = h.live := by
  obtain ⟨h', h1, h2, _⟩ := prepareH_eq A umax est (data.length / 2) out st _ h hok
  exact ⟨h', h1, h2⟩

/-- **C78** (BC2). -/
theorem C78_bc2_auto (A : Allocator) (umax : Nat) (m : Machine) (est : Estimator σ E) (useAll : Bool)
    (data out : Buf) (st : σ) (h : Heap) (hok : h.Ok) :
    ∃ h', bc2Auto A umax m est useAll data out data.length st h =
        (Bc2.transformAuto ⟨fun n => (allocateAlign64 A n h).1.isOk, umax⟩ m est useAll data out data.length st).map
          (·, h') ∧ h'.live = h.live := by
  obtain ⟨h', h1, h2, _⟩ := prepareH_eq A umax est (data.length / 4) out st _ h hok
  exact ⟨h', h1, h2⟩

/-- **C78** (BC3). -/
theorem C78_bc3_auto (A : Allocator) (umax : Nat) (m : Machine) (est : Estimator σ E) (useAll : Bool)
    (data out : Buf) (st : σ) (h : Heap) (hok : h.Ok) :
    ∃ h', bc3Auto A umax m est useAll data out data.length st h =
        (Bc3.transformAuto ⟨fun n => (allocateAlign64 A n h).1.isOk, umax⟩ m est useAll data out data.length st).map
          (·, h') ∧ h'.live = h.live := by
  obtain ⟨h', h1, h2, _⟩ := prepareH_eq A umax est (data.length / 4) out st _ h hok
  exact ⟨h', h1, h2⟩

/-- **C78.** `transform_bc1_auto_with_normalization`, for all data of whole blocks, estimators, allocators and states:
it ends, whichever of its up to eight allocations fails, releases nothing twice, and afterwards exactly
the blocks are live that were live before.  What it computes is what C50 and C58 are about, for the
answers that the allocator gave. -/
theorem C78_auto_normalize (A : Allocator) (umax : Nat) (m : Machine) (est : Estimator σ E) (useAll : Bool)
    (data out : Buf) (st : σ) (h : Heap) (hok : h.Ok) (h8 : data.length % 8 = 0) (ho : data.length ≤ out.length) :
    ∃ out' st' r h', autoNorm A umax m est useAll data out data.length st h = some ((out', st', r), h') ∧
      h'.live = h.live ∧
      ∃ H : Norm.Bc1.Heap, H.usizeMax = umax ∧
        Norm.Bc1.autoNormalize H m est useAll data out data.length st = some (out', st', r) := by
  obtain ⟨H, h', h1, h2, h3, _⟩ := autoNorm_eq A umax m est useAll data out data.length st h hok
    (max (compOf est st (data.length / 2)) (compOf est (est.maxSize st (data.length / 2)).1 (data.length / 2)))
    (by omega) (by omega)
  obtain ⟨out', st', r, h4, _⟩ := C50_auto_normalize H m est useAll data out st h8 ho
  exact ⟨out', st', r, h', by rw [h2, h4]; rfl, h3, H, h1, h4⟩

/-! ## C79 -/

/-- What the estimator answers to `max_compressed_size(n)` in state `st` is at most `K`. -/
def AsksAtMost (est : Estimator σ E) (st : σ) (n K : Nat) : Prop :=
  ∀ c, (est.maxSize st n).2 = .ok c → c ≤ K

theorem compOf_le {est : Estimator σ E} {st : σ} {n K : Nat} (h : AsksAtMost est st n K) : compOf est st n ≤ K := by
  unfold compOf
  cases hc : (est.maxSize st n).2 with
  | error _ => simp
  | ok c => exact h c hc

/-- **C79** (BC1, BC2, BC3). `transform_bcN_auto` never has more live at one time, beyond what was live
before, than the scratch buffer that the estimator asked for. -/
theorem C79_auto (A : Allocator) (umax : Nat) (m : Machine) (est : Estimator σ E) (useAll : Bool)
    (data out : Buf) (st : σ) (h : Heap) (hok : h.Ok) (K : Nat) :
    (AsksAtMost est st (data.length / 2) K →
      ∀ r h', bc1Auto A umax m est useAll data out data.length st h = some (r, h') →
        h'.peak ≤ max h.peak (h.bytes + K)) ∧
    (AsksAtMost est st (data.length / 4) K →
      ∀ r h', bc2Auto A umax m est useAll data out data.length st h = some (r, h') →
        h'.peak ≤ max h.peak (h.bytes + K)) ∧
    (AsksAtMost est st (data.length / 4) K →
      ∀ r h', bc3Auto A umax m est useAll data out data.length st h = some (r, h') →
        h'.peak ≤ max h.peak (h.bytes + K)) := by
  have key : ∀ {S : Type} (n : Nat) (body : Nat → σ → Option (Buf × σ × Except (DetermineBestError E) S)),
      AsksAtMost est st n K → ∀ r h', prepareH A est n out st body h = some (r, h') →
        h'.peak ≤ max h.peak (h.bytes + K) := by
    intro S n body hK r h' e
    obtain ⟨h1, e1, _, _, _, _, e6⟩ := prepareH_eq A umax est n out st body h hok
    rw [e1] at e
    have hc := compOf_le hK
    cases hp : Auto.prepare ⟨can A h, umax⟩ est n out st body with
    | none => simp [hp] at e
    | some x =>
      simp [hp] at e
      obtain ⟨_, rfl⟩ := e
      omega
  exact ⟨fun hK => key _ _ hK, fun hK => key _ _ hK, fun hK => key _ _ hK⟩

/-- **C79.** `transform_bc1_auto_with_normalization` never has more live at one time, beyond what was live before,
than six and a half times the data and one scratch buffer, or two scratch buffers. -/
theorem C79_auto_normalize (A : Allocator) (umax : Nat) (m : Machine) (est : Estimator σ E) (useAll : Bool)
    (data out : Buf) (st : σ) (h : Heap) (hok : h.Ok) (K : Nat)
    (hK : ∀ st, AsksAtMost est st (data.length / 2) K) (r : _) (h' : Heap)
    (e : autoNorm A umax m est useAll data out data.length st h = some (r, h')) :
    h'.peak ≤ max h.peak (h.bytes + max (6 * data.length + data.length / 2 + K) (2 * K)) := by
  obtain ⟨H, h1, _, e1, _, _, _, _, e6⟩ := autoNorm_eq A umax m est useAll data out data.length st h hok K
    (compOf_le (hK _)) (compOf_le (hK _))
  rw [e1] at e
  cases hp : Norm.Bc1.autoNormalize H m est useAll data out data.length st with
  | none => simp [hp] at e
  | some x =>
    simp [hp] at e
    obtain ⟨_, rfl⟩ := e
    exact e6

/-! ## Concrete cases -/

/-- The first address above all live blocks. -/
def above : List Block → Nat
  | [] => 64
  | b :: r => max (above r) ((b.addr + b.size + 63) / 64 * 64)

/-- An allocator that puts new blocks above all others, as long as fewer than `k` are live. -/
def stacking (k : Nat) : Allocator :=
  ⟨fun h _ => if h.live.length < k then some (above h.live) else none, fun _ _ => 0xA5, 2 ^ 63 - 1⟩

/-- It is a correct allocator. -/
theorem stacking_sound (k : Nat) : SoundAlloc (stacking k) := by
  intro h n a e
  simp only [stacking] at e
  split at e
  · simp only [Option.some.injEq] at e
    subst e
    have key : ∀ l : List Block, above l ≠ 0 ∧ above l % 64 = 0 ∧ ∀ b ∈ l, b.addr + b.size ≤ above l := by
      intro l
      induction l with
      | nil => simp [above]
      | cons b r ih =>
        obtain ⟨i1, i2, i3⟩ := ih
        refine ⟨by unfold above; omega, by unfold above; omega, ?_⟩
        intro c hc
        rcases List.mem_cons.1 hc with rfl | hc
        · unfold above; omega
        · have := i3 c hc
          unfold above; omega
    exact ⟨(key _).1, (key _).2.1, fun b hb => .inr ((key _).2.2 b hb)⟩
  · simp at e

/-- A heap with one block. -/
def oneBlock : Heap := ⟨[⟨0, 64, 10⟩], 1, 10⟩

/-- C78: the third of three allocations fails, the other two are released. -/
example : oneBlock.Ok ∧ Tidy oneBlock ∧
    newArray (stacking 3) 3 100 oneBlock = some (.error .failed, ⟨[⟨0, 64, 10⟩], 3, 210⟩) := by
  refine ⟨by unfold Heap.Ok; decide, ⟨by simp [oneBlock], by simp [oneBlock, Placed]⟩, by decide⟩

/-- C78: three allocations succeed. -/
example : (newArray (stacking 4) 3 100 oneBlock).map (fun x => (x.1.map pointerSlice |>.toOption, x.2.live.length)) =
    some (some [128, 256, 384], 4) := by decide

/-- C78: a size that is too large. -/
example : (newArray (stacking 4) 3 (2 ^ 63 - 63) oneBlock).map Prod.fst = some (.error .layout) := by decide +kernel

/-- An estimator that asks for `c` bytes. -/
def asking (c : Nat) : Estimator Unit Unit :=
  ⟨fun _ _ => ((), .ok c), fun _ x _ => ((), .ok (x.count 0x12))⟩

/-- **C79, the documented figures do not hold.**  The documentation (transform.rs:17, 196) says that the function uses
three times the memory of the input when no normalization is needed and six times when it is.  A solid
block: 52 bytes for 8 although the estimator asks for no scratch buffer.  A block that cannot be
normalized, with an estimator that asks for 16 bytes: 40 bytes; with one that asks for 40: two scratch buffers
at a time. -/
theorem C79_documented_exceeded :
    let run := fun (data : Buf) (c : Nat) => (autoNorm (stacking 10) (2 ^ 64 - 1) (.other .little fun _ => 0) (asking c) false
      data (List.replicate 8 0) 8 () ⟨[], 0, 0⟩).map fun x => (x.1.2.2.toOption.isSome, x.2.live, x.2.peak)
    run [0x34, 0x12, 0x34, 0x12, 0x44, 0x11, 0x05, 0x50] 0 = some (true, [], 6 * 8 + 4) ∧
    run [0x34, 0x12, 0x56, 0x78, 0x44, 0x11, 0x05, 0x51] 16 = some (true, [], 3 * 8 + 16) ∧
    run [0x34, 0x12, 0x56, 0x78, 0x44, 0x11, 0x05, 0x51] 40 = some (true, [], 2 * 40) := by decide +kernel

/-- C78, C79: the same with allocators that give up after 0 to 7 blocks; nothing stays behind. -/
example : ∀ k < 8, (autoNorm (stacking k) (2 ^ 64 - 1) (.other .little fun _ => 0) (asking 16) false
      [0x34, 0x12, 0x34, 0x12, 0x44, 0x11, 0x05, 0x50] (List.replicate 8 0) 8 () ⟨[], 0, 0⟩).map
        (fun x => (x.1.2.2.toOption.isSome, x.2.live, x.2.peak)) =
    some (false, [], if k < 3 then k * 8 else if k = 3 then 24 else if k < 7 then 24 + 16 + (k - 4) * 8 else 64) := by
  decide +kernel

end Dlt.Props
