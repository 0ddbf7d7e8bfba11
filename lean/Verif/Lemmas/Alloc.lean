import Verif.Model.Alloc
/-!
# Lemmas about the allocator machine
-/

namespace Dlt.Alloc

/-- The peak of a heap is at least what is live now. -/
def Heap.Ok (h : Heap) : Prop := h.bytes ≤ h.peak

theorem bytes_mk (l : List Block) (n p : Nat) : (Heap.mk l n p).bytes = (l.map Block.size).sum := rfl

theorem alloc_cases (A : Allocator) (n : Nat) (h : Heap) :
    (∃ e, allocateAlign64 A n h = (.error e, h)) ∨
    ∃ a, A.give h n = some a ∧ allocateAlign64 A n h =
      (.ok ⟨h.next, a, n⟩, ⟨⟨h.next, a, n⟩ :: h.live, h.next + 1, max h.peak (h.bytes + n)⟩) := by
  unfold allocateAlign64
  split
  · exact .inl ⟨_, rfl⟩
  · cases hg : A.give h n with
    | none => exact .inl ⟨_, rfl⟩
    | some a => exact .inr ⟨a, rfl, rfl⟩

theorem drop_mid {b : Block} {X L : List Block} {n p : Nat} (hb : b ∉ X) :
    drop b ⟨X ++ b :: L, n, p⟩ = some ⟨X ++ L, n, p⟩ := by
  unfold drop
  rw [if_pos (by simp)]
  simp [List.erase_append_right _ hb]

theorem drop_head {b : Block} {L : List Block} {n p : Nat} :
    drop b ⟨b :: L, n, p⟩ = some ⟨L, n, p⟩ := by
  simpa using drop_mid (b := b) (X := []) (L := L) (n := n) (p := p) (by simp)

theorem dropArray_mid {bs X L : List Block} {n p : Nat} (hn : bs.Nodup) (hx : ∀ b ∈ bs, b ∉ X) :
    dropArray bs ⟨X ++ bs.reverse ++ L, n, p⟩ = some ⟨X ++ L, n, p⟩ := by
  induction bs with
  | nil => simp [dropArray]
  | cons b r ih =>
    rw [List.nodup_cons] at hn
    have h1 : X ++ (b :: r).reverse ++ L = (X ++ r.reverse) ++ b :: L := by simp
    rw [dropArray, h1, drop_mid (by
      simp only [List.mem_append, List.mem_reverse, not_or]
      exact ⟨hx b (by simp), hn.1⟩)]
    exact ih hn.2 (fun c hc => hx c (by simp [hc]))

theorem dropSlots_some (bs : List Block) (h : Heap) :
    dropSlots (bs.map some) h = dropArray bs h := by
  induction bs generalizing h with
  | nil => rfl
  | cons b r ih =>
    simp only [List.map_cons, dropSlots, dropArray]
    cases drop b h <;> simp [ih]

theorem mapM_id_some (bs : List Block) : (bs.map some).mapM (m := Option) id = some bs := by
  induction bs with
  | nil => rfl
  | cons b r ih => simp [List.mapM_cons, ih]

/-- Blocks numbered from `s` on. -/
def Numbered (s : Nat) (bs : List Block) : Prop := bs.map Block.id = List.range' s bs.length

theorem Numbered.nodup {s : Nat} {bs : List Block} (h : Numbered s bs) : bs.Nodup := by
  have : (bs.map Block.id).Nodup := by rw [h]; exact List.nodup_range'
  exact List.Pairwise.of_map Block.id (fun a b hab he => hab (by rw [he])) this

theorem Numbered.range {s : Nat} {bs : List Block} (h : Numbered s bs) {b : Block} (hb : b ∈ bs) :
    s ≤ b.id ∧ b.id < s + bs.length := by
  have : b.id ∈ List.range' s bs.length := by
    rw [← h]; exact List.mem_map_of_mem hb
  simp only [List.mem_range'_1] at this
  exact this

theorem Numbered.snoc {s a n : Nat} {bs : List Block} (h : Numbered s bs) :
    Numbered s (bs ++ [⟨s + bs.length, a, n⟩]) := by
  unfold Numbered at *
  simp [h, List.range'_concat]

theorem sum_sizes {n : Nat} {bs : List Block} (hs : ∀ b ∈ bs, b.size = n) :
    (bs.map Block.size).sum = bs.length * n := by
  induction bs with
  | nil => simp
  | cons b r ih =>
    have := ih fun c hc => hs c (by simp [hc])
    have hb := hs b (by simp)
    have hm : (r.length + 1) * n = r.length * n + n := Nat.succ_mul _ _
    simp only [List.map_cons, List.sum_cons, List.length_cons]
    omega

theorem newLoop_cases (A : Allocator) (n : Nat) (L : List Block) (s p0 : Nat) :
    ∀ (k : Nat) (bs : List Block) (h : Heap), Numbered s bs → (∀ b ∈ bs, b.size = n) →
    h.live = bs.reverse ++ L → h.next = s + bs.length → h.Ok → p0 ≤ h.peak →
    h.peak ≤ max p0 ((L.map Block.size).sum + bs.length * n) →
    (∃ e h', newLoop A n k bs.length (bs.map some ++ List.replicate k none) bs.length h =
        some (.error e, h') ∧ h'.live = L ∧ s ≤ h'.next ∧ h'.Ok ∧ p0 ≤ h'.peak ∧
        h'.peak ≤ max p0 ((L.map Block.size).sum + (bs.length + k) * n)) ∨
    (∃ cs h', newLoop A n k bs.length (bs.map some ++ List.replicate k none) bs.length h =
        some (.ok (cs.map some), h') ∧ cs.length = bs.length + k ∧ Numbered s cs ∧ (∀ b ∈ cs, b.size = n) ∧
        h'.live = cs.reverse ++ L ∧ h'.next = s + cs.length ∧ h'.Ok ∧ p0 ≤ h'.peak ∧
        h'.peak ≤ max p0 ((L.map Block.size).sum + (bs.length + k) * n)) := by
  intro k
  induction k with
  | zero =>
    intro bs h hn hs hl hx hok hp hp'
    exact .inr ⟨bs, h, by simp [newLoop], by simp, hn, hs, hl, hx, hok, hp, by simpa using hp'⟩
  | succ k ih =>
    intro bs h hn hs hl hx hok hp hp'
    rw [newLoop]
    rcases alloc_cases A n h with ⟨e, he⟩ | ⟨a, _, ha⟩
    · rw [he]
      refine .inl ⟨e, ⟨L, h.next, h.peak⟩, ?_, rfl, by simp [hx], ?_, hp, ?_⟩
      · simp only
        rw [if_pos (by simp), List.take_left' (by simp), dropSlots_some]
        have hd := dropArray_mid (X := []) (L := L) (n := h.next) (p := h.peak) hn.nodup (by simp)
        rw [List.nil_append, ← hl] at hd
        rw [show h = ⟨h.live, h.next, h.peak⟩ from rfl, hd]
        rfl
      · unfold Heap.Ok at *
        rw [Heap.bytes, hl] at hok
        simp only [bytes_mk]
        simp at hok
        omega
      · refine Nat.le_trans hp' ?_
        have : bs.length * n ≤ (bs.length + (k + 1)) * n := Nat.mul_le_mul_right _ (by omega)
        omega
    · rw [ha]
      have hset : (bs.map some ++ List.replicate (k + 1) none).set bs.length (some (Block.mk h.next a n)) =
          (bs ++ [Block.mk h.next a n]).map some ++ List.replicate k none := by
        rw [List.set_append_right _ _ (by simp)]
        simp [List.replicate_succ]
      have hlen : (bs ++ [(⟨h.next, a, n⟩ : Block)]).length = bs.length + 1 := by simp
      have hby : h.bytes = (L.map Block.size).sum + bs.length * n := by
        rw [Heap.bytes, hl]
        have : (bs.map Block.size).sum = bs.length * n := by
          exact sum_sizes hs
        simp [this, Nat.add_comm]
      have hmul : (bs.length + 1) * n = bs.length * n + n := Nat.succ_mul _ _
      have := ih (bs ++ [⟨h.next, a, n⟩])
        ⟨⟨h.next, a, n⟩ :: h.live, h.next + 1, max h.peak (h.bytes + n)⟩ (by rw [hx]; exact hn.snoc)
        (by
          intro b hb
          rcases List.mem_append.1 hb with hb | hb
          · exact hs b hb
          · simp only [List.mem_singleton] at hb; subst hb; rfl)
        (by simp [hl]) (by simp [hx]; omega)
        (by unfold Heap.Ok at *; simp only [bytes_mk, List.map_cons, List.sum_cons]; unfold Heap.bytes at *; omega)
        (by simp only; omega)
        (by simp only [hlen, hmul]; omega)
      simp only [hset]
      rw [hlen] at this
      rw [show bs.length + (k + 1) = bs.length + 1 + k by omega]
      exact this

/-- What `FixedRawAllocArray::new` does to the heap. -/
theorem newArray_cases (A : Allocator) (N n : Nat) (h : Heap) (hok : h.Ok) :
    (∃ e h', newArray A N n h = some (.error e, h') ∧ h'.live = h.live ∧ h.next ≤ h'.next ∧ h'.Ok ∧
        h.peak ≤ h'.peak ∧ h'.peak ≤ max h.peak (h.bytes + N * n)) ∨
    (∃ bs h', newArray A N n h = some (.ok bs, h') ∧ bs.length = N ∧ Numbered h.next bs ∧ (∀ b ∈ bs, b.size = n) ∧
        h'.live = bs.reverse ++ h.live ∧ h'.next = h.next + N ∧ h'.Ok ∧
        h.peak ≤ h'.peak ∧ h'.peak ≤ max h.peak (h.bytes + N * n)) := by
  have := newLoop_cases A n h.live h.next h.peak N [] h rfl (by simp) (by simp) (by simp) hok (by simp)
    (by omega)
  simp only [List.map_nil, List.nil_append, List.length_nil, Nat.zero_add] at this
  unfold newArray
  rcases this with ⟨e, h', h1, h2⟩ | ⟨bs, h', h1, h2, h3, h4, h5, h6, h7⟩
  · rw [h1]; exact .inl ⟨e, h', rfl, h2⟩
  · rw [h1]
    refine .inr ⟨bs, h', ?_, h2, h3, h4, h5, by omega, h7⟩
    simp only [Option.bind_eq_bind, Option.bind_some, mapM_id_some]
    rfl

/-- Would the allocator grant `n` bytes in this state? -/
def can (A : Allocator) (h : Heap) (n : Nat) : Bool := (allocateAlign64 A n h).1.isOk

/-- The scratch size that the estimator asks for (0 when it fails). -/
def compOf {σ E : Type} (est : Estimator σ E) (st : σ) (len : Nat) : Nat :=
  match (est.maxSize st len).2 with
  | .ok c => c
  | .error _ => 0

theorem prepareH_eq {S σ E : Type} (A : Allocator) (umax : Nat) (est : Estimator σ E) (len : Nat) (out : Buf) (st : σ)
    (body : Nat → σ → Option (Buf × σ × Except (DetermineBestError E) S)) (h : Heap) (hok : h.Ok) :
    ∃ h', prepareH A est len out st body h =
        (Auto.prepare ⟨can A h, umax⟩ est len out st body).map (·, h') ∧
      h'.live = h.live ∧ h.next ≤ h'.next ∧ h'.Ok ∧ h.peak ≤ h'.peak ∧
      h'.peak ≤ max h.peak (h.bytes + compOf est st len) := by
  unfold prepareH Auto.prepare compOf
  cases hm : est.maxSize st len with
  | mk st1 r =>
    cases r with
    | error e => exact ⟨h, rfl, rfl, by omega, hok, by omega, by omega⟩
    | ok c =>
      simp only
      by_cases hc : c = 0
      · rw [if_pos hc, if_pos hc]
        exact ⟨h, rfl, rfl, by omega, hok, by omega, by omega⟩
      · rw [if_neg hc, if_neg hc]
        rcases alloc_cases A c h with ⟨e, he⟩ | ⟨a, _, ha⟩
        · rw [he, if_neg (by simp [can, he, Except.isOk, Except.toBool])]
          exact ⟨h, rfl, rfl, by omega, hok, by omega, by omega⟩
        · rw [ha, if_pos (by simp [can, ha, Except.isOk, Except.toBool])]
          refine ⟨⟨h.live, h.next + 1, max h.peak (h.bytes + c)⟩, ?_, rfl, by simp, ?_, by simp only; omega,
            by simp only; omega⟩
          · simp only [drop_head]
            cases body c st1 <;> rfl
          · unfold Heap.Ok at *
            rw [bytes_mk]
            unfold Heap.bytes at *
            simp only
            omega

theorem three {s n : Nat} {bs : List Block} (hl : bs.length = 3) (hn : Numbered s bs) (hs : ∀ b ∈ bs, b.size = n) :
    ∃ a0 a1 a2, bs = [⟨s, a0, n⟩, ⟨s + 1, a1, n⟩, ⟨s + 2, a2, n⟩] := by
  match bs, hl with
  | [⟨i0, a0, z0⟩, ⟨i1, a1, z1⟩, ⟨i2, a2, z2⟩], _ =>
    unfold Numbered at hn
    simp [List.range'] at hn hs
    obtain ⟨rfl, rfl, rfl⟩ := hn
    obtain ⟨rfl, rfl, rfl⟩ := hs
    exact ⟨a0, a1, a2, rfl⟩

section
open Norm.Bc1 Dlt.Bc1

/-- The branch of `autoBody` for data in which some block normalizes. -/
def branch {σ E : Type} (H : Norm.Bc1.Heap) (m : Machine) (est : Estimator σ E) (useAll : Bool)
    (inp out : Buf) (len comp : Nat) (bufs : List Buf) (st : σ) :
    Option (Buf × σ × Except (DetermineBestError E) Details) :=
  if H.canAlloc 4 len && H.canAlloc 5 len && H.canAlloc 6 len then do
    let b0 ← bufs[0]?
    let b1 ← bufs[1]?
    let b2 ← bufs[2]?
    let s0 ← stdTransform m b0 (H.buf 4 len) len
    let s1 ← stdTransform m b1 (H.buf 5 len) len
    let s2 ← stdTransform m b2 (H.buf 6 len) len
    if H.canAlloc 7 (len / 2) then
      let (work, st, best) ← testLoop m est len comp (candidates useAll [s0, s1, s2]) (H.buf 7 (len / 2)) st
        .default H.usizeMax
      let (out, _) ← transformNormalize m inp out work len best
      pure (out, st, .ok best)
    else pure (out, st, .error .allocate)
  else pure (out, st, .error .allocate)

theorem autoBody_eq {σ E : Type} (H : Norm.Bc1.Heap) (m : Machine) (est : Estimator σ E) (useAll : Bool)
    (inp out : Buf) (len comp : Nat) (st : σ) :
    autoBody H m est useAll inp out len comp st =
      (allModes (.separate inp) [H.buf 0 len, H.buf 1 len, H.buf 2 len] len).bind fun r =>
        if r.2 then branch H m est useAll inp out len comp r.1 st
        else (Bc1.transformAuto ⟨H.canAlloc 8, H.usizeMax⟩ m est useAll inp out len st).map fun x =>
          (x.1, x.2.1, x.2.2.map Details.ofSettings) := by
  unfold autoBody branch
  cases allModes (.separate inp) [H.buf 0 len, H.buf 1 len, H.buf 2 len] len with
  | none => rfl
  | some r =>
    obtain ⟨bufs, any⟩ := r
    cases any with
    | true => rfl
    | false =>
      simp only [Option.bind_eq_bind, Option.bind_some, Bool.false_eq_true, if_false]
      cases Bc1.transformAuto ⟨H.canAlloc 8, H.usizeMax⟩ m est useAll inp out len st <;> rfl

/-- The allocations of the branch and what the allocator said to them. -/
structure Says (A : Allocator) (H : Norm.Bc1.Heap) (um : Nat) (g4 g7 : Bool) (s w : Nat) : Prop where
  umax : H.usizeMax = um
  c4 : ∀ n, H.canAlloc 4 n = g4
  c5 : ∀ n, H.canAlloc 5 n = g4
  c6 : ∀ n, H.canAlloc 6 n = g4
  c7 : ∀ n, H.canAlloc 7 n = g7
  f4 : H.fresh 4 = A.fresh s
  f5 : H.fresh 5 = A.fresh (s + 1)
  f6 : H.fresh 6 = A.fresh (s + 2)
  f7 : H.fresh 7 = A.fresh w

theorem normBranch_eq {σ E : Type} (A : Allocator) (umax : Nat) (m : Machine) (est : Estimator σ E) (useAll : Bool)
    (inp out : Buf) (len comp : Nat) (bufs : List Buf) (st : σ) (h : Heap) (hok : h.Ok) :
    ∃ c4 c7 s w h', (∀ H, Says A H umax c4 c7 s w →
        normBranch A umax m est useAll inp out len comp bufs st h =
          (branch H m est useAll inp out len comp bufs st).map (·, h')) ∧
      h'.live = h.live ∧ h.next ≤ h'.next ∧ h'.Ok ∧ h.peak ≤ h'.peak ∧
      h'.peak ≤ max h.peak (h.bytes + 3 * len + len / 2) := by
  unfold normBranch branch
  rcases newArray_cases A 3 len h hok with ⟨e, h', h1, h2, h3, h4, h5, h6⟩ |
    ⟨bs, h', h1, h2, h3, h4, h5, h6, h7, h8, h9⟩
  · refine ⟨false, false, 0, 0, h', ?_, h2, h3, h4, h5, by omega⟩
    intro H hH
    simp [h1, hH.c4]
  · obtain ⟨a0, a1, a2, rfl⟩ := three h2 h3 h4
    have hby : h'.bytes = h.bytes + 3 * len := by
      rw [Heap.bytes, h5]; simp [Heap.bytes]; omega
    rcases alloc_cases A (len / 2) h' with ⟨e, he⟩ | ⟨a, _, ha⟩
    · refine ⟨true, false, h.next, 0, ⟨h.live, h'.next, h'.peak⟩, ?_, rfl, by simp only; omega, ?_, by simp only; omega,
        by simp only; omega⟩
      · intro H hH
        have hd := dropArray_mid (X := []) (L := h.live) (n := h'.next) (p := h'.peak) h3.nodup (by simp)
        rw [List.nil_append, ← h5] at hd
        have hd' : dropArray [⟨h.next, a0, len⟩, ⟨h.next + 1, a1, len⟩, ⟨h.next + 2, a2, len⟩] h' =
          some ⟨h.live, h'.next, h'.peak⟩ := hd
        simp only [h1, he, hd', hH.c4, hH.c5, hH.c6, hH.c7, Norm.Bc1.Heap.buf, Allocator.buf, hH.f4, hH.f5, hH.f6,
          Option.bind_eq_bind, Option.bind_some, Bool.and_self, if_true]
        cases bufs[0]?
        · rfl
        cases bufs[1]?
        · rfl
        cases bufs[2]?
        · rfl
        simp only [Option.bind_some, List.getElem?_cons_zero, List.getElem?_cons_succ]
        cases stdTransform m _ (List.map (A.fresh h.next) (List.range len)) len
        · rfl
        simp only [Option.bind_some]
        cases stdTransform m _ (List.map (A.fresh (h.next + 1)) (List.range len)) len
        · rfl
        simp only [Option.bind_some]
        cases stdTransform m _ (List.map (A.fresh (h.next + 2)) (List.range len)) len <;> rfl
      · unfold Heap.Ok at *
        rw [bytes_mk]; unfold Heap.bytes at *
        simp only; omega
    · refine ⟨true, true, h.next, h'.next, ⟨h.live, h'.next + 1, max h'.peak (h'.bytes + len / 2)⟩, ?_, rfl,
        by simp only; omega, ?_, by simp only; omega, by simp only; omega⟩
      · intro H hH
        have hd := dropArray_mid (X := []) (L := h.live) (n := h'.next + 1) (p := max h'.peak (h'.bytes + len / 2))
          h3.nodup (by simp)
        rw [List.nil_append, ← h5] at hd
        simp only [h1, ha, hd, drop_head, hH.c4, hH.c5, hH.c6, hH.c7, hH.umax, Norm.Bc1.Heap.buf, Allocator.buf, hH.f4, hH.f5, hH.f6,
          hH.f7, Option.bind_eq_bind, Option.bind_some, Bool.and_self, if_true]
        cases bufs[0]?
        · rfl
        cases bufs[1]?
        · rfl
        cases bufs[2]?
        · rfl
        simp only [Option.bind_some, List.getElem?_cons_zero, List.getElem?_cons_succ]
        cases stdTransform m _ (List.map (A.fresh h.next) (List.range len)) len
        · rfl
        simp only [Option.bind_some]
        cases stdTransform m _ (List.map (A.fresh (h.next + 1)) (List.range len)) len
        · rfl
        simp only [Option.bind_some]
        cases stdTransform m _ (List.map (A.fresh (h.next + 2)) (List.range len)) len
        · rfl
        simp only [Option.bind_some]
        cases testLoop m est len comp _ (List.map (A.fresh h'.next) (List.range (len / 2))) st .default umax with
        | none => rfl
        | some r =>
          obtain ⟨w, st', best⟩ := r
          simp only [Option.bind_some]
          cases transformNormalize m inp out w len best <;> rfl
      · unfold Heap.Ok at *
        rw [bytes_mk]; unfold Heap.bytes at *
        simp only; omega

theorem bc1Auto_eq {σ E : Type} (A : Allocator) (umax : Nat) (m : Machine) (est : Estimator σ E) (useAll : Bool)
    (inp out : Buf) (len : Nat) (st : σ) (h : Heap) (hok : h.Ok) :
    ∃ h', bc1Auto A umax m est useAll inp out len st h =
        (Bc1.transformAuto ⟨can A h, umax⟩ m est useAll inp out len st).map (·, h') ∧
      h'.live = h.live ∧ h.next ≤ h'.next ∧ h'.Ok ∧ h.peak ≤ h'.peak ∧
      h'.peak ≤ max h.peak (h.bytes + compOf est st (len / 2)) :=
  prepareH_eq A umax est (len / 2) out st _ h hok

theorem dropOpt_head {o : Option Block} {L : List Block} {n p : Nat} :
    dropOpt o ⟨o.toList ++ L, n, p⟩ = some ⟨L, n, p⟩ := by
  cases o with
  | none => rfl
  | some b => exact drop_head

theorem bytes_of {h : Heap} {l : List Block} (e : h.live = l) : h.bytes = (l.map Block.size).sum := by
  rw [Heap.bytes, e]

theorem autoNormBody_eq {σ E : Type} (A : Allocator) (umax : Nat) (m : Machine) (est : Estimator σ E) (useAll : Bool)
    (inp out : Buf) (len comp : Nat) (scratch : Option Block) (s a0 a1 a2 : Nat) (st : σ) (h : Heap) (L : List Block)
    (hok : h.Ok)
    (hx : ∀ b ∈ scratch, s + 3 ≤ b.id)
    (hl : h.live = scratch.toList ++
      [⟨s, a0, len⟩, ⟨s + 1, a1, len⟩, ⟨s + 2, a2, len⟩].reverse ++ L) :
    ∃ H h', H.usizeMax = umax ∧ (∀ k n, k < 4 → H.canAlloc k n = true) ∧
      autoNormBody A umax m est useAll inp out len comp scratch [⟨s, a0, len⟩, ⟨s + 1, a1, len⟩, ⟨s + 2, a2, len⟩] st h =
        (autoBody H m est useAll inp out len comp st).map (·, h') ∧
      h'.live = L ∧ h.next ≤ h'.next ∧ h'.Ok ∧ h.peak ≤ h'.peak ∧
      h'.peak ≤ max h.peak (max (h.bytes + 3 * len + len / 2)
        (h.bytes - 3 * len + compOf est st (len / 2))) := by
  let norm : List Block := [⟨s, a0, len⟩, ⟨s + 1, a1, len⟩, ⟨s + 2, a2, len⟩]
  have hnd : norm.Nodup := by simp [norm]
  have hnx : ∀ b ∈ norm, b ∉ scratch.toList := by
    intro b hb hs
    have := hx b (by simpa using hs)
    simp only [norm, List.mem_cons, List.not_mem_nil, or_false] at hb
    rcases hb with rfl | rfl | rfl <;> simp at this <;> omega
  have hby := bytes_of hl
  simp only [List.map_append, List.sum_append, List.reverse_cons, List.reverse_nil, List.nil_append, List.cons_append,
    List.map_cons, List.map_nil, List.sum_cons, List.sum_nil] at hby
  have hA : ∀ i a, A.buf ⟨i, a, len⟩ = (List.range len).map (A.fresh i) := fun _ _ => rfl
  cases hm : allModes (.separate inp) [(List.range len).map (A.fresh s), (List.range len).map (A.fresh (s + 1)),
      (List.range len).map (A.fresh (s + 2))] len with
  | none =>
    let H : Norm.Bc1.Heap := ⟨fun _ _ => true, fun k => A.fresh (s + k), umax⟩
    refine ⟨H, ⟨L, h.next, h.peak⟩, rfl, by simp [H], ?_, rfl, by simp, ?_, by simp, by simp only; omega⟩
    · rw [autoBody_eq]
      unfold autoNormBody
      simp only [List.getElem?_cons_zero, List.getElem?_cons_succ, Option.bind_eq_bind, Option.bind_some, hA,
        Norm.Bc1.Heap.buf, H, Nat.add_zero, hm]
      rfl
    · unfold Heap.Ok at *
      rw [bytes_mk]
      simp only
      omega
  | some r =>
    obtain ⟨bufs, any⟩ := r
    cases any with
    | true =>
      obtain ⟨c4, c7, s2, w, h1, e1, e2, e3, e4, e5, e6⟩ :=
        normBranch_eq A umax m est useAll inp out len comp bufs st h hok
      let H : Norm.Bc1.Heap := ⟨fun k _ => if k < 4 then true else if k < 7 then c4 else c7,
        fun k => A.fresh (if k < 4 then s + k else if k < 7 then s2 + (k - 4) else w), umax⟩
      have hH : Says A H umax c4 c7 s2 w := by constructor <;> simp [H]
      have e1 := e1 H hH
      have hby1 : h1.bytes = h.bytes := by rw [Heap.bytes, e2, Heap.bytes]
      refine ⟨H, ⟨L, h1.next, h1.peak⟩, rfl, by intro k n hk; simp [H, hk], ?_, rfl, e3, ?_, e5, by simp only; omega⟩
      · rw [autoBody_eq]
        unfold autoNormBody
        simp only [List.getElem?_cons_zero, List.getElem?_cons_succ, Option.bind_eq_bind, Option.bind_some, hA,
          Norm.Bc1.Heap.buf, H, Nat.add_zero, hm, Nat.zero_lt_succ, if_true, show (1 < 4) = True by decide,
          show (2 < 4) = True by decide]
        rw [e1]
        have d1 : dropOpt scratch h1 = some ⟨norm.reverse ++ L, h1.next, h1.peak⟩ := by
          have := dropOpt_head (o := scratch) (L := norm.reverse ++ L) (n := h1.next) (p := h1.peak)
          rw [← List.append_assoc, ← hl, ← e2] at this
          exact this
        have d2 : dropArray norm ⟨norm.reverse ++ L, h1.next, h1.peak⟩ = some ⟨L, h1.next, h1.peak⟩ := by
          have := dropArray_mid (X := []) (L := L) (n := h1.next) (p := h1.peak) hnd (by simp)
          simpa using this
        cases branch H m est useAll inp out len comp bufs st with
        | none => rfl
        | some x =>
          simp only [Option.map_some, Option.bind_some, d1]
          rw [d2]
          rfl
      · unfold Heap.Ok at *
        rw [bytes_mk]
        simp only
        omega
    | false =>
      have d1 : dropArray norm h = some ⟨scratch.toList ++ L, h.next, h.peak⟩ := by
        have := dropArray_mid (X := scratch.toList) (L := L) (n := h.next) (p := h.peak) hnd hnx
        rw [← hl] at this
        exact this
      have hby2 : (Heap.mk (scratch.toList ++ L) h.next h.peak).bytes = h.bytes - 3 * len := by
        rw [bytes_mk, List.map_append, List.sum_append]; omega
      obtain ⟨h1, e1, e2, e3, e4, e5, e6⟩ := bc1Auto_eq A umax m est useAll inp out len st
        ⟨scratch.toList ++ L, h.next, h.peak⟩ (by unfold Heap.Ok at *; simp only; omega)
      rw [hby2] at e6
      let H : Norm.Bc1.Heap := ⟨fun k n => if k < 4 then true else can A ⟨scratch.toList ++ L, h.next, h.peak⟩ n,
        fun k => A.fresh (s + k), umax⟩
      refine ⟨H, ⟨L, h1.next, h1.peak⟩, rfl, by intro k n hk; simp [H, hk], ?_, rfl, e3, ?_, e5, ?_⟩
      · rw [autoBody_eq]
        unfold autoNormBody
        simp only [List.getElem?_cons_zero, List.getElem?_cons_succ, Option.bind_eq_bind, Option.bind_some, hA,
          Norm.Bc1.Heap.buf, H, Nat.add_zero, hm, Bool.false_eq_true, if_false, show (8 < 4) = False by decide]
        have d2 : dropOpt scratch h1 = some ⟨L, h1.next, h1.peak⟩ := by
          have := dropOpt_head (o := scratch) (L := L) (n := h1.next) (p := h1.peak)
          rw [show (scratch.toList ++ L) = h1.live from e2.symm] at this
          exact this
        have d1' := d1
        simp only [norm] at d1'
        rw [d1', Option.bind_some, e1]
        cases Bc1.transformAuto ⟨can A ⟨scratch.toList ++ L, h.next, h.peak⟩, umax⟩ m est useAll inp out len st with
        | none => rfl
        | some x =>
          simp only [Option.map_some, Option.bind_some, d2]
          rfl
      · have := bytes_of e2
        unfold Heap.Ok at *
        rw [bytes_mk]
        simp only [List.map_append, List.sum_append] at this ⊢
        omega
      · simp only at e6 ⊢
        omega

/-- `transform_bc1_auto_with_normalization` with its allocations spelled out is the model of `NormTransform` for
some answers of the allocator; all its memory is released in the end. -/
theorem autoNorm_eq {σ E : Type} (A : Allocator) (umax : Nat) (m : Machine) (est : Estimator σ E) (useAll : Bool)
    (inp out : Buf) (len : Nat) (st : σ) (h : Heap) (hok : h.Ok) (K : Nat)
    (hK : compOf est st (len / 2) ≤ K) (hK' : compOf est (est.maxSize st (len / 2)).1 (len / 2) ≤ K) :
    ∃ H h', H.usizeMax = umax ∧
      autoNorm A umax m est useAll inp out len st h =
        (autoNormalize H m est useAll inp out len st).map (·, h') ∧
      h'.live = h.live ∧ h.next ≤ h'.next ∧ h'.Ok ∧ h.peak ≤ h'.peak ∧
      h'.peak ≤ max h.peak (h.bytes + max (6 * len + len / 2 + K) (2 * K)) := by
  unfold autoNorm autoNormalize
  rcases newArray_cases A 3 len h hok with ⟨e, h', h1, h2, h3, h4, h5, h6⟩ |
    ⟨bs, h', h1, h2, h3, h4, h5, h6, h7, h8, h9⟩
  · refine ⟨⟨fun _ _ => false, fun _ _ => 0, umax⟩, h', rfl, ?_, h2, h3, h4, h5, by omega⟩
    simp [h1]
  · obtain ⟨a0, a1, a2, rfl⟩ := three h2 h3 h4
    have hby : h'.bytes = h.bytes + 3 * len := by
      rw [Heap.bytes, h5]; simp [Heap.bytes]; omega
    simp only [h1, Option.bind_eq_bind, Option.bind_some]
    have dn : ∀ n p, dropArray [⟨h.next, a0, len⟩, ⟨h.next + 1, a1, len⟩, ⟨h.next + 2, a2, len⟩] ⟨h'.live, n, p⟩ =
          some ⟨h.live, n, p⟩ := by
      intro n p
      have := dropArray_mid (X := []) (L := h.live) (n := n) (p := p) h3.nodup (by simp)
      rw [List.nil_append, ← h5] at this
      exact this
    have hc := hK
    unfold compOf at hc
    cases hm : est.maxSize st (len / 2) with
    | mk st1 r =>
      rw [hm] at hc hK'
      cases r with
      | error e =>
        refine ⟨⟨fun _ _ => true, fun _ _ => 0, umax⟩, ⟨h.live, h'.next, h'.peak⟩, rfl, ?_, rfl, by simp only; omega,
          ?_, h8, by simp only; omega⟩
        · simp only [dn, Option.bind_some]; rfl
        · unfold Heap.Ok at *
          unfold Heap.bytes at *
          simp only at *
          omega
      | ok c =>
        simp only at hc ⊢
        by_cases h0 : c = 0
        · simp only [if_pos h0]
          obtain ⟨H, h2, g1, g2, g3, g4, g5, g6, g7, g8⟩ := autoNormBody_eq A umax m est useAll inp out len 0 none
            h.next a0 a1 a2 st1 h' h.live h7 (by simp) (by simpa using h5)
          refine ⟨H, h2, g1, ?_, g4, by omega, g6, by omega, ?_⟩
          · simp only [g2 0 len (by omega), g2 1 len (by omega), g2 2 len (by omega), Bool.and_self, if_true]
            exact g3
          · have : compOf est st1 (len / 2) ≤ K := hK'
            omega
        · simp only [if_neg h0]
          rcases alloc_cases A c h' with ⟨e, he⟩ | ⟨a, _, ha⟩
          · refine ⟨⟨fun k _ => decide (k < 3), fun _ _ => 0, umax⟩, ⟨h.live, h'.next, h'.peak⟩, rfl, ?_, rfl,
              by simp only; omega, ?_, h8, by simp only; omega⟩
            · simp only [he]
              rw [dn]
              simp
            · unfold Heap.Ok at *
              unfold Heap.bytes at *
              simp only at *
              omega
          · simp only [ha]
            obtain ⟨H, h2, g1, g2, g3, g4, g5, g6, g7, g8⟩ := autoNormBody_eq A umax m est useAll inp out len c
              (some ⟨h'.next, a, c⟩) h.next a0 a1 a2 st1
              ⟨⟨h'.next, a, c⟩ :: h'.live, h'.next + 1, max h'.peak (h'.bytes + c)⟩ h.live
              (by unfold Heap.Ok at *; rw [bytes_mk]; simp only [List.map_cons, List.sum_cons]; unfold Heap.bytes; omega)
              (by simp; omega) (by simp [h5])
            have hb1 : (Heap.mk (⟨h'.next, a, c⟩ :: h'.live) (h'.next + 1) (max h'.peak (h'.bytes + c))).bytes =
                c + h'.bytes := by simp [Heap.bytes]
            simp only [hb1] at g8
            simp only at g5 g7
            refine ⟨H, h2, g1, ?_, g4, by omega, g6, by omega, ?_⟩
            · simp only [g2 0 len (by omega), g2 1 len (by omega), g2 2 len (by omega), g2 3 c (by omega),
                Bool.and_self, if_true]
              exact g3
            · have : compOf est st1 (len / 2) ≤ K := hK'
              omega

end

end Dlt.Alloc
