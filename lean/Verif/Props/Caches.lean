import Verif.Lemmas.Caches
/-!
# C51: the size cache under concurrency

The cached size estimation may be called by any number of threads in any interleaving.  What a call
returns is compared with the record of what the estimator has answered, which is part of no function of
the code.
-/

namespace Dlt.Props
open Dlt.Cache

/-- The estimator has answered `n` for data with this hash at this level. -/
def Estimated (hash : Buf → BitVec 128) (made : List Made) (h : BitVec 128) (l : BitVec 32) (a : Algorithm)
    (n : Nat) : Prop :=
  ∃ d, hash d = h ∧ Made.estimated d l a n ∈ made

/-- The compressor has compressed data with this hash at this level to `n` bytes. -/
def CompressedTo (hash : Buf → BitVec 128) (made : List Made) (h : BitVec 128) (l : BitVec 32) (a : Algorithm)
    (n : Nat) : Prop :=
  ∃ d out, hash d = h ∧ Made.compressed d l a out ∈ made ∧ out.length = n

/-- Where a size may come from. -/
def Source (hash : Buf → BitVec 128) (loaded : Sizes) (made : List Made) (k : Key) (n : Nat) : Prop :=
  Estimated hash made k.hash k.level k.alg n ∨ CompressedTo hash made k.hash k.level k.alg n ∨
    loaded.get k = some n

theorem Source.mono {hash : Buf → BitVec 128} {loaded : Sizes} {m m' : List Made} (h : ∀ x, x ∈ m → x ∈ m')
    {k : Key} {n : Nat} (hs : Source hash loaded m k n) : Source hash loaded m' k n := by
  rcases hs with ⟨d, h1, h2⟩ | ⟨d, o, h1, h2, h3⟩ | hs
  · exact .inl ⟨d, h1, h _ h2⟩
  · exact .inr (.inl ⟨d, o, h1, h _ h2, h3⟩)
  · exact .inr (.inr hs)

theorem made_mono {hash : Buf → BitVec 128} {c : Call} {sh sh' : Shared} {pc pc' : Pc}
    (h : Local hash c sh pc sh' pc') : ∀ x, x ∈ sh.made → x ∈ sh'.made := by
  cases h <;> first
    | exact fun x hx => hx
    | exact fun x hx => List.mem_cons_of_mem _ hx

/-- The part of the invariant that concerns one call. -/
def CallOk (hash : Buf → BitVec 128) (loaded : Sizes) (sh : Shared) : Call → Pc → Prop
  | .size d l a, .storing n => .estimated d l a n ∈ sh.made
  | .size d l a, .done (.size n) => Source hash loaded sh.made ⟨hash d, l, a⟩ n
  | .size _ _ _, _ => True
  | .compress d l a, .makingDir out => .compressed d l a out ∈ sh.made
  | .compress d l a, .creating out => .compressed d l a out ∈ sh.made
  | .compress d l a, .writing out _ => .compressed d l a out ∈ sh.made
  | .compress d l a, .recording out => .compressed d l a out ∈ sh.made
  | .compress _ _ _, _ => True

theorem CallOk.mono {hash : Buf → BitVec 128} {loaded : Sizes} {sh sh' : Shared}
    (h : ∀ x, x ∈ sh.made → x ∈ sh'.made) {c : Call} {pc : Pc} (hc : CallOk hash loaded sh c pc) :
    CallOk hash loaded sh' c pc := by
  cases c with
  | size d l a =>
    cases pc with
    | done r =>
      cases r with
      | size n => exact Source.mono h hc
      | _ => trivial
    | storing n => exact h _ hc
    | _ => trivial
  | compress d l a =>
    cases pc with
    | makingDir out => exact h _ hc
    | creating out => exact h _ hc
    | writing out off => exact h _ hc
    | recording out => exact h _ hc
    | _ => trivial

theorem calls_ok (hash : Buf → BitVec 128) (loaded : Sizes) (files : List Char → Option Buf) (s : State)
    (h : Steps hash (initial loaded files) s) :
    (∀ k n, s.shared.sizes.get k = some n → Source hash loaded s.shared.made k n) ∧
      ∀ c pc, (c, pc) ∈ s.threads → CallOk hash loaded s.shared c pc := by
  refine invariant (fun sh => ∀ k n, sh.sizes.get k = some n → Source hash loaded sh.made k n)
    (CallOk hash loaded) h (fun k n hk => .inr (.inr hk)) (fun c pc hm => by cases hm) ?_ ?_
  · intro sh c _
    cases c <;> trivial
  · intro c sh pc sh' pc' hl hI hT
    have hm := made_mono hl
    refine ⟨?_, ?_, fun c₂ pc₂ h2 => h2.mono hm⟩
    · intro k n hk
      cases hl with
      | @store d l a s n' =>
        dsimp only at hk ⊢
        rw [Sizes.get_insert] at hk
        by_cases he : k = ⟨hash d, l, a⟩
        · rw [if_pos he] at hk
          cases hk
          subst he
          exact .inl ⟨d, rfl, hT⟩
        · rw [if_neg he] at hk
          exact hI k n hk
      | @record d l a s out =>
        dsimp only at hk ⊢
        rw [Sizes.get_insert] at hk
        by_cases he : k = ⟨hash d, l, a⟩
        · rw [if_pos he] at hk
          cases hk
          subst he
          exact .inr (.inl ⟨d, out, rfl, hT, rfl⟩)
        · rw [if_neg he] at hk
          exact hI k n hk
      | estimated => exact (hI k n hk).mono hm
      | compressed => exact (hI k n hk).mono hm
      | writeFails => exact (hI k n hk).mono hm
      | _ => exact hI k n hk
    · cases hl with
      | hit hg => exact hI _ _ hg
      | estimated => exact List.mem_cons_self
      | store => exact .inl ⟨_, rfl, hT⟩
      | compressed => exact List.mem_cons_self
      | madeDir => exact hT
      | makeDirFails => exact hT
      | create => exact hT
      | createFails => exact hT
      | write => exact hT
      | writeEnd => exact hT
      | writeFails => exact List.mem_cons_of_mem _ hT
      | _ => trivial

/-- The call of which an answer is the result. -/
def madeFor : Made → Call
  | .estimated d l a _ => .size d l a
  | .compressed d l a _ => .compress d l a
  | .writeFailed d l a => .compress d l a

/-- Estimators and compressors only work for calls. -/
theorem made_for_call (hash : Buf → BitVec 128) (loaded : Sizes) (files : List Char → Option Buf) (s : State)
    (h : Steps hash (initial loaded files) s) :
    ∀ x ∈ s.shared.made, ∃ pc, (madeFor x, pc) ∈ s.threads := by
  generalize hs : initial loaded files = s₀ at h
  induction h with
  | refl =>
    subst hs
    intro x hx
    cases hx
  | @tail s₂ s₃ _ st ih =>
    have old : ∀ x ∈ s₂.shared.made, ∃ pc, (madeFor x, pc) ∈ s₃.threads := fun x hx => by
      obtain ⟨pc₂, hp⟩ := ih x hx
      exact st.keeps hp
    cases st with
    | start c => exact old
    | @work i c pc sh' pc' hget hl =>
      have new : ∃ pc₃, (c, pc₃) ∈ s₂.threads.set i (c, pc') :=
        (Step.work i hget hl).keeps (List.mem_of_getElem? hget)
      intro x hx
      cases hl with
      | estimated =>
        rcases List.mem_cons.mp hx with rfl | hx
        · exact new
        · exact old x hx
      | compressed =>
        rcases List.mem_cons.mp hx with rfl | hx
        · exact new
        · exact old x hx
      | writeFails =>
        rcases List.mem_cons.mp hx with rfl | hx
        · exact new
        · exact old x hx
      | _ => exact old x hx

/-- C51.  When the threads only call the cached size estimation, and begin with an empty cache, every size
that a call returns is one that the estimator has answered for data with the same content hash, level and
algorithm. -/
theorem C51_returned_size_was_estimated (hash : Buf → BitVec 128) (files : List Char → Option Buf) (s : State)
    (h : Steps hash (initial [] files) s)
    (honly : ∀ c pc, (c, pc) ∈ s.threads → ∃ d l a, c = .size d l a)
    (d : Buf) (l : BitVec 32) (a : Algorithm) (n : Nat) (hr : (.size d l a, .done (.size n)) ∈ s.threads) :
    Estimated hash s.shared.made (hash d) l a n := by
  rcases (calls_ok hash [] files s h).2 _ _ hr with hs | ⟨d', out, _, hm, _⟩ | hs
  · exact hs
  · obtain ⟨pc, hp⟩ := made_for_call hash [] files s h _ hm
    obtain ⟨_, _, _, e⟩ := honly _ _ hp
    cases e
  · cases hs

/-- C51, for all uses of the cache.  With sizes loaded from disk and with calls of `compress_data_cached` in
between, a returned size is one that the estimator has answered, the length of what the compressor has
produced, or the size that was loaded, for the same content hash, level and algorithm. -/
theorem C51_source (hash : Buf → BitVec 128) (loaded : Sizes) (files : List Char → Option Buf) (s : State)
    (h : Steps hash (initial loaded files) s)
    (d : Buf) (l : BitVec 32) (a : Algorithm) (n : Nat) (hr : (.size d l a, .done (.size n)) ∈ s.threads) :
    Estimated hash s.shared.made (hash d) l a n ∨ CompressedTo hash s.shared.made (hash d) l a n ∨
      loaded.get ⟨hash d, l, a⟩ = some n :=
  (calls_ok hash loaded files s h).2 _ _ hr

/-- C51, transparency.  If the estimator is a function of its arguments, compressing agrees with it, the
loaded sizes agree with it, and no two pieces of data in question have the same hash, then a cached call
returns what the estimator returns. -/
theorem C51_transparent (hash : Buf → BitVec 128) (est : Buf → BitVec 32 → Algorithm → Nat) (loaded : Sizes)
    (files : List Char → Option Buf) (s : State) (h : Steps hash (initial loaded files) s)
    (hest : ∀ d l a n, .estimated d l a n ∈ s.shared.made → n = est d l a)
    (hcomp : ∀ d l a out, .compressed d l a out ∈ s.shared.made → out.length = est d l a)
    (hload : ∀ d l a n, loaded.get ⟨hash d, l, a⟩ = some n → n = est d l a)
    (hinj : ∀ d₁ d₂, hash d₁ = hash d₂ →
      (∃ l a pc, (.size d₁ l a, pc) ∈ s.threads ∨ (.compress d₁ l a, pc) ∈ s.threads) →
      (∃ l a pc, (.size d₂ l a, pc) ∈ s.threads) → d₁ = d₂)
    (d : Buf) (l : BitVec 32) (a : Algorithm) (n : Nat) (hr : (.size d l a, .done (.size n)) ∈ s.threads) :
    n = est d l a := by
  rcases C51_source hash loaded files s h d l a n hr with ⟨d', e, hm⟩ | ⟨d', out, e, hm, hn⟩ | hs
  · obtain ⟨pc, hp⟩ := made_for_call hash loaded files s h _ hm
    have := hinj d' d e ⟨l, a, pc, .inl hp⟩ ⟨l, a, _, hr⟩
    subst this
    exact hest _ _ _ _ hm
  · obtain ⟨pc, hp⟩ := made_for_call hash loaded files s h _ hm
    have := hinj d' d e ⟨l, a, pc, .inr hp⟩ ⟨l, a, _, hr⟩
    subst this
    exact hn.symm.trans (hcomp _ _ _ _ hm)
  · exact hload _ _ _ _ hs

theorem sizes_stay {hash : Buf → BitVec 128} {c : Call} {sh sh' : Shared} {pc pc' : Pc}
    (h : Local hash c sh pc sh' pc') (k : Key) (hk : sh.sizes.get k ≠ none) : sh'.sizes.get k ≠ none := by
  cases h with
  | store =>
    dsimp only
    rw [Sizes.get_insert]
    split
    · simp
    · exact hk
  | record =>
    dsimp only
    rw [Sizes.get_insert]
    split
    · simp
    · exact hk
  | _ => exact hk

theorem sizes_stay_steps {hash : Buf → BitVec 128} {s s' : State} (h : Steps hash s s') (k : Key)
    (hk : s.shared.sizes.get k ≠ none) : s'.shared.sizes.get k ≠ none := by
  induction h with
  | refl => exact hk
  | tail _ st ih =>
    cases st with
    | start c => exact ih
    | work i hi hl => exact sizes_stay hl k ih

/-- Once a call has returned a size, the cache knows a size for its key. -/
theorem C51_known (hash : Buf → BitVec 128) (loaded : Sizes) (files : List Char → Option Buf) (s : State)
    (h : Steps hash (initial loaded files) s) (d : Buf) (l : BitVec 32) (a : Algorithm) (n : Nat)
    (hr : (.size d l a, .done (.size n)) ∈ s.threads) : s.shared.sizes.get ⟨hash d, l, a⟩ ≠ none := by
  have := invariant (hash := hash) (fun _ => True)
    (fun sh c pc => ∀ d l a n, c = .size d l a → pc = .done (.size n) → sh.sizes.get ⟨hash d, l, a⟩ ≠ none) h
    trivial (fun c pc hm => by cases hm) (fun sh c _ d l a n hc hp => by subst hc; cases hp)
    (fun c sh pc sh' pc' hl _ hT => ?_)
  · exact this.2 _ _ hr d l a n rfl rfl
  · refine ⟨trivial, ?_, fun c₂ pc₂ h2 d l a n e1 e2 => sizes_stay hl _ (h2 d l a n e1 e2)⟩
    intro d l a n e1 e2
    subst e1 e2
    cases hl with
    | hit hg => rw [hg]; simp
    | store =>
      dsimp only
      rw [Sizes.get_insert, if_pos rfl]
      simp

/-- C51, no repeated work.  After a call has returned a size, a call for data with the same content hash,
level and algorithm that looks into the cache at any later time returns at once, without the estimator. -/
theorem C51_no_second_estimate (hash : Buf → BitVec 128) (loaded : Sizes) (files : List Char → Option Buf)
    (s s' : State) (h : Steps hash (initial loaded files) s) (h' : Steps hash s s')
    (d d' : Buf) (l : BitVec 32) (a : Algorithm) (n : Nat) (hr : (.size d l a, .done (.size n)) ∈ s.threads)
    (hd : hash d' = hash d) (sh : Shared) (pc : Pc) (hl : Local hash (.size d' l a) s'.shared .lookup sh pc) :
    ∃ n', pc = .done (.size n') ∧ sh = s'.shared := by
  have hk : s'.shared.sizes.get ⟨hash d', l, a⟩ ≠ none := by
    rw [hd]
    exact sizes_stay_steps h' _ (C51_known hash loaded files s h d l a n hr)
  cases hl with
  | hit hg => exact ⟨_, rfl, rfl⟩
  | miss hg => exact absurd hg hk

/-- A case of C51: two threads miss at the same time, both ask the estimator, which answers differently;
the answer that is stored last is what a third call gets. -/
example : ∃ s, Steps (fun _ => 7) (initial [] (fun _ => none)) s ∧
    s.threads = [(.size [1] 3 .zstandard, .done (.size 10)), (.size [2] 3 .zstandard, .done (.size 20)),
      (.size [1] 3 .zstandard, .done (.size 10))] :=
  ⟨_, Steps.tail (Steps.tail (Steps.tail (Steps.tail (Steps.tail (Steps.tail (Steps.tail (Steps.tail
    (Steps.tail (Steps.tail (Steps.refl _)
      (.start (.size [1] 3 .zstandard))) (.start (.size [2] 3 .zstandard)))
      (.work 0 rfl (.miss rfl))) (.work 1 rfl (.miss rfl)))
      (.work 0 rfl (.estimated (n := 10)))) (.work 1 rfl (.estimated (n := 20))))
      (.work 1 rfl .store)) (.work 0 rfl .store))
      (.start (.size [1] 3 .zstandard))) (.work 2 rfl (.hit rfl)), rfl⟩

/-- Why C51 excludes `compress_data_cached` in its first form: it stores the length of the compressed data
under the key of the estimation, so that a call may return a size that no estimator has answered.  For empty
data the two differ: the ZStandard estimator answers 0 (dxt-lossless-transform-zstd/src/lib.rs:119-121), a
compressed frame is never empty. -/
theorem C51_mixed_witness : ∃ s, Steps (fun _ => 7) (initial [] (fun _ => none)) s ∧
    (.size [] 3 .zstandard, .done (.size 2)) ∈ s.threads ∧ s.shared.made = [.compressed [] 3 .zstandard [9, 9]] :=
  ⟨_, Steps.tail (Steps.tail (Steps.tail (Steps.tail (Steps.tail (Steps.tail (Steps.refl _)
      (.start (.compress [] 3 .zstandard))) (.work 0 rfl (.absent rfl)))
      (.work 0 rfl (.compressed (out := [9, 9]) rfl))) (.work 0 rfl .makeDirFails)) (.work 0 rfl .record))
      (.start (.size [] 3 .zstandard)) |>.tail (.work 1 rfl (.hit rfl)), List.mem_iff_getElem?.mpr ⟨1, rfl⟩, rfl⟩

end Dlt.Props
