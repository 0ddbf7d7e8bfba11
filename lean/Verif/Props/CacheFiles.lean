import Verif.Props.Caches
import Verif.Props.CacheNames
/-!
# C52 and C64: the files of the compressed data cache

C52 asks what a lookup returns after a crash, C64 what the parallel dry run of the benchmark leaves behind.
`complete k` is the compressed data that belongs to a key: the compressor is a function of data, level and
algorithm, and the data in question have different hashes.
-/

namespace Dlt.Props
open Dlt.Cache

/-- Whatever was compressed for a key gave `complete`. -/
def Consistent (hash : Buf → BitVec 128) (complete : Key → Buf) (made : List Made) : Prop :=
  ∀ d l a out, .compressed d l a out ∈ made → out = complete ⟨hash d, l, a⟩

/-- Some call is writing the file of the key and has come as far as `off`. -/
def Writer (hash : Buf → BitVec 128) (s : State) (k : Key) (off : Nat) : Prop :=
  ∃ (j : Nat) (d : Buf) (l : BitVec 32) (a : Algorithm) (out : Buf),
    (⟨hash d, l, a⟩ : Key) = k ∧ s.threads[j]? = some (.compress d l a, .writing out off)

/-- A write to the file of the key has failed. -/
def WriteFailed (hash : Buf → BitVec 128) (made : List Made) (k : Key) : Prop :=
  ∃ d l a, (⟨hash d, l, a⟩ : Key) = k ∧ .writeFailed d l a ∈ made

/-- The invariant for the file of a key: a byte is right, or some call has yet to write it, or a write has
failed. -/
def FileOk (hash : Buf → BitVec 128) (complete : Key → Buf) (s : State) (k : Key) : Prop :=
  ∀ b, s.shared.files (fileName k) = some b →
    b.length ≤ (complete k).length ∧
    (∀ i, i < (complete k).length →
      b[i]? = (complete k)[i]? ∨ (∃ off, off ≤ i ∧ Writer hash s k off) ∨ WriteFailed hash s.shared.made k) ∧
    ∀ i, i < b.length → b[i]? = (complete k)[i]? ∨ b[i]? = some 0

theorem Writer.set_ne {hash : Buf → BitVec 128} {s : State} {k : Key} {off : Nat} (h : Writer hash s k off)
    {i : Nat} {c : Call} {pc pc' : Pc} {sh' : Shared} (hi : s.threads[i]? = some (c, pc))
    (hpc : ∀ out, pc ≠ .writing out off) : Writer hash ⟨sh', s.threads.set i (c, pc')⟩ k off := by
  obtain ⟨j, d, l, a, out, hk, hj⟩ := h
  refine ⟨j, d, l, a, out, hk, ?_⟩
  by_cases hij : i = j
  · subst hij
    rw [hi] at hj
    cases hj
    exact absurd rfl (hpc out)
  · dsimp only
    rw [List.getElem?_set_ne hij]
    exact hj

/-- A step that neither touches files nor ends a write keeps the invariant. -/
theorem FileOk.keep {hash : Buf → BitVec 128} {complete : Key → Buf} {s : State} {k : Key}
    (h : FileOk hash complete s k) {s' : State} (hf : s'.shared.files (fileName k) = s.shared.files (fileName k))
    (hm : ∀ x, x ∈ s.shared.made → x ∈ s'.shared.made)
    (hw : ∀ off, off < (complete k).length → Writer hash s k off →
      Writer hash s' k off ∨ WriteFailed hash s'.shared.made k) :
    FileOk hash complete s' k := by
  intro b hb
  rw [hf] at hb
  obtain ⟨h1, h2, h3⟩ := h b hb
  refine ⟨h1, fun i hi => ?_, h3⟩
  rcases h2 i hi with h2 | ⟨off, ho, h2⟩ | ⟨d, l, a, h2, h4⟩
  · exact .inl h2
  · rcases hw off (by omega) h2 with h5 | h5
    · exact .inr (.inl ⟨off, ho, h5⟩)
    · exact .inr (.inr h5)
  · exact .inr (.inr ⟨d, l, a, h2, hm _ h4⟩)

theorem setFile_same (files : List Char → Option Buf) (n : List Char) (b : Buf) : setFile files n b n = some b :=
  if_pos rfl

theorem setFile_other {files : List Char → Option Buf} {k k' : Key} {b : Buf} (h : k ≠ k') :
    setFile files (fileName k') b (fileName k) = files (fileName k) := by
  unfold setFile
  rw [if_neg (fun e => h (C65_file_names_differ _ _ e))]

theorem FileOk.step {hash : Buf → BitVec 128} {complete : Key → Buf} {s s' : State} (k : Key)
    (h : FileOk hash complete s k) (st : Step hash s s')
    (hc : ∀ d l a out off, (.compress d l a, .writing out off) ∈ s.threads → out = complete ⟨hash d, l, a⟩) :
    FileOk hash complete s' k := by
  cases st with
  | start c =>
    refine h.keep rfl (fun x hx => hx) (fun off _ hw => .inl ?_)
    obtain ⟨j, d, l, a, out, hk, hj⟩ := hw
    refine ⟨j, d, l, a, out, hk, ?_⟩
    dsimp only
    rw [List.getElem?_append_left (List.getElem?_eq_some_iff.mp hj).1]
    exact hj
  | @work i c pc sh' pc' hi hl =>
    have hmono := made_mono hl
    cases hl with
    | @create d l a _ out =>
      by_cases hk : k = ⟨hash d, l, a⟩
      · subst hk
        intro b hb
        dsimp only [setFile] at hb
        rw [if_pos rfl] at hb
        cases hb
        refine ⟨Nat.zero_le _, fun j _ => .inr (.inl ⟨0, Nat.zero_le _, i, d, l, a, out, rfl, ?_⟩), fun j hj => ?_⟩
        · dsimp only
          rw [List.getElem?_set_self (List.getElem?_eq_some_iff.mp hi).1]
        · exact absurd hj (Nat.not_lt_zero _)
      · exact h.keep (setFile_other hk) hmono
          (fun off _ hw => .inl (hw.set_ne hi (fun o e => by cases e)))
    | @write d l a _ out off b₀ m hf hm ho =>
      have hout := hc d l a out off (List.mem_of_getElem? hi)
      have hlt := (List.getElem?_eq_some_iff.mp hi).1
      by_cases hk : k = ⟨hash d, l, a⟩
      · subst hk
        intro b hb
        dsimp only [setFile] at hb
        rw [if_pos rfl] at hb
        cases hb
        obtain ⟨h1, h2, h3⟩ := h b₀ hf
        have hcl : ((out.drop off).take m).length = m := by
          rw [List.length_take, List.length_drop]
          omega
        have hin : ∀ j, off ≤ j → j < off + m →
            (writeAt b₀ off ((out.drop off).take m))[j]? = (complete ⟨hash d, l, a⟩)[j]? := by
          intro j hj1 hj2
          rw [writeAt_inside hj1 (by rw [hcl]; exact hj2), List.getElem?_take_of_lt (by omega),
            List.getElem?_drop, ← hout]
          congr 1
          omega
        rw [hout] at ho
        refine ⟨?_, fun j hj => ?_, fun j hj => ?_⟩
        · rw [writeAt_length _ _ _ (by omega), hcl]
          omega
        · by_cases hj1 : j < off
          · rcases h2 j hj with h2 | ⟨o, ho', h2⟩ | h2
            · have : j < b₀.length := by
                by_contra hge
                rw [List.getElem?_eq_none (by omega), List.getElem?_eq_getElem hj] at h2
                cases h2
              exact .inl (by rw [writeAt_before hj1 this]; exact h2)
            · refine .inr (.inl ⟨o, ho', h2.set_ne hi (fun o' e => ?_)⟩)
              cases e
              omega
            · exact .inr (.inr h2)
          · by_cases hj2 : j < off + m
            · exact .inl (hin j (by omega) hj2)
            · rw [writeAt_after (by rw [hcl]; omega)]
              rcases h2 j hj with h2 | ⟨o, ho', h2⟩ | h2
              · exact .inl h2
              · refine .inr (.inl ?_)
                by_cases e : o = off
                · refine ⟨off + m, by omega, i, d, l, a, out, rfl, ?_⟩
                  dsimp only
                  rw [List.getElem?_set_self hlt]
                · exact ⟨o, ho', h2.set_ne hi (fun o' e' => by cases e'; exact e rfl)⟩
              · exact .inr (.inr h2)
        · by_cases hj1 : j < off
          · by_cases hj3 : j < b₀.length
            · rw [writeAt_before hj1 hj3]
              exact h3 j hj3
            · exact .inr (writeAt_gap hj1 (by omega))
          · by_cases hj2 : j < off + m
            · exact .inl (hin j (by omega) hj2)
            · rw [writeAt_after (by rw [hcl]; omega)]
              rw [writeAt_length _ _ _ (by omega), hcl] at hj
              exact h3 j (by omega)
      · refine h.keep (setFile_other hk) hmono (fun off' _ hw => .inl ?_)
        obtain ⟨j, d', l', a', out', hk', hj⟩ := hw
        refine ⟨j, d', l', a', out', hk', ?_⟩
        by_cases hij : i = j
        · subst hij
          rw [hi] at hj
          cases hj
          exact absurd hk'.symm hk
        · dsimp only
          rw [List.getElem?_set_ne hij]
          exact hj
    | @writeEnd d l a _ out off ho =>
      have hout := hc d l a out off (List.mem_of_getElem? hi)
      refine h.keep rfl hmono (fun off' hlt hw => .inl ?_)
      obtain ⟨j, d', l', a', out', hk', hj⟩ := hw
      refine ⟨j, d', l', a', out', hk', ?_⟩
      by_cases hij : i = j
      · subst hij
        rw [hi] at hj
        cases hj
        subst hk'
        rw [hout] at ho
        omega
      · dsimp only
        rw [List.getElem?_set_ne hij]
        exact hj
    | @writeFails d l a _ out off =>
      refine h.keep rfl hmono (fun off' hlt hw => ?_)
      obtain ⟨j, d', l', a', out', hk', hj⟩ := hw
      by_cases hij : i = j
      · subst hij
        rw [hi] at hj
        cases hj
        exact .inr ⟨d, l, a, hk', List.mem_cons_self⟩
      · refine .inl ⟨j, d', l', a', out', hk', ?_⟩
        dsimp only
        rw [List.getElem?_set_ne hij]
        exact hj
    | _ => exact h.keep rfl hmono (fun off _ hw => .inl (hw.set_ne hi (fun o e => by cases e)))

theorem made_mono_steps {hash : Buf → BitVec 128} {s s' : State} (h : Steps hash s s') :
    ∀ x, x ∈ s.shared.made → x ∈ s'.shared.made := by
  induction h with
  | refl => exact fun x hx => hx
  | tail _ st ih =>
    cases st with
    | start c => exact ih
    | work i hi hl => exact fun x hx => made_mono hl x (ih x hx)

theorem files_ok (hash : Buf → BitVec 128) (complete : Key → Buf) (loaded : Sizes)
    (files : List Char → Option Buf) (hfiles : ∀ k b, files (fileName k) = some b → b = complete k) (s : State)
    (h : Steps hash (initial loaded files) s) (hc : Consistent hash complete s.shared.made) (k : Key) :
    FileOk hash complete s k := by
  generalize hs : initial loaded files = s₀ at h
  induction h with
  | refl =>
    subst hs
    intro b hb
    have := hfiles k b hb
    subst this
    exact ⟨Nat.le_refl _, fun i _ => .inl rfl, fun i _ => .inl rfl⟩
  | @tail s₁ s₂ h₁ st ih =>
    have hc₁ : Consistent hash complete s₁.shared.made := fun d l a out hm =>
      hc d l a out (made_mono_steps (.tail (.refl _) st) _ hm)
    refine (ih hc₁).step k st (fun d l a out off hm => ?_)
    subst hs
    exact hc₁ d l a out ((calls_ok hash loaded files s₁ h₁).2 _ _ hm)

/-- A call that has come to its end. -/
def Ended : Pc → Prop
  | .done _ => True
  | .panicked => True
  | _ => False

/-- C64.  However the calls of the dry run interleave, when all of them have ended and no write has failed,
every file of the cache holds the complete compressed data of its key, also when several calls wrote the same
file. -/
theorem C64_dry_run (hash : Buf → BitVec 128) (complete : Key → Buf) (loaded : Sizes)
    (files : List Char → Option Buf) (hfiles : ∀ k b, files (fileName k) = some b → b = complete k) (s : State)
    (h : Steps hash (initial loaded files) s) (hc : Consistent hash complete s.shared.made)
    (hend : ∀ c pc, (c, pc) ∈ s.threads → Ended pc)
    (hfail : ∀ d l a, .writeFailed d l a ∉ s.shared.made) (k : Key) (b : Buf)
    (hb : s.shared.files (fileName k) = some b) : b = complete k := by
  obtain ⟨h1, h2, _⟩ := files_ok hash complete loaded files hfiles s h hc k b hb
  apply List.ext_getElem?
  intro i
  by_cases hi : i < (complete k).length
  · rcases h2 i hi with h2 | ⟨off, _, j, d, l, a, out, _, hj⟩ | ⟨d, l, a, _, hm⟩
    · exact h2
    · exact absurd (hend _ _ (List.mem_of_getElem? hj)) (fun e => e)
    · exact absurd hm (hfail d l a)
  · rw [List.getElem?_eq_none (by omega), List.getElem?_eq_none (by omega)]

/-- Files are never removed. -/
theorem C64_files_stay {hash : Buf → BitVec 128} {s s' : State} (h : Steps hash s s') (n : List Char)
    (hn : s.shared.files n ≠ none) : s'.shared.files n ≠ none := by
  induction h with
  | refl => exact hn
  | tail _ st ih =>
    cases st with
    | start c => exact ih
    | work i hi hl =>
      cases hl with
      | create => dsimp only [setFile]; split <;> simp [ih]
      | write => dsimp only [setFile]; split <;> simp [ih]
      | _ => exact ih

/-- What a lookup that finds a file has read so far. -/
def LookupOk (hash : Buf → BitVec 128) (k : Key) (b : Buf) : Call → Pc → Prop
  | .compress d l a, pc => (⟨hash d, l, a⟩ : Key) = k →
    match pc with
    | .asking => True
    | .opening => True
    | .reading got => got <+: b
    | .done (.data x) => x = b
    | .done .error => True
    | _ => False
  | .size _ _ _, _ => True

/-- When the file of a key is there as a process starts, a call returns its contents or a read error; it does
not compress again and the file keeps its contents. -/
theorem lookup_returns_file (hash : Buf → BitVec 128) (loaded : Sizes) (files : List Char → Option Buf) (s : State)
    (h : Steps hash (initial loaded files) s) (k : Key) (b : Buf) (hb : files (fileName k) = some b) :
    s.shared.files (fileName k) = some b ∧ ∀ c pc, (c, pc) ∈ s.threads → LookupOk hash k b c pc := by
  refine invariant (fun sh => sh.files (fileName k) = some b) (fun _ => LookupOk hash k b) h hb
    (fun c pc hm => by cases hm) (fun sh c _ => ?_) ?_
  · cases c with
    | size d l a => trivial
    | compress d l a => exact fun _ => trivial
  · intro c sh pc sh' pc' hl hI hT
    cases hl with
    | @create d l a _ out =>
      have hne : k ≠ ⟨hash d, l, a⟩ := fun e => hT e.symm
      exact ⟨(setFile_other hne).trans hI, fun e => absurd e.symm hne, fun _ _ h2 => h2⟩
    | @write d l a _ out off b' m hf hm ho =>
      have hne : k ≠ ⟨hash d, l, a⟩ := fun e => hT e.symm
      exact ⟨(setFile_other hne).trans hI, fun e => absurd e.symm hne, fun _ _ h2 => h2⟩
    | absent hf =>
      refine ⟨hI, fun e => ?_, fun _ _ h2 => h2⟩
      subst e
      rw [hI] at hf
      cases hf
    | openOk => exact ⟨hI, fun _ => List.nil_prefix, fun _ _ h2 => h2⟩
    | read hf hm hlt =>
      refine ⟨hI, fun e => ?_, fun _ _ h2 => h2⟩
      have hp := hT e
      subst e
      rw [hI] at hf
      cases hf
      obtain ⟨t, ht⟩ := hp
      subst ht
      rw [List.drop_left]
      exact (List.prefix_append_right_inj _).mpr (List.take_prefix _ _)
    | readEnd hf hle =>
      refine ⟨hI, fun e => ?_, fun _ _ h2 => h2⟩
      have hp := hT e
      subst e
      rw [hI] at hf
      cases hf
      exact hp.eq_of_length_le hle
    | hit => exact ⟨hI, trivial, fun _ _ h2 => h2⟩
    | miss => exact ⟨hI, trivial, fun _ _ h2 => h2⟩
    | estimated => exact ⟨hI, trivial, fun _ _ h2 => h2⟩
    | estimatorFails => exact ⟨hI, trivial, fun _ _ h2 => h2⟩
    | store => exact ⟨hI, trivial, fun _ _ h2 => h2⟩
    | present => exact ⟨hI, fun _ => trivial, fun _ _ h2 => h2⟩
    | openFails => exact ⟨hI, fun _ => trivial, fun _ _ h2 => h2⟩
    | readFails => exact ⟨hI, fun _ => trivial, fun _ _ h2 => h2⟩
    | compressed => exact ⟨hI, fun e => hT e, fun _ _ h2 => h2⟩
    | compressorFails => exact ⟨hI, fun e => absurd (hT e) id, fun _ _ h2 => h2⟩
    | unsupported => exact ⟨hI, fun e => hT e, fun _ _ h2 => h2⟩
    | madeDir => exact ⟨hI, fun e => hT e, fun _ _ h2 => h2⟩
    | makeDirFails => exact ⟨hI, fun e => hT e, fun _ _ h2 => h2⟩
    | createFails => exact ⟨hI, fun e => hT e, fun _ _ h2 => h2⟩
    | writeEnd => exact ⟨hI, fun e => hT e, fun _ _ h2 => h2⟩
    | writeFails => exact ⟨hI, fun e => hT e, fun _ _ h2 => h2⟩
    | record => exact ⟨hI, fun e => absurd (hT e) id, fun _ _ h2 => h2⟩

/-- C64, as the benchmark uses it.  After the dry run a lookup in a cache file that exists gives the complete
compressed data or a read error. -/
theorem C64_lookup (hash : Buf → BitVec 128) (complete : Key → Buf) (loaded : Sizes)
    (files : List Char → Option Buf) (hfiles : ∀ k b, files (fileName k) = some b → b = complete k) (s : State)
    (h : Steps hash (initial loaded files) s) (hc : Consistent hash complete s.shared.made)
    (hend : ∀ c pc, (c, pc) ∈ s.threads → Ended pc)
    (hfail : ∀ d l a, .writeFailed d l a ∉ s.shared.made)
    (loaded' : Sizes) (s' : State) (h' : Steps hash (initial loaded' s.shared.files) s')
    (d : Buf) (l : BitVec 32) (a : Algorithm) (x : Buf) (hthere : s.shared.files (fileName ⟨hash d, l, a⟩) ≠ none)
    (hr : (.compress d l a, .done (.data x)) ∈ s'.threads) : x = complete ⟨hash d, l, a⟩ := by
  obtain ⟨b, hb⟩ := Option.ne_none_iff_exists'.mp hthere
  have := (lookup_returns_file hash loaded' _ s' h' _ b hb).2 _ _ hr rfl
  dsimp only at this
  rw [this]
  exact C64_dry_run hash complete loaded files hfiles s h hc hend hfail _ b hb

/-- Only one call concerns the key. -/
def OneCall (hash : Buf → BitVec 128) (s : State) (k : Key) : Prop :=
  ∀ (i j : Nat) d l a pc d' l' a' pc', (⟨hash d, l, a⟩ : Key) = k → (⟨hash d', l', a'⟩ : Key) = k →
    s.threads[i]? = some (.compress d l a, pc) → s.threads[j]? = some (.compress d' l' a', pc') → i = j

theorem OneCall.back {hash : Buf → BitVec 128} {s s' : State} {k : Key} (h : OneCall hash s' k)
    (st : Step hash s s') : OneCall hash s k := by
  have key : ∀ (i : Nat) c pc, s.threads[i]? = some (c, pc) → ∃ pc', s'.threads[i]? = some (c, pc') := by
    intro i c pc hi
    cases st with
    | start c' =>
      exact ⟨pc, by dsimp only; rw [List.getElem?_append_left (List.getElem?_eq_some_iff.mp hi).1]; exact hi⟩
    | @work j c' pc₁ sh' pc' hj hl =>
      by_cases e : j = i
      · subst e
        rw [hj] at hi
        cases hi
        exact ⟨pc', by dsimp only; rw [List.getElem?_set_self (List.getElem?_eq_some_iff.mp hj).1]⟩
      · exact ⟨pc, by dsimp only; rw [List.getElem?_set_ne e]; exact hi⟩
  intro i j d l a pc d' l' a' pc' hk hk' hi hj
  obtain ⟨p, hp⟩ := key _ _ _ hi
  obtain ⟨q, hq⟩ := key _ _ _ hj
  exact h i j d l a p d' l' a' q hk hk' hp hq

theorem one_writer_prefix (hash : Buf → BitVec 128) (complete : Key → Buf) (loaded : Sizes)
    (files : List Char → Option Buf) (hfiles : ∀ k b, files (fileName k) = some b → b = complete k) (s : State)
    (h : Steps hash (initial loaded files) s) (hc : Consistent hash complete s.shared.made) (k : Key)
    (hone : OneCall hash s k) (b : Buf) (hb : s.shared.files (fileName k) = some b) :
    b <+: complete k ∧ ∀ off, Writer hash s k off → b.length = off := by
  generalize hs : initial loaded files = s₀ at h
  induction h generalizing b with
  | refl =>
    subst hs
    have := hfiles k b hb
    subst this
    refine ⟨List.prefix_refl _, fun off hw => ?_⟩
    obtain ⟨j, d, l, a, out, _, hj⟩ := hw
    cases hj
  | @tail s₁ s₂ h₁ st ih =>
    have hc₁ : Consistent hash complete s₁.shared.made := fun d l a out hm =>
      hc d l a out (made_mono_steps (.tail (.refl _) st) _ hm)
    have ih := ih hc₁ (hone.back st)
    subst hs
    have hout : ∀ d l a out off, (.compress d l a, .writing out off) ∈ s₁.threads → out = complete ⟨hash d, l, a⟩ :=
      fun d l a out off hm => hc₁ d l a out ((calls_ok hash loaded files s₁ h₁).2 _ _ hm)
    cases st with
    | start c =>
      obtain ⟨h1, h2⟩ := ih b hb
      refine ⟨h1, fun off hw => h2 off ?_⟩
      obtain ⟨j, d, l, a, out, hk, hj⟩ := hw
      refine ⟨j, d, l, a, out, hk, ?_⟩
      dsimp only at hj
      rw [List.getElem?_append] at hj
      split at hj
      · exact hj
      · rw [List.getElem?_singleton] at hj
        split at hj
        · cases c <;> simp [Call.begin] at hj
        · cases hj
    | @work i c pc sh' pc' hi hl =>
      have hlt := (List.getElem?_eq_some_iff.mp hi).1
      have back : (∀ out off, pc' ≠ .writing out off) → ∀ off, Writer hash ⟨sh', s₁.threads.set i (c, pc')⟩ k off →
          Writer hash s₁ k off := by
        intro hpc off hw
        obtain ⟨j, d, l, a, out, hk, hj⟩ := hw
        refine ⟨j, d, l, a, out, hk, ?_⟩
        by_cases e : i = j
        · subst e
          dsimp only at hj
          rw [List.getElem?_set_self hlt] at hj
          cases hj
          exact absurd rfl (hpc out off)
        · dsimp only at hj
          rw [List.getElem?_set_ne e] at hj
          exact hj
      have self : ∀ off d l a, c = .compress d l a → (⟨hash d, l, a⟩ : Key) = k →
          Writer hash ⟨sh', s₁.threads.set i (c, pc')⟩ k off → ∃ out, pc' = .writing out off := by
        intro off d l a hcc hk hw
        obtain ⟨j, d', l', a', out, hk', hj⟩ := hw
        have hi' : (s₁.threads.set i (c, pc'))[i]? = some (.compress d l a, pc') := by
          rw [List.getElem?_set_self hlt, hcc]
        have e := hone i j d l a _ d' l' a' _ hk hk' hi' hj
        subst e
        dsimp only at hj
        rw [List.getElem?_set_self hlt] at hj
        cases hj
        exact ⟨out, rfl⟩
      have other : ∀ d l a, c = .compress d l a → (⟨hash d, l, a⟩ : Key) ≠ k → ∀ off,
          Writer hash ⟨sh', s₁.threads.set i (c, pc')⟩ k off → Writer hash s₁ k off := by
        intro d l a hcc hk off hw
        obtain ⟨j, d', l', a', out, hk', hj⟩ := hw
        refine ⟨j, d', l', a', out, hk', ?_⟩
        by_cases e : i = j
        · subst e
          dsimp only at hj
          rw [List.getElem?_set_self hlt, hcc] at hj
          cases hj
          exact absurd hk' hk
        · dsimp only at hj
          rw [List.getElem?_set_ne e] at hj
          exact hj
      cases hl with
      | @create d l a _ out =>
        by_cases hk : (⟨hash d, l, a⟩ : Key) = k
        · have hb' := hb
          dsimp only [setFile] at hb'
          rw [hk, if_pos rfl] at hb'
          cases hb'
          refine ⟨List.nil_prefix, fun off hw => ?_⟩
          obtain ⟨o, e⟩ := self off d l a rfl hk hw
          cases e
          rfl
        · dsimp only at hb
          rw [setFile_other (Ne.symm hk)] at hb
          obtain ⟨h1, h2⟩ := ih b hb
          exact ⟨h1, fun off hw => h2 off (other d l a rfl hk off hw)⟩
      | @write d l a _ out off b₀ m hf hm ho =>
        by_cases hk : (⟨hash d, l, a⟩ : Key) = k
        · have hb' := hb
          dsimp only [setFile] at hb'
          rw [hk, if_pos rfl] at hb'
          cases hb'
          rw [hk] at hf
          obtain ⟨h1, h2⟩ := ih b₀ hf
          have hlen := h2 off ⟨i, d, l, a, out, hk, hi⟩
          have ho' := hout d l a out off (List.mem_of_getElem? hi)
          rw [hk] at ho'
          have hw : writeAt b₀ off ((out.drop off).take m) = out.take (off + m) := by
            have e1 : b₀ = out.take off := by
              rw [ho', ← hlen]
              exact List.prefix_iff_eq_take.mp h1
            unfold writeAt
            rw [List.take_of_length_le (by omega), hlen, Nat.sub_self, List.replicate_zero, List.append_nil,
              List.drop_eq_nil_of_le (as := b₀) (by rw [hlen]; omega), List.append_nil]
            conv_lhs => rw [e1]
            rw [← List.take_add]
          rw [hw]
          refine ⟨by rw [← ho']; exact List.take_prefix _ _, fun off' hw' => ?_⟩
          obtain ⟨o, e⟩ := self off' d l a rfl hk hw'
          cases e
          rw [List.length_take]
          omega
        · dsimp only at hb
          rw [setFile_other (Ne.symm hk)] at hb
          obtain ⟨h1, h2⟩ := ih b hb
          exact ⟨h1, fun off hw => h2 off (other d l a rfl hk off hw)⟩
      | _ =>
        obtain ⟨h1, h2⟩ := ih b hb
        exact ⟨h1, fun off hw => h2 off (back (fun o p e => by cases e) off hw)⟩

/-- C52 is violated: the file is written in place.  A process compresses data to two bytes and crashes when one
of them is written; in the next process the lookup gives that one byte as the compressed data. -/
theorem C52_violated : ∃ s s', Steps (fun _ => 7) (initial [] (fun _ => none)) s ∧
    s.shared.made = [.compressed [1] 16 .zstandard [8, 9]] ∧
    Steps (fun _ => 7) (initial [] s.shared.files) s' ∧
    s'.threads = [(.compress [1] 16 .zstandard, .done (.data [8]))] :=
  ⟨_, _, Steps.tail (Steps.tail (Steps.tail (Steps.tail (Steps.tail (Steps.tail (Steps.refl _)
      (.start (.compress [1] 16 .zstandard))) (.work 0 rfl (.absent rfl)))
      (.work 0 rfl (.compressed (out := [8, 9]) rfl))) (.work 0 rfl .madeDir)) (.work 0 rfl .create))
      (.work 0 rfl (.write (b := []) (m := 1) (by simp [initial, setFile, writeAt]) (by decide) (by decide))), rfl,
    Steps.tail (Steps.tail (Steps.tail (Steps.tail (Steps.tail (Steps.refl _)
      (.start (.compress [1] 16 .zstandard))) (.work 0 rfl (.present (b := [8]) (by simp [initial, setFile, writeAt]))))
      (.work 0 rfl .openOk)) (.work 0 rfl (.read (b := [8]) (m := 1) (by simp [initial, setFile, writeAt]) (by decide) (by decide))))
      (.work 0 rfl (.readEnd (b := [8]) (by simp [initial, setFile, writeAt]) (by decide))), rfl⟩

/-- C52, what does hold.  After a crash at any point while one call for the key was at work, a lookup in the
next process returns a prefix of the complete data, a read error, or finds no file and compresses anew.  Missing:
the prefix may be a proper one, see `C52_violated`. -/
theorem C52_lookup_partial (hash : Buf → BitVec 128) (complete : Key → Buf) (loaded loaded' : Sizes)
    (files : List Char → Option Buf) (hfiles : ∀ k b, files (fileName k) = some b → b = complete k) (s s' : State)
    (h : Steps hash (initial loaded files) s) (hc : Consistent hash complete s.shared.made)
    (h' : Steps hash (initial loaded' s.shared.files) s')
    (d : Buf) (l : BitVec 32) (a : Algorithm) (hone : OneCall hash s ⟨hash d, l, a⟩)
    (hthere : s.shared.files (fileName ⟨hash d, l, a⟩) ≠ none) (x : Buf)
    (hr : (.compress d l a, .done (.data x)) ∈ s'.threads) : x <+: complete ⟨hash d, l, a⟩ := by
  obtain ⟨b, hb⟩ := Option.ne_none_iff_exists'.mp hthere
  have := (lookup_returns_file hash loaded' _ s' h' _ b hb).2 _ _ hr rfl
  dsimp only at this
  rw [this]
  exact (one_writer_prefix hash complete loaded files hfiles s h hc _ hone b hb).1

/-- C52, exactly: a process with an empty cache compresses `d` to `out`, no other call of it concerns the same file, and it
crashes at some point after the file was made.  What a lookup in the next process can return are the prefixes
of `out`, each of them for some crash point; the complete data are only one of these. -/
theorem C52_exact (hash : Buf → BitVec 128) (d : Buf) (l : BitVec 32) (a : Algorithm) (ha : a.supportsCompress = true)
    (out x : Buf) :
    (∃ s s', Steps hash (initial [] fun _ => none) s ∧ OneCall hash s ⟨hash d, l, a⟩ ∧
      s.shared.made = [.compressed d l a out] ∧ s.shared.files (fileName ⟨hash d, l, a⟩) ≠ none ∧
      Steps hash (initial [] s.shared.files) s' ∧ (.compress d l a, .done (.data x)) ∈ s'.threads) ↔ x <+: out := by
  constructor
  · rintro ⟨s, s', h, hone, hmade, hthere, h', hr⟩
    refine C52_lookup_partial hash (fun _ => out) [] [] (fun _ => none) (fun _ _ h => (nomatch h)) s s' h ?_ h' d l a hone
      hthere x hr
    intro d' l' a' out' hm
    rw [hmade, List.mem_singleton] at hm
    cases hm
    rfl
  · intro hx
    have hone : ∀ pc sh, OneCall hash ⟨sh, [(.compress d l a, pc)]⟩ ⟨hash d, l, a⟩ := by
      intro pc sh i j _ _ _ _ _ _ _ _ _ _ hi hj
      have hi := (List.getElem?_eq_some_iff.mp hi).1
      have hj := (List.getElem?_eq_some_iff.mp hj).1
      simp only [List.length_cons, List.length_nil] at hi hj
      omega
    have h5 : Steps hash (initial [] fun _ => none) _ := Steps.tail (Steps.tail (Steps.tail (Steps.tail (Steps.tail (Steps.refl _)
      (.start (.compress d l a))) (.work 0 rfl (.absent rfl)))
      (.work 0 rfl (.compressed (out := out) ha))) (.work 0 rfl .madeDir)) (.work 0 rfl .create)
    have hlook : ∀ files : List Char → Option Buf, files (fileName ⟨hash d, l, a⟩) = some x →
        ∃ s', Steps hash (initial [] files) s' ∧ (.compress d l a, .done (.data x)) ∈ s'.threads := by
      intro files hf
      have h3 : Steps hash (initial [] files) ⟨⟨[], files, []⟩, [(.compress d l a, .reading [])]⟩ :=
        Steps.tail (Steps.tail (Steps.tail (Steps.refl _) (.start (.compress d l a))) (.work 0 rfl (.present hf)))
          (.work 0 rfl .openOk)
      rcases Nat.eq_zero_or_pos x.length with h0 | h0
      · cases List.eq_nil_of_length_eq_zero h0
        exact ⟨_, .tail h3 (.work 0 rfl (.readEnd hf (by simp))), List.mem_iff_getElem?.mpr ⟨0, rfl⟩⟩
      · have h4 := Steps.tail h3 (.work 0 rfl (.read (m := x.length) hf h0 (by simpa using h0)))
        refine ⟨_, .tail h4 (.work 0 rfl (.readEnd hf (by simp))), List.mem_iff_getElem?.mpr ⟨0, ?_⟩⟩
        simp
    rcases Nat.eq_zero_or_pos x.length with h0 | h0
    · cases List.eq_nil_of_length_eq_zero h0
      obtain ⟨s', h1, h2⟩ := hlook (setFile (fun _ => none) (fileName ⟨hash d, l, a⟩) []) (by simp [setFile])
      exact ⟨_, s', h5, hone _ _, rfl, by simp [initial, setFile], h1, h2⟩
    · have hlen := hx.length_le
      have h6 := Steps.tail h5 (.work 0 rfl (.write (b := []) (m := x.length) (by simp [initial, setFile]) h0 (by omega)))
      have e : out.take x.length = x := (List.prefix_iff_eq_take.mp hx).symm
      obtain ⟨s', h1, h2⟩ := hlook (setFile (setFile (fun _ => none) (fileName ⟨hash d, l, a⟩) []) (fileName ⟨hash d, l, a⟩)
        (writeAt [] 0 ((out.drop 0).take x.length))) (by simp [setFile, writeAt, e])
      exact ⟨_, s', h6, hone _ _, rfl, by simp [initial, setFile], h1, h2⟩

/-- C52, what does hold for any number of calls for the key.  What a lookup in the next process returns is no
longer than the complete data and each of its bytes is right or zero. -/
theorem C52_bytes_partial (hash : Buf → BitVec 128) (complete : Key → Buf) (loaded loaded' : Sizes)
    (files : List Char → Option Buf) (hfiles : ∀ k b, files (fileName k) = some b → b = complete k) (s s' : State)
    (h : Steps hash (initial loaded files) s) (hc : Consistent hash complete s.shared.made)
    (h' : Steps hash (initial loaded' s.shared.files) s')
    (d : Buf) (l : BitVec 32) (a : Algorithm) (hthere : s.shared.files (fileName ⟨hash d, l, a⟩) ≠ none) (x : Buf)
    (hr : (.compress d l a, .done (.data x)) ∈ s'.threads) :
    x.length ≤ (complete ⟨hash d, l, a⟩).length ∧
      ∀ i, i < x.length → x[i]? = (complete ⟨hash d, l, a⟩)[i]? ∨ x[i]? = some 0 := by
  obtain ⟨b, hb⟩ := Option.ne_none_iff_exists'.mp hthere
  have := (lookup_returns_file hash loaded' _ s' h' _ b hb).2 _ _ hr rfl
  dsimp only at this
  subst this
  obtain ⟨h1, _, h3⟩ := files_ok hash complete loaded files hfiles s h hc _ _ hb
  exact ⟨h1, h3⟩

/-- In the same way a call of the dry run that runs while another one writes the same file may return
incomplete data; this is why C64 speaks of the time after the dry run. -/
theorem C64_reader_during_write : ∃ s, Steps (fun _ => 7) (initial [] (fun _ => none)) s ∧
    s.shared.made = [.compressed [1] 16 .zstandard [8, 9]] ∧
    (.compress [1] 16 .zstandard, .done (.data [])) ∈ s.threads :=
  ⟨_, Steps.tail (Steps.tail (Steps.tail (Steps.tail (Steps.tail (Steps.tail (Steps.tail (Steps.tail (Steps.tail
      (Steps.refl _)
      (.start (.compress [1] 16 .zstandard))) (.work 0 rfl (.absent rfl)))
      (.work 0 rfl (.compressed (out := [8, 9]) rfl))) (.work 0 rfl .madeDir)) (.work 0 rfl .create))
      (.start (.compress [1] 16 .zstandard))) (.work 1 rfl (.present (b := []) (by simp [initial, setFile, writeAt]))))
      (.work 1 rfl .openOk)) (.work 1 rfl (.readEnd (b := []) (by simp [initial, setFile, writeAt]) (by decide))), rfl,
    List.mem_iff_getElem?.mpr ⟨1, rfl⟩⟩

/-- A case of C64: two calls write the same file.  The second one empties it when the first has written one
byte, so that the file has a gap for a while. -/
example : ∃ s, Steps (fun _ => 7) (initial [] (fun _ => none)) s ∧
    s.threads = [(.compress [1] 16 .zstandard, .done (.data [8, 9])), (.compress [1] 16 .zstandard, .done (.data [8, 9]))] ∧
    s.shared.files (fileName ⟨7, 16, .zstandard⟩) = some [8, 9] :=
  ⟨_, Steps.tail (Steps.tail (Steps.tail (Steps.tail (Steps.tail (Steps.tail (Steps.tail (Steps.tail (Steps.tail
    (Steps.tail (Steps.tail (Steps.tail (Steps.tail (Steps.tail (Steps.tail (Steps.tail (Steps.tail (Steps.refl _)
      (.start (.compress [1] 16 .zstandard))) (.start (.compress [1] 16 .zstandard)))
      (.work 0 rfl (.absent rfl))) (.work 1 rfl (.absent rfl)))
      (.work 0 rfl (.compressed (out := [8, 9]) rfl))) (.work 1 rfl (.compressed (out := [8, 9]) rfl)))
      (.work 0 rfl .madeDir)) (.work 1 rfl .madeDir)) (.work 0 rfl .create))
      (.work 0 rfl (.write (b := []) (m := 1) (by simp [initial, setFile, writeAt]) (by decide) (by decide))))
      (.work 1 rfl .create))
      (.work 0 rfl (.write (b := []) (m := 1) (by simp [initial, setFile, writeAt]) (by decide) (by decide))))
      (.work 1 rfl (.write (b := [0, 9]) (m := 2) (by simp [initial, setFile, writeAt]) (by decide) (by decide))))
      (.work 0 rfl (.writeEnd (by decide)))) (.work 1 rfl (.writeEnd (by decide))))
      (.work 0 rfl .record)) (.work 1 rfl .record), rfl, by simp [initial, setFile, writeAt]⟩

end Dlt.Props
