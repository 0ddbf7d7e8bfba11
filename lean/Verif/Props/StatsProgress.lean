import Verif.Lemmas.Causal
import Verif.Props.StatsCommand
/-!
# C86: the command compression-stats comes to an end
-/

namespace Dlt.Props

open Dlt.Cache Dlt.DebugIo Dlt.DebugStats Dlt.DebugBench Dlt.FileFormats Dlt.FileIo Dlt.FileIo.Prog Dlt.StatsCommand Dds Spec

section
variable {S : Type} [DecidableEq S] {s : Setup S} {D : Buf → Prop}

/-- What a thread does after the file is found. -/
def afterFound (s : Setup S) (p : Path) (x : Except CliError (StatsResult S)) (t : StatsTape S) : Option (StatsTape S × Unit) :=
  match x with
  | .error _ => some (t, ())
  | .ok res => match findDefault s.dflt res.allResults with
    | none => none
    | some _ => some (t.make (.push p res), ())

theorem log_part {init : Sizes} (hs : StatsSetting s init D) {B : Nat} (hc : ∀ i, CausalCodec B (s.codec i)) {L : Nat}
    (hL : ∀ i, accessLimit B (s.codec i) + 1 ≤ L) (i : Nat) :
    ∃ act : StatsTape S → Option (StatsTape S × Unit), Causal L act ∧ ∀ v, log s i v = (act ⟨v, []⟩).map fun r => r.1.log := by
  have hnil : Causal (V := Sizes) (K := Access S) L fun t => some (t, ()) := (Causal.ret _).mono (Nat.zero_le _)
  rcases hp : s.entries[i]? with _ | p
  · refine ⟨_, hnil, fun v => ?_⟩
    unfold log
    rw [hp]
    rfl
  have hpe : p ∈ s.entries := List.mem_of_getElem? hp
  have hext := fun w hw => C66_extract (σ := StatsTape S × StatsResult S) s.os s.pl hs.wide hs.release s.format p (fun data _ =>
    .op (.call fun st => (analyzeTexture (s.codec i) (s.env i) (s.heap i) s.lib s.hash s.opts.getLevel s.opts.algorithm
      s.opts.getEstimateLevel s.opts.getEstimateAlgorithm data st.1).map (fillStats st.2)) .ret) w hw
  by_cases hfound : ∃ b, Found s.os s.files s.format p b
  · obtain ⟨b, hb⟩ := hfound
    refine ⟨_, ((analyzeTexture_causal (s.codec i) (hc i) (s.env i) (s.heap i) s.lib s.hash s.opts.getLevel s.opts.algorithm
      s.opts.getEstimateLevel s.opts.getEstimateAlgorithm (textureOf b)).bind (C := 1) (g := afterFound s p) ?_).mono (hL i), ?_⟩
    · intro x
      rcases x with e | res
      · exact (Causal.ret _).mono (Nat.zero_le _)
      · unfold afterFound
        dsimp only
        rcases findDefault s.dflt res.allResults with _ | d
        · exact Causal.fail.mono (Nat.zero_le _)
        · exact Causal.access _ fun _ => ()
    · intro v
      unfold log
      rw [hp]
      dsimp only
      unfold job analyzeFile
      rw [run_bind', run_make]
      dsimp only
      generalize hw : (⟨s.files, fun _ => false, 0, (⟨v, []⟩, ⟨0, 0, [], ⟨s.dflt, 0⟩⟩)⟩ : World (StatsTape S × StatsResult S)) = w
      have hfl : w.files = s.files := by rw [← hw]
      have hst : w.st.1 = ⟨v, []⟩ := by rw [← hw]
      rw [run_bind']
      obtain ⟨g, hrun⟩ := (hext w (by rw [hfl]; exact hs.files p hpe)).1 b (by rw [hfl]; exact hb)
      rw [hrun, run_bind', run_op]
      simp only [exec, hst]
      rcases analyzeTexture (s.codec i) (s.env i) (s.heap i) s.lib s.hash s.opts.getLevel s.opts.algorithm
        s.opts.getEstimateLevel s.opts.getEstimateAlgorithm (textureOf b) (⟨v, []⟩ : StatsTape S) with _ | ⟨t, e | res⟩
      · rfl
      · simp only [Option.map_some, fillStats, run, Except.mapError, Option.bind_some, afterFound]
      · simp only [Option.map_some, fillStats, run, Except.mapError, exec, Option.bind_some, afterFound]
        rcases findDefault s.dflt res.allResults with _ | d <;> rfl
  · refine ⟨_, hnil, fun v => ?_⟩
    unfold log
    rw [hp]
    dsimp only
    unfold job analyzeFile
    rw [run_bind', run_make]
    dsimp only
    generalize hw : (⟨s.files, fun _ => false, 0, (⟨v, []⟩, ⟨0, 0, [], ⟨s.dflt, 0⟩⟩)⟩ : World (StatsTape S × StatsResult S)) = w
    have hfl : w.files = s.files := by rw [← hw]
    have hst : w.st.1 = ⟨v, []⟩ := by rw [← hw]
    rw [run_bind']
    obtain ⟨e, hrun⟩ := (hext w (by rw [hfl]; exact hs.files p hpe)).2 (by rw [hfl]; exact hfound)
    rw [hrun]
    simp only [run, hst]
    rfl

omit [DecidableEq S] in
theorem viewOf_append (i : Nat) (tr' : Trace S) : ∀ (tr : Trace S) (cache : Sizes) (n : Nat), n < (own i tr).length →
    viewOf i cache (tr ++ tr') n = viewOf i cache tr n
  | [], cache, n, h => absurd h (by simp [own])
  | x :: tr, cache, n, h => by
    rw [List.cons_append]
    unfold viewOf
    by_cases hi : x.1 = i
    · rw [if_pos hi, if_pos hi]
      cases n with
      | zero => rfl
      | succ n =>
        refine viewOf_append i tr' tr _ n ?_
        simp only [own, List.filter_cons, hi, decide_true, if_true, List.map_cons, List.length_cons] at h
        simp only [own]
        omega
    · rw [if_neg hi, if_neg hi]
      refine viewOf_append i tr' tr _ n ?_
      simpa only [own, List.filter_cons, hi, decide_false, Bool.false_eq_true, if_false] using h

omit [DecidableEq S] in
theorem own_other {i j : Nat} (h : i ≠ j) (tr : Trace S) (a : Access S) : own j (tr ++ [(i, a)]) = own j tr := by
  simp [own, h]

omit [DecidableEq S] in
theorem own_same (i : Nat) (tr : Trace S) (a : Access S) : own i (tr ++ [(i, a)]) = own i tr ++ [a] := by
  simp [own]

theorem prefix_parted {A : Type} {l l' k : List A} {n : Nat} (hk : k <+: l) (hn : k.length ≤ n + 1) (h : l = l' ∨ Parted n l l') : k <+: l' := by
  rcases h with rfl | ⟨_, _, h⟩
  · exact hk
  · rw [List.prefix_iff_eq_take] at hk
    have : k = (l.take (n + 1)).take k.length := by rw [List.take_take, Nat.min_eq_left hn]; exact hk
    rw [this, h]
    exact (List.take_prefix _ _).trans (List.take_prefix _ _)

omit [DecidableEq S] in
theorem length_le_own : ∀ (n K : Nat) (tr : Trace S), (∀ x ∈ tr, x.1 < n) → (∀ i, (own i tr).length ≤ K) → tr.length ≤ n * K
  | 0, K, tr, h, _ => by
    rcases tr with _ | ⟨x, tr⟩
    · simp
    · exact absurd (h x (by simp)) (by omega)
  | n + 1, K, tr, h, hK => by
    have h1 := length_le_own n K (tr.filter fun x => x.1 < n) (fun x hx => by simpa using (List.mem_filter.1 hx).2) fun i => by
      refine Nat.le_trans (List.Sublist.length_le ?_) (hK i)
      exact (List.filter_sublist.filter _).map _
    have h2 : (tr.filter fun x => !decide (x.1 < n)).length ≤ K := by
      have he : (tr.filter fun x => !decide (x.1 < n)) = tr.filter fun x => x.1 = n := by
        refine List.filter_congr fun x hx => ?_
        have := h x hx
        by_cases hx' : x.1 < n
        · simp [hx', show ¬ x.1 = n by omega]
        · simp [hx', show x.1 = n by omega]
      rw [he]
      simpa [own] using hK n
    have h3 := (List.filter_append_perm (fun x : Nat × Access S => decide (x.1 < n)) tr).length_eq
    rw [List.length_append] at h3
    rw [Nat.succ_mul]
    omega

/-- What C86 says about the end of the command: at each moment each thread has ended or can go on, in one way only; no thread
makes more than `limit` accesses; so every execution can be continued to the end and there is no infinite one. -/
structure Ends (s : Setup S) (init : Sizes) (limit : Nat) : Prop where
  next : ∀ tr i, Possible s init tr → i < s.entries.length →
    log s i (viewOf i init tr) = some (own i tr) ∨ ∃ a, Possible s init (tr ++ [(i, a)])
  determined : ∀ tr i a b, Possible s init (tr ++ [(i, a)]) → Possible s init (tr ++ [(i, b)]) → a = b
  limited : ∀ tr i, Possible s init tr → (own i tr).length ≤ limit
  short : ∀ tr, Possible s init tr → tr.length ≤ s.entries.length * limit
  finish : ∀ tr, Possible s init tr → ∃ tr', Complete s init (tr ++ tr')

theorem ends_of {init : Sizes} (hs : StatsSetting s init D) {B : Nat} (hc : ∀ i, CausalCodec B (s.codec i)) {L : Nat}
    (hL : ∀ i, accessLimit B (s.codec i) + 1 ≤ L) (hp : ∀ tr i, Possible s init tr → log s i (viewOf i init tr) ≠ none) :
    Ends s init L := by
  have hlen : ∀ i v l, log s i v = some l → l.length ≤ L := by
    intro i v l h
    obtain ⟨act, ha, he⟩ := log_part hs hc hL i
    rw [he] at h
    rcases hr : act ⟨v, []⟩ with _ | ⟨t, x⟩
    · rw [hr] at h; exact nomatch h
    rw [hr] at h
    cases h
    simpa using (ha.grows _ _ _ hr).2.2
  have hagree : ∀ i n v v' l l', (∀ m, m < n → v m = v' m) → log s i v = some l → log s i v' = some l' → l = l' ∨ Parted n l l' := by
    intro i n v v' l l' hv h h'
    obtain ⟨act, ha, he⟩ := log_part hs hc hL i
    rw [he] at h h'
    rcases hr : act ⟨v, []⟩ with _ | ⟨t, x⟩
    · rw [hr] at h; exact nomatch h
    rcases hr' : act ⟨v', []⟩ with _ | ⟨t', x'⟩
    · rw [hr'] at h'; exact nomatch h'
    rw [hr] at h
    rw [hr'] at h'
    cases h; cases h'
    rcases ha.agree n ⟨v, []⟩ ⟨v', []⟩ t t' x x' rfl hv hr hr' with ⟨h1, _⟩ | h1
    · exact .inl h1
    · exact .inr h1
  -- what a thread has done is what it does
  have hown : ∀ tr, Possible s init tr → ∀ i l, log s i (viewOf i init tr) = some l → own i tr <+: l := by
    intro tr h
    induction h with
    | start => intro i l _; exact List.nil_prefix
    | @step tr l i a h hl ha ih =>
      intro j l' hl'
      by_cases hj : i = j
      · subst hj
        rw [own_same]
        refine prefix_parted (n := (own i tr).length) ha (by simp) (hagree i _ _ _ l l' (fun m hm => ?_) hl hl')
        exact (viewOf_append i _ tr init m hm).symm
      · rw [own_other hj]
        rcases hlj : log s j (viewOf j init tr) with _ | k
        · exact absurd hlj (hp tr j h)
        refine prefix_parted (n := (own j tr).length) (ih j k hlj) (by omega) (hagree j _ _ _ k l' (fun m hm => ?_) hlj hl')
        exact (viewOf_append j _ tr init m hm).symm
  have hnext : ∀ tr i, Possible s init tr → i < s.entries.length →
      log s i (viewOf i init tr) = some (own i tr) ∨ ∃ a, Possible s init (tr ++ [(i, a)]) := by
    intro tr i h _
    rcases hl : log s i (viewOf i init tr) with _ | l
    · exact absurd hl (hp tr i h)
    obtain ⟨k, hk⟩ := hown tr h i l hl
    rcases k with _ | ⟨a, k⟩
    · left
      rw [← hk, List.append_nil]
    · right
      exact ⟨a, .step i a h hl ⟨k, by rw [← hk]; simp⟩⟩
  have hlim : ∀ tr i, Possible s init tr → (own i tr).length ≤ L := by
    intro tr i h
    rcases hl : log s i (viewOf i init tr) with _ | l
    · exact absurd hl (hp tr i h)
    exact Nat.le_trans (hown tr h i l hl).length_le (hlen i _ l hl)
  have hshort : ∀ tr, Possible s init tr → tr.length ≤ s.entries.length * L := by
    intro tr h
    refine length_le_own _ _ tr ?_ fun i => hlim tr i h
    clear hlim hnext hown hagree hlen
    induction h with
    | start => intro x hx; exact nomatch hx
    | @step tr l i a h hl ha ih =>
      intro x hx
      rcases List.mem_append.1 hx with hx | hx
      · exact ih x hx
      · rw [List.mem_singleton.1 hx]
        by_cases hlt : i < s.entries.length
        · exact hlt
        · have : log s i (viewOf i init tr) = some [] := by
            unfold log
            rw [List.getElem?_eq_none (by omega)]
          rw [this, Option.some.injEq] at hl
          subst hl
          exact absurd (ha.subset (by simp : a ∈ own i tr ++ [a])) (by simp)
  refine ⟨hnext, ?_, hlim, hshort, ?_⟩
  · intro tr i a b h h'
    have key : ∀ (x : Access S) tr0, Possible s init tr0 → tr0 = tr ++ [(i, x)] →
        ∃ l, log s i (viewOf i init tr) = some l ∧ own i tr ++ [x] <+: l := by
      intro x tr0 h0 e0
      cases h0 with
      | start => simp at e0
      | @step tr1 l j y h1 hl ha =>
        obtain ⟨e1, e2⟩ := List.append_inj' e0 rfl
        subst e1
        simp only [List.cons.injEq, Prod.mk.injEq, and_true] at e2
        obtain ⟨rfl, rfl⟩ := e2
        exact ⟨l, hl, ha⟩
    obtain ⟨l, h1, h2⟩ := key a _ h rfl
    obtain ⟨l', h3, h4⟩ := key b _ h' rfl
    rw [h1, Option.some.injEq] at h3
    subst h3
    have h5 := List.prefix_of_prefix_length_le h2 h4 (by simp)
    have h6 := h5.eq_of_length (by simp)
    rw [List.append_cancel_left_eq] at h6
    exact (List.cons.inj h6).1
  · suffices ∀ n tr, Possible s init tr → s.entries.length * L ≤ tr.length + n → ∃ tr', Complete s init (tr ++ tr') from
      fun tr h => this _ tr h (Nat.le_add_left _ _)
    intro n
    induction n with
    | zero =>
      intro tr h hle
      suffices hall : ∀ i, i < s.entries.length → log s i (viewOf i init tr) = some (own i tr) from
        ⟨[], by rw [List.append_nil]; exact ⟨h, hall⟩⟩
      intro i hi
      rcases hnext tr i h hi with h1 | ⟨a, h1⟩
      · exact h1
      · have := hshort _ h1
        rw [List.length_append, List.length_singleton] at this
        omega
    | succ n ih =>
      intro tr h hle
      by_cases hall : ∀ i, i < s.entries.length → log s i (viewOf i init tr) = some (own i tr)
      · exact ⟨[], by rw [List.append_nil]; exact ⟨h, hall⟩⟩
      · rw [Classical.not_forall] at hall
        obtain ⟨i, hi⟩ := hall
        rw [Classical.not_imp] at hi
        rcases hnext tr i h hi.1 with h1 | ⟨a, h1⟩
        · exact absurd h1 hi.2
        · obtain ⟨tr', h2⟩ := ih _ h1 (by rw [List.length_append, List.length_singleton]; omega)
          exact ⟨[(i, a)] ++ tr', by rw [← List.append_assoc]; exact h2⟩

end

/-- **C86** (BC1), the end: a thread accesses the cache and the list of results at most 37 times. -/
theorem C86_bc1_ends (s : Setup ColourSettings) (m : Machine) (useAll : Bool) (init : Sizes) (hf : s.format = .bc1)
    (hd : s.dflt = Bc1.defaultSettings) (hc : s.codec = fun i => DebugStats.bc1 (s.env i) m useAll)
    (hs : StatsSetting s init (AskedBy s (Asked1 m))) : Ends s init 37 :=
  ends_of hs (B := 16) (fun i => by rw [hc]; exact bc1_causal _ _ _) (fun i => by rw [hc]; exact (by decide : 2 * allColour.length + 16 + 4 + 1 ≤ 37)) (C86_bc1 s m useAll init hf hd hc hs).noPanic

/-- **C86** (BC1 with `--experimental-normalize`), the end. -/
theorem C86_bc1_normalize_ends (s : Setup ColourSettings) (m : Machine) (useAll : Bool) (h : Nat → Norm.Bc1.Heap) (init : Sizes)
    (hf : s.format = .bc1) (hd : s.dflt = Bc1.defaultSettings)
    (hc : s.codec = fun i => (DebugBench.bc1 (s.env i) m useAll (some (h i))).toCodec)
    (hs : StatsSetting s init (AskedBy s (AskedNorm m))) : Ends s init 69 :=
  ends_of hs (B := 48) (fun i => by rw [hc]; exact bc1_normalize_causal _ _ _ _) (fun i => by rw [hc]; exact (by decide : 2 * allColour.length + 48 + 4 + 1 ≤ 69))
    (C86_bc1_normalize s m useAll h init hf hd hc hs).noPanic

/-- **C86** (BC2), the end. -/
theorem C86_bc2_ends (s : Setup ColourSettings) (m : Machine) (useAll : Bool) (init : Sizes) (hf : s.format = .bc2)
    (hd : s.dflt = Bc2.defaultSettings) (hc : s.codec = fun i => DebugStats.bc2 (s.env i) m useAll)
    (hs : StatsSetting s init (AskedBy s (Asked2 m))) : Ends s init 37 :=
  ends_of hs (B := 16) (fun i => by rw [hc]; exact bc2_causal _ _ _) (fun i => by rw [hc]; exact (by decide : 2 * allColour.length + 16 + 4 + 1 ≤ 37)) (C86_bc2 s m useAll init hf hd hc hs).noPanic

/-- **C86** (BC3), the end. -/
theorem C86_bc3_ends (s : Setup Bc3.Settings) (m : Machine) (useAll : Bool) (init : Sizes) (hf : s.format = .bc3)
    (hd : s.dflt = Bc3.defaultSettings) (hc : s.codec = fun i => DebugStats.bc3 (s.env i) m useAll)
    (hs : StatsSetting s init (AskedBy s (Asked3 m))) : Ends s init 101 :=
  ends_of hs (B := 64) (fun i => by rw [hc]; exact bc3_causal _ _ _) (fun i => by rw [hc]; exact (by decide : 2 * allBc3.length + 64 + 4 + 1 ≤ 101)) (C86_bc3 s m useAll init hf hd hc hs).noPanic

/-- The hypotheses can be met: the two threads with a texture can be stopped at any moment and go on to the end. -/
example : Ends exampleSetup [] 37 := C86_bc1_ends exampleSetup exampleMachine true [] rfl rfl rfl exampleSetup_works.1

set_option maxRecDepth 10000 in
/-- In the execution of `exampleExecution` the second thread makes 36 accesses, one less than the limit. -/
example : exampleExecution.map (fun tr => (tr.length, (own 1 tr).length)) = some (58, 36) := by decide +kernel

end Dlt.Props
