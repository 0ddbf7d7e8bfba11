import Verif.Props.DryRun
import Verif.Props.CacheLock
/-!
# The dry run can end
-/

namespace Dlt.Props

open Dlt.Cache Dlt.DebugIo Dlt.DebugStats Dlt.DebugBench Dlt.DryRun
open Dlt.Dds Dlt.FileFormats Dlt.FileIo Dlt.FileIo.Prog Dlt.Cli
open Dlt.StatsCommand (Tape Causal CausalCodec CausalEstimator Parted front)

section
variable {S : Type} {s : Setup S} {D : Buf → Prop} {T : Buf → S → Buf} {B : Nat} {sizes : Sizes} {files : List Char → Option Buf}

theorem Leads.trans {ok : Pc → Pc → Prop} {a b c : DryRun.State} (h : Leads s ok a b) (h' : Leads s ok b c) : Leads s ok a c := by
  induction h with
  | refl => exact h'
  | head hs _ ih => exact .head hs (ih h')

/-- A state without failures. -/
structure Good (s : Setup S) (sizes : Sizes) (files : List Char → Option Buf) (st : DryRun.State) : Prop where
  reached : Reached s NoErrors sizes files st
  written : ∀ d l a, .writeFailed d l a ∉ st.shared.made

/-- Only thread `i` has changed. -/
def OnlyThread (i : Nat) (st st' : DryRun.State) : Prop := ∀ j, j ≠ i → st'.threads j = st.threads j

/-- From here call `c` of thread `i` can end. -/
def CanEnd (s : Setup S) (sizes : Sizes) (files : List Char → Option Buf) (i : Nat) (c : Call) (pc : Pc) : Prop :=
  ∀ st, Good s sizes files st → (st.threads i).now = some (c, pc) →
    ∃ st' r, Leads s NoErrors st st' ∧ Good s sizes files st' ∧ st'.threads i = ⟨(st.threads i).past, some (c, .done r)⟩ ∧ OnlyThread i st st'

theorem CanEnd.done (i : Nat) (c : Call) (r : Reply) : CanEnd s sizes files i c (.done r) := by
  intro st hst hn
  refine ⟨st, r, .refl _, hst, ?_, fun _ _ => rfl⟩
  rw [← hn]

theorem CanEnd.step {i : Nat} {c : Call} {pc : Pc} (h : ∀ sh, FileThere s sh.files c pc → ∃ sh' pc', Local s.hash c sh pc sh' pc' ∧
    FromCompressor s.raw c pc pc' ∧ NoErrors pc pc' ∧ (∀ d l a, .writeFailed d l a ∈ sh'.made → .writeFailed d l a ∈ sh.made) ∧
    CanEnd s sizes files i c pc') : CanEnd s sizes files i c pc := by
  intro st hst hn
  obtain ⟨sh', pc', h1, h2, h3, h4, h5⟩ := h st.shared ((ended_well hst.reached i).2 c pc hn)
  obtain ⟨st', r, h9, h6, h7, h8⟩ := h5 _ ⟨.step hst.reached (.work i hn h1 h2 h3), fun d l a hm => hst.written d l a (h4 d l a hm)⟩
    (by rw [State.set_same])
  refine ⟨st', r, .head (.work i hn h1 h2 h3) h9, h6, by rw [h7, State.set_same], fun j hj => ?_⟩
  rw [h8 j hj, State.set_other _ hj]

theorem can_end (hc : ∀ l d, (s.raw.compress l d).isSome) (i : Nat) (c : Call) (hz : ∀ d l a, c = .compress d l a → a = .zstandard) (pc : Pc)
    (hf : PcFits c pc = true) (hp : pc ≠ .panicked) : CanEnd s sizes files i c pc := by
  cases c with
  | size d l a =>
    have storing : ∀ n, CanEnd s sizes files i (.size d l a) (.storing n) := fun n => .step fun sh _ =>
      ⟨_, _, .store, trivial, trivial, (fun _ _ _ h => h), .done _ _ _⟩
    have estimating : CanEnd s sizes files i (.size d l a) .estimating := .step fun sh _ =>
      ⟨_, _, .estimated (n := 0), trivial, (fun h => nomatch h), (fun _ _ _ h => by simpa using h), storing _⟩
    cases pc <;> simp only [PcFits, Bool.false_eq_true] at hf
    · refine .step fun sh _ => ?_
      rcases hg : sh.sizes.get ⟨s.hash d, l, a⟩ with _ | n
      · exact ⟨_, _, .miss hg, trivial, trivial, (fun _ _ _ h => h), estimating⟩
      · exact ⟨_, _, .hit hg, trivial, trivial, (fun _ _ _ h => h), .done _ _ _⟩
    · exact estimating
    · exact storing _
    · exact .done _ _ _
  | compress d l a =>
    obtain rfl := hz d l a rfl
    have recording : ∀ out, CanEnd s sizes files i (.compress d l .zstandard) (.recording out) := fun out => .step fun sh _ =>
      ⟨_, _, .record, trivial, trivial, (fun _ _ _ h => h), .done _ _ _⟩
    have written : ∀ out off, out.length ≤ off → CanEnd s sizes files i (.compress d l .zstandard) (.writing out off) :=
      fun out off ho => .step fun sh _ => ⟨_, _, .writeEnd ho, trivial, trivial, (fun _ _ _ h => h), recording _⟩
    have writing : ∀ out off, CanEnd s sizes files i (.compress d l .zstandard) (.writing out off) := by
      intro out off
      by_cases ho : out.length ≤ off
      · exact written out off ho
      · refine .step fun sh ht => ?_
        obtain ⟨b, hb⟩ := Option.ne_none_iff_exists'.1 ht
        exact ⟨_, _, .write (m := out.length - off) hb (by omega) (by omega), trivial, trivial, (fun _ _ _ h => h),
          written _ _ (by omega)⟩
    have creating : ∀ out, CanEnd s sizes files i (.compress d l .zstandard) (.creating out) := fun out => .step fun sh _ =>
      ⟨_, _, .create, trivial, trivial, (fun _ _ _ h => h), writing _ _⟩
    have makingDir : ∀ out, CanEnd s sizes files i (.compress d l .zstandard) (.makingDir out) := fun out => .step fun sh _ =>
      ⟨_, _, .madeDir, trivial, trivial, (fun _ _ _ h => h), creating _⟩
    have compressing : CanEnd s sizes files i (.compress d l .zstandard) .compressing := by
      refine .step fun sh _ => ?_
      obtain ⟨out, ho⟩ := Option.isSome_iff_exists.1 (hc l d)
      exact ⟨_, _, .compressed (out := out) rfl, by simp [FromCompressor, ho], (fun h => nomatch h), (fun _ _ _ h => by simpa using h),
        makingDir _⟩
    have readAll : ∀ got, CanEnd s sizes files i (.compress d l .zstandard) (.reading got) := by
      intro got st hst hn
      have ht := (ended_well hst.reached i).2 _ _ hn
      obtain ⟨b, hb⟩ := Option.ne_none_iff_exists'.1 ht
      have last : ∀ (st : DryRun.State) got, Good s sizes files st → (st.threads i).now = some (.compress d l .zstandard, .reading got) →
          st.shared.files (fileName ⟨s.hash d, l, .zstandard⟩) = some b → b.length ≤ got.length →
          ∃ st' r, Leads s NoErrors st st' ∧ Good s sizes files st' ∧ st'.threads i = ⟨(st.threads i).past, some (.compress d l .zstandard, .done r)⟩ ∧
            OnlyThread i st st' := fun st got hst hn hb hle =>
        ⟨_, .data got, .head (.work i hn (.readEnd hb hle) trivial (fun h => nomatch h)) (.refl _), ⟨.step hst.reached (.work i hn (.readEnd hb hle) trivial (fun h => nomatch h)), hst.written⟩,
          by rw [State.set_same], fun j hj => by rw [State.set_other _ hj]⟩
      by_cases hle : b.length ≤ got.length
      · exact last st got hst hn hb hle
      · obtain ⟨st', r, h0, h1, h2, h3⟩ := last _ (got ++ (b.drop got.length).take b.length)
          ⟨.step hst.reached (.work i hn (.read (m := b.length) hb (by omega) (by omega)) trivial (fun h => nomatch h)), hst.written⟩
          (by rw [State.set_same]) hb (by simp; omega)
        exact ⟨st', r, .head (.work i hn (.read (m := b.length) hb (by omega) (by omega)) trivial (fun h => nomatch h)) h0, h1, by rw [h2, State.set_same], fun j hj => by rw [h3 j hj, State.set_other _ hj]⟩
    have opening : CanEnd s sizes files i (.compress d l .zstandard) .opening := .step fun sh _ =>
      ⟨_, _, .openOk, trivial, (fun h => nomatch h), (fun _ _ _ h => h), readAll _⟩
    cases pc <;> simp only [PcFits, Bool.false_eq_true] at hf
    · refine .step fun sh _ => ?_
      rcases hg : sh.files (fileName ⟨s.hash d, l, .zstandard⟩) with _ | b
      · exact ⟨_, _, .absent hg, trivial, trivial, (fun _ _ _ h => h), compressing⟩
      · exact ⟨_, _, .present hg, trivial, trivial, (fun _ _ _ h => h), opening⟩
    · exact opening
    · exact readAll _
    · exact compressing
    · exact makingDir _
    · exact creating _
    · exact writing _ _
    · exact recording _
    · exact .done _ _ _
    · exact absurd rfl hp

/-- Where the threads are. -/
theorem threads_fit (hs : DrySetting s D T B) {ok : Pc → Pc → Prop} {st : DryRun.State} (h : Reached s ok sizes files st) (i : Nat) :
    (s.entries.length ≤ i → (st.threads i).now = none) ∧
    ∀ c pc, (st.threads i).now = some (c, pc) → PcFits c pc = true ∧ pc ≠ .panicked := by
  have hall := made_ok hs h i
  have hz : ∀ d l a pc, (st.threads i).now = some (.compress d l a, pc) → a = .zstandard := fun d l a pc hn =>
    (hall (.compress d l a) (by simp [callsMade, hn])).2.2
  clear hall
  induction h generalizing i with
  | start => exact ⟨fun _ => rfl, fun _ _ h => nomatch h⟩
  | @step st st' h hstep ih =>
    have ih' := ih i (fun d l a pc hn => (made_ok hs h i (.compress d l a) (by simp [callsMade, hn])).2.2)
    cases hstep with
    | @call j view l c hj hn hv hl hc =>
      by_cases hij : i = j
      · subst hij
        rw [State.set_same]
        refine ⟨fun h => by omega, fun c' pc' hc' => ?_⟩
        cases hc'
        cases c <;> exact ⟨rfl, by simp [Call.begin]⟩
      · rw [State.set_other _ hij]
        exact ih'
    | @work j c pc pc' sh' hn hloc hr ho =>
      by_cases hij : i = j
      · subst hij
        rw [State.set_same] at hz ⊢
        refine ⟨fun h => ?_, fun c' pc'' hc' => ?_⟩
        · rw [ih'.1 h] at hn; exact nomatch hn
        · cases hc'
          refine ⟨fits_local hloc, ?_⟩
          rintro rfl
          cases hloc with
          | @unsupported d l a _ ha =>
            rw [hz d l a _ rfl] at ha
            exact nomatch ha
      · rw [State.set_other _ hij]
        exact ih'
    | @back j c r hn =>
      by_cases hij : i = j
      · subst hij
        rw [State.set_same]
        exact ⟨fun _ => rfl, fun _ _ h => nomatch h⟩
      · rw [State.set_other _ hij]
        exact ih'

/-- Thread `i` has made all its calls. -/
def ThreadDone (s : Setup S) (i : Nat) (st : DryRun.State) : Prop :=
  (st.threads i).now = none ∧ ∃ view l, Saw (st.threads i).past view ∧ calls s i view = some l ∧ l.length = (st.threads i).past.length

theorem thread_can_end (hs : DrySetting s D T B) (hc : ∀ l d, (s.raw.compress l d).isSome) {i : Nat} (hi : i < s.entries.length) :
    ∀ (n : Nat) (st : DryRun.State), Good s sizes files st →
    2 * (B + ((s.codec i).scenarios.length + 2) - (st.threads i).past.length) + (if (st.threads i).now.isNone then 1 else 0) ≤ n →
    ∃ st', Leads s NoErrors st st' ∧ Good s sizes files st' ∧ ThreadDone s i st' ∧ OnlyThread i st st' := by
  intro n
  induction n with
  | zero =>
    intro st hst hn
    exfalso
    rcases hnow : (st.threads i).now with _ | ⟨c, pc⟩
    · simp [hnow] at hn
    · let v : Nat → Option Nat := fun k => ((st.threads i).past[k]?).bind fun e => outcome e.2
      obtain ⟨l, h1, _, h2⟩ := calls_total hs i v
      have hsaw : Saw (st.threads i).past v := fun k c r hk => by simp only [v, hk, Option.bind_some]
      have h3 := (made_prefix hs hst.reached i v l hsaw h1).length_le
      simp [callsMade, hnow] at h3
      omega
  | succ n ih =>
    intro st hst hn
    let v : Nat → Option Nat := fun k => ((st.threads i).past[k]?).bind fun e => outcome e.2
    obtain ⟨l, h1, h1', h2⟩ := calls_total hs i v
    have hsaw : Saw (st.threads i).past v := fun k c r hk => by simp only [v, hk, Option.bind_some]
    have hpre := made_prefix hs hst.reached i v l hsaw h1
    have h3 := hpre.length_le
    rcases hnow : (st.threads i).now with _ | ⟨c, pc⟩
    · rw [hnow] at hn
      simp only [Option.isNone_none, if_true] at hn
      simp only [callsMade, hnow, Option.map_none, Option.toList_none, List.append_nil, List.length_map] at h3
      by_cases heq : l.length = (st.threads i).past.length
      · exact ⟨st, .refl _, hst, ⟨hnow, v, l, hsaw, h1, heq⟩, fun _ _ => rfl⟩
      · have hlt : (st.threads i).past.length < l.length := by omega
        obtain ⟨st', h0, h4, h5, h6⟩ := ih _ ⟨.step hst.reached (.call i v hi hnow hsaw h1 (List.getElem?_eq_getElem hlt)), hst.written⟩ (by
          rw [State.set_same]
          simp only [Option.isNone_some, Bool.false_eq_true, if_false]
          omega)
        exact ⟨st', .head (.call i v hi hnow hsaw h1 (List.getElem?_eq_getElem hlt)) h0, h4, h5, fun j hj => by rw [h6 j hj, State.set_other _ hj]⟩
    · rw [hnow] at hn
      simp only [Option.isNone_some, Bool.false_eq_true, if_false] at hn
      simp only [callsMade, hnow, Option.map_some, Option.toList_some, List.length_append, List.length_map, List.length_singleton] at h3
      obtain ⟨hfit, hpan⟩ := (threads_fit hs hst.reached i).2 c pc hnow
      have hz : ∀ d l a, c = .compress d l a → a = .zstandard := fun d l a he => by
        subst he
        exact (made_ok hs hst.reached i (.compress d l a) (by simp [callsMade, hnow])).2.2
      obtain ⟨st1, r, h40, h4, h5, h6⟩ := can_end hc i c hz pc hfit hpan st hst hnow
      have hnow1 : (st1.threads i).now = some (c, .done r) := by rw [h5]
      obtain ⟨st', h70, h7, h8, h9⟩ := ih _ ⟨.step h4.reached (.back i hnow1), h4.written⟩ (by
        rw [State.set_same, h5]
        simp only [Option.isNone_none, if_true, List.length_append, List.length_singleton]
        omega)
      exact ⟨st', Leads.trans h40 (.head (.back i hnow1) h70), h7, h8, fun j hj => by rw [h9 j hj, State.set_other _ hj, h6 j hj]⟩

/-- Whatever has happened so far, if nothing fails from now on, the dry run can end: no thread waits for another. -/
theorem dry_can_end (hs : DrySetting s D T B) (hc : ∀ l d, (s.raw.compress l d).isSome) {st : DryRun.State} (hst : Good s sizes files st) :
    ∃ st', Leads s NoErrors st st' ∧ Good s sizes files st' ∧ Finished s st' := by
  have some_done : ∀ k, k ≤ s.entries.length → ∃ st', Leads s NoErrors st st' ∧ Good s sizes files st' ∧ ∀ i, i < k → ThreadDone s i st' := by
    intro k
    induction k with
    | zero => exact fun _ => ⟨st, .refl _, hst, fun i hi => by omega⟩
    | succ k ih =>
      intro hk
      obtain ⟨st1, h0, h1, h2⟩ := ih (by omega)
      obtain ⟨st2, h30, h3, h4, h5⟩ := thread_can_end hs hc (i := k) (by omega) _ st1 h1 (Nat.le_refl _)
      refine ⟨st2, Leads.trans h0 h30, h3, fun i hi => ?_⟩
      by_cases hik : i = k
      · subst hik; exact h4
      · have := h2 i (by omega)
        unfold ThreadDone at this ⊢
        rw [h5 i hik]
        exact this
  obtain ⟨st', h0, h1, h2⟩ := some_done _ (Nat.le_refl _)
  refine ⟨st', h0, h1, fun i => ?_, fun i hi => (h2 i hi).2⟩
  by_cases hi : i < s.entries.length
  · exact (h2 i hi).1
  · exact (threads_fit hs h1.reached i).1 (by omega)

end

end Dlt.Props
