import Verif.Model.Caches
/-! Lemmas on the caches. -/

namespace Dlt.Cache

theorem Sizes.get_insert (m : Sizes) (k k' : Key) (n : Nat) :
    (m.insert k n).get k' = if k' = k then some n else m.get k' := by
  unfold Sizes.insert Sizes.get
  by_cases h : k' = k
  · subst h
    simp
  · rw [if_neg h, List.lookup_cons]
    have hb : (k' == k) = false := by simpa using h
    rw [hb]
    induction m with
    | nil => rfl
    | cons e m ih =>
      rw [List.filter_cons]
      by_cases he : e.1 = k
      · simp only [ne_eq, he, not_true_eq_false, decide_false, Bool.false_eq_true, if_false]
        rw [List.lookup_cons]
        have : (k' == e.1) = false := by simpa [he] using h
        rw [this]
        simpa using ih
      · simp only [ne_eq, he, not_false_eq_true, decide_true, if_true]
        rw [List.lookup_cons, List.lookup_cons]
        cases k' == e.1
        · simpa using ih
        · rfl

/-- A pair for every key at most. -/
def Sizes.Ok (m : Sizes) : Prop := (m.map Prod.fst).Nodup

theorem Sizes.Ok.insert {m : Sizes} (h : m.Ok) (k : Key) (n : Nat) : (m.insert k n).Ok := by
  unfold Sizes.Ok Sizes.insert at *
  rw [List.map_cons, List.nodup_cons]
  constructor
  · simp
  · exact h.sublist (List.Sublist.map _ List.filter_sublist)

theorem Steps.trans {hash : Buf → BitVec 128} {a b c : State} (h : Steps hash a b) (h' : Steps hash b c) :
    Steps hash a c := by
  induction h' with
  | refl => exact h
  | tail _ s ih => exact .tail ih s

/-- A property of the shared state and a property of each call that no step of another call destroys. -/
theorem invariant {hash : Buf → BitVec 128} (I : Shared → Prop) (T : Shared → Call → Pc → Prop) {s₀ s : State}
    (h : Steps hash s₀ s) (hi : I s₀.shared) (ht : ∀ c pc, (c, pc) ∈ s₀.threads → T s₀.shared c pc)
    (hstart : ∀ sh c, I sh → T sh c c.begin)
    (hstep : ∀ c sh pc sh' pc', Local hash c sh pc sh' pc' → I sh → T sh c pc →
      I sh' ∧ T sh' c pc' ∧ ∀ c₂ pc₂, T sh c₂ pc₂ → T sh' c₂ pc₂) :
    I s.shared ∧ ∀ c pc, (c, pc) ∈ s.threads → T s.shared c pc := by
  induction h with
  | refl => exact ⟨hi, ht⟩
  | tail _ st ih =>
    obtain ⟨ih1, ih2⟩ := ih
    cases st with
    | start c =>
      refine ⟨ih1, fun c' pc' hm => ?_⟩
      rcases List.mem_append.mp hm with hm | hm
      · exact ih2 _ _ hm
      · rw [List.mem_singleton] at hm
        obtain ⟨h1, h2⟩ := Prod.mk.inj hm
        subst h1 h2
        exact hstart _ _ ih1
    | @work i c pc sh' pc' hget hl =>
      obtain ⟨h1, h2, h3⟩ := hstep c _ pc sh' pc' hl ih1 (ih2 _ _ (List.mem_of_getElem? hget))
      refine ⟨h1, fun c' pc'' hm => ?_⟩
      rcases List.mem_or_eq_of_mem_set hm with hm | hm
      · exact h3 _ _ (ih2 _ _ hm)
      · obtain ⟨e1, e2⟩ := Prod.mk.inj hm
        subst e1 e2
        exact h2

/-- Calls stay on the list. -/
theorem Step.keeps {hash : Buf → BitVec 128} {b c : State} (h : Step hash b c) {k : Call} {pc : Pc}
    (hm : (k, pc) ∈ b.threads) : ∃ pc', (k, pc') ∈ c.threads := by
  cases h with
  | start c => exact ⟨pc, List.mem_append_left _ hm⟩
  | @work i c pc₁ sh' pc' hget hl =>
    have hlt : i < _ := (List.getElem?_eq_some_iff.mp hget).1
    obtain ⟨j, hj⟩ := List.mem_iff_getElem?.mp hm
    by_cases hij : i = j
    · subst hij
      rw [hget] at hj
      cases hj
      exact ⟨pc', List.mem_iff_getElem?.mpr ⟨i, by rw [List.getElem?_set_self hlt]⟩⟩
    · exact ⟨pc, List.mem_iff_getElem?.mpr ⟨j, by rw [List.getElem?_set_ne hij]; exact hj⟩⟩

theorem Steps.keeps {hash : Buf → BitVec 128} {b c : State} (h : Steps hash b c) {k : Call} {pc : Pc}
    (hm : (k, pc) ∈ b.threads) : ∃ pc', (k, pc') ∈ c.threads := by
  induction h with
  | refl => exact ⟨pc, hm⟩
  | tail _ st ih =>
    obtain ⟨pc', h'⟩ := ih
    exact st.keeps h'

end Dlt.Cache

namespace Dlt.Cache

theorem writeAt_length (b : Buf) (off : Nat) (bs : Buf) (h : 0 < bs.length) :
    (writeAt b off bs).length = max b.length (off + bs.length) := by
  unfold writeAt
  simp only [List.length_append, List.length_take, List.length_replicate, List.length_drop]
  omega

theorem writeAt_before {b : Buf} {off : Nat} {bs : Buf} {i : Nat} (h : i < off) (hb : i < b.length) :
    (writeAt b off bs)[i]? = b[i]? := by
  unfold writeAt
  rw [List.append_assoc, List.append_assoc, List.getElem?_append_left (by rw [List.length_take]; omega),
    List.getElem?_take_of_lt h]

theorem writeAt_gap {b : Buf} {off : Nat} {bs : Buf} {i : Nat} (h : i < off) (hb : b.length ≤ i) :
    (writeAt b off bs)[i]? = some 0 := by
  unfold writeAt
  rw [List.append_assoc, List.append_assoc, List.getElem?_append_right (by rw [List.length_take]; omega),
    List.getElem?_append_left (by rw [List.length_take, List.length_replicate]; omega),
    List.getElem?_replicate, if_pos (by rw [List.length_take]; omega)]

theorem writeAt_inside {b : Buf} {off : Nat} {bs : Buf} {i : Nat} (h : off ≤ i) (hb : i < off + bs.length) :
    (writeAt b off bs)[i]? = bs[i - off]? := by
  unfold writeAt
  have hl : (b.take off ++ List.replicate (off - b.length) (0 : Byte)).length = off := by
    rw [List.length_append, List.length_take, List.length_replicate]
    omega
  rw [List.append_assoc (b.take off ++ _), List.getElem?_append_right (by rw [hl]; exact h), hl,
    List.getElem?_append_left (by omega)]

theorem writeAt_after {b : Buf} {off : Nat} {bs : Buf} {i : Nat} (h : off + bs.length ≤ i) :
    (writeAt b off bs)[i]? = b[i]? := by
  unfold writeAt
  have hl : (b.take off ++ List.replicate (off - b.length) (0 : Byte) ++ bs).length = off + bs.length := by
    rw [List.length_append, List.length_append, List.length_take, List.length_replicate]
    omega
  rw [List.getElem?_append_right (by rw [hl]; exact h), hl, List.getElem?_drop]
  congr 1
  omega

end Dlt.Cache
