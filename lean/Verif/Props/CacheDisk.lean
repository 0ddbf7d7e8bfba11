import Verif.Props.Caches
/-!
# C63: the size cache on disk

`save_to_disk` truncates and rewrites the cache file in place.  Unlike the files of the data cache its contents
end where the encoded map ends, so that an interrupted save is noticed by the next `load_from_disk`.
-/

namespace Dlt.Props
open Dlt.Cache

/-- A decoder that has succeeded does not look at what follows. -/
def Stable {α : Type} (dec : Decoder α) : Prop :=
  ∀ b x r, dec b = some (x, r) → ∀ t, dec (b ++ t) = some (x, r ++ t)

theorem take_stable (n : Nat) : Stable (Cache.take n) := by
  intro b x r h t
  unfold Cache.take at *
  split at h
  · next hn =>
    cases h
    rw [if_pos (by rw [List.length_append]; omega), List.take_append_of_le_length hn,
      List.drop_append_of_le_length hn]
  · cases h

theorem decVar_stable (size : Nat) : Stable (decVar size) := by
  have key : ∀ n, Stable (fun b => (Cache.take n b).map (fun r => (ofLe r.1, r.2))) := by
    intro n b x r h t
    dsimp only at *
    cases ht : Cache.take n b with
    | none => rw [ht] at h; cases h
    | some y =>
      rw [ht] at h
      cases h
      rw [take_stable n b y.1 y.2 ht t]
      rfl
  intro b x r h t
  cases b with
  | nil => cases h
  | cons m b =>
    rw [List.cons_append]
    unfold decVar at h ⊢
    dsimp only at h ⊢
    by_cases h1 : m.toNat < 251
    · rw [if_pos h1] at h ⊢
      cases h
      rfl
    rw [if_neg h1] at h ⊢
    by_cases h2 : m = 251
    · rw [if_pos h2] at h ⊢
      exact key 2 b x r h t
    rw [if_neg h2] at h ⊢
    by_cases h3 : m = 252 ∧ 4 ≤ size
    · rw [if_pos h3] at h ⊢
      exact key 4 b x r h t
    rw [if_neg h3] at h ⊢
    by_cases h4 : m = 253 ∧ 8 ≤ size
    · rw [if_pos h4] at h ⊢
      exact key 8 b x r h t
    rw [if_neg h4] at h ⊢
    by_cases h5 : m = 254 ∧ 16 ≤ size
    · rw [if_pos h5] at h ⊢
      exact key 16 b x r h t
    rw [if_neg h5] at h
    cases h

theorem decEntry_stable : Stable decEntry := by
  intro b x r h t
  unfold decEntry at *
  cases h1 : decVar 16 b with
  | none => rw [h1] at h; cases h
  | some y1 =>
    obtain ⟨v1, b1⟩ := y1
    rw [h1] at h
    rw [decVar_stable 16 b _ _ h1 t]
    dsimp only at *
    cases h2 : decVar 4 b1 with
    | none => rw [h2] at h; cases h
    | some y2 =>
      obtain ⟨v2, b2⟩ := y2
      rw [h2] at h
      rw [decVar_stable 4 b1 _ _ h2 t]
      dsimp only at *
      cases h3 : decVar 4 b2 with
      | none => rw [h3] at h; cases h
      | some y3 =>
        obtain ⟨v3, b3⟩ := y3
        rw [h3] at h
        rw [decVar_stable 4 b2 _ _ h3 t]
        dsimp only at *
        cases h4 : Algorithm.ofNumber v3 with
        | none => rw [h4] at h; cases h
        | some al =>
          rw [h4] at h
          dsimp only at *
          cases h5 : decVar 8 b3 with
          | none => rw [h5] at h; cases h
          | some y5 =>
            obtain ⟨v5, b5⟩ := y5
            rw [h5] at h
            rw [decVar_stable 8 b3 _ _ h5 t]
            cases h
            rfl

theorem decEntries_stable (n : Nat) : ∀ m, Stable (decEntries n m) := by
  induction n with
  | zero =>
    intro m b x r h t
    cases h
    rfl
  | succ n ih =>
    intro m b x r h t
    unfold decEntries at *
    cases h1 : decEntry b with
    | none => rw [h1] at h; cases h
    | some y =>
      obtain ⟨e, b1⟩ := y
      rw [h1] at h
      rw [decEntry_stable b _ _ h1 t]
      exact ih _ _ _ _ h t

theorem leBytes_length (n v : Nat) : (leBytes n v).length = n := by
  induction n generalizing v with
  | zero => rfl
  | succ n ih => rw [leBytes, List.length_cons, ih]

theorem ofLe_leBytes (n v : Nat) (h : v < 256 ^ n) : ofLe (leBytes n v) = v := by
  induction n generalizing v with
  | zero =>
    have : v = 0 := by simpa using h
    subst this
    rfl
  | succ n ih =>
    rw [leBytes, ofLe, ih (v / 256) (by rw [Nat.div_lt_iff_lt_mul (by decide)]; rw [Nat.pow_succ] at h; exact h),
      BitVec.toNat_ofNat]
    omega

theorem take_append (b r : Buf) : Cache.take b.length (b ++ r) = some (b, r) := by
  unfold Cache.take
  rw [if_pos (by simp), List.take_left, List.drop_left]

theorem take_leBytes (n v : Nat) (h : v < 256 ^ n) (r : Buf) :
    (Cache.take n (leBytes n v ++ r)).map (fun r => (ofLe r.1, r.2)) = some (v, r) := by
  have := take_append (leBytes n v) r
  rw [leBytes_length] at this
  rw [this]
  simp only [Option.map_some, ofLe_leBytes n v h]

theorem decVar_encVar (size v : Nat) (h : v < 256 ^ size) (hs : size = 4 ∨ size = 8 ∨ size = 16) (r : Buf) :
    decVar size (encVar v ++ r) = some (v, r) := by
  have h4 : size = 4 → v < 2 ^ 32 := fun e => by subst e; exact lt_of_lt_of_le h (by norm_num)
  have h8 : size = 8 → v < 2 ^ 64 := fun e => by subst e; exact lt_of_lt_of_le h (by norm_num)
  have h16 : size = 16 → v < 256 ^ 16 := fun e => by subst e; exact h
  unfold encVar
  split
  · next h1 =>
    have : (BitVec.ofNat 8 v).toNat = v := by rw [BitVec.toNat_ofNat]; omega
    simp only [List.cons_append, List.nil_append, decVar, this]
    rw [if_pos h1]
  split
  · next h1 h2 =>
    simp only [List.cons_append, decVar]
    rw [if_neg (by decide), if_pos trivial]
    exact take_leBytes 2 v (by omega) r
  split
  · next h1 h2 h3 =>
    simp only [List.cons_append, decVar]
    rw [if_neg (by decide), if_neg (by decide), if_pos ⟨trivial, by omega⟩]
    exact take_leBytes 4 v (by omega) r
  split
  · next h1 h2 h3 h5 =>
    simp only [List.cons_append, decVar]
    rw [if_neg (by decide), if_neg (by decide), if_neg (fun e => absurd e.1 (by decide)), if_pos ⟨trivial, by omega⟩]
    exact take_leBytes 8 v (by omega) r
  · next h1 h2 h3 h5 =>
    have e : size = 16 := by omega
    simp only [List.cons_append, decVar]
    rw [if_neg (by decide), if_neg (by decide), if_neg (fun e => absurd e.1 (by decide)),
      if_neg (fun e => absurd e.1 (by decide)), if_pos ⟨trivial, by omega⟩]
    exact take_leBytes 16 v (h16 e) r

theorem zigzag_lt (l : BitVec 32) : zigzag l < 256 ^ 4 := by
  have h1 := BitVec.toInt_lt (x := l)
  have h2 := BitVec.le_toInt (x := l)
  unfold zigzag
  split <;> omega

theorem unzigzag_zigzag (l : BitVec 32) : unzigzag (zigzag l) = l := by
  have h1 := BitVec.toInt_lt (x := l)
  have h2 := BitVec.le_toInt (x := l)
  unfold unzigzag zigzag
  by_cases h : l.toInt < 0
  · rw [if_pos h, if_neg (by omega)]
    have : -(Int.ofNat ((2 * l.toInt.natAbs - 1) / 2)) - 1 = l.toInt := by
      have : Int.ofNat ((2 * l.toInt.natAbs - 1) / 2) = (((2 * l.toInt.natAbs - 1) / 2 : Nat) : Int) := rfl
      omega
    rw [this, BitVec.ofInt_toInt]
  · rw [if_neg h, if_pos (by omega)]
    have : 2 * l.toInt.natAbs / 2 = l.toInt.natAbs := by omega
    rw [this]
    apply BitVec.eq_of_toInt_eq
    have e : ((l.toInt.natAbs : Nat) : Int) = l.toInt := by omega
    rw [← BitVec.ofInt_natCast, e, BitVec.ofInt_toInt]

theorem ofNumber_number (a : Algorithm) : Algorithm.ofNumber a.number = some a := by cases a <;> rfl

theorem decEntry_encEntry (e : Key × Nat) (h : e.2 < 2 ^ 64) (r : Buf) :
    decEntry (encEntry e ++ r) = some (e, r) := by
  unfold decEntry encEntry
  rw [List.append_assoc, List.append_assoc, List.append_assoc,
    decVar_encVar 16 _ (lt_of_lt_of_le e.1.hash.isLt (by norm_num)) (by omega)]
  dsimp only
  rw [decVar_encVar 4 _ (zigzag_lt _) (by omega)]
  dsimp only
  rw [decVar_encVar 4 _ (by cases e.1.alg <;> decide) (by omega)]
  dsimp only
  rw [ofNumber_number]
  dsimp only
  rw [decVar_encVar 8 _ (lt_of_lt_of_le h (by norm_num)) (by omega), unzigzag_zigzag, BitVec.ofNat_toNat,
    BitVec.setWidth_eq]

/-- The values fit into a `usize`. -/
def Fits (m : Sizes) : Prop := m.length < 2 ^ 64 ∧ ∀ e ∈ m, e.2 < 2 ^ 64

theorem decEntries_encEntries (m : Sizes) (h : ∀ e ∈ m, e.2 < 2 ^ 64) (acc : Sizes) (r : Buf) :
    decEntries m.length acc (encEntries m ++ r) = some (m.foldl (fun a e => a.insert e.1 e.2) acc, r) := by
  induction m generalizing acc with
  | nil => rfl
  | cons e m ih =>
    rw [List.length_cons, decEntries, encEntries, List.append_assoc, decEntry_encEntry e (h e List.mem_cons_self)]
    dsimp only
    rw [ih (fun e he => h e (List.mem_cons_of_mem _ he)), List.foldl_cons]

theorem get_foldl (m : Sizes) (hm : m.Ok) (acc : Sizes) (k : Key) :
    (m.foldl (fun a e => a.insert e.1 e.2) acc).get k = (m.get k).or (acc.get k) := by
  induction m generalizing acc with
  | nil => rfl
  | cons e m ih =>
    have hm' := List.nodup_cons.mp hm
    rw [List.foldl_cons, ih hm'.2, Sizes.get_insert]
    by_cases hk : k = e.1
    · subst hk
      have h1 : Sizes.get m e.1 = none := by
        unfold Sizes.get
        rw [List.lookup_eq_none_iff]
        intro p hp
        rw [bne_iff_ne]
        intro he
        exact hm'.1 (he ▸ List.mem_map_of_mem hp)
      have h2 : Sizes.get (e :: m) e.1 = some e.2 := by
        unfold Sizes.get
        rw [List.lookup_cons, beq_self_eq_true]
      rw [h1, h2, if_pos rfl]
      rfl
    · have h2 : Sizes.get (e :: m) k = Sizes.get m k := by
        unfold Sizes.get
        rw [List.lookup_cons]
        have : (k == e.1) = false := by simpa using hk
        rw [this]
      rw [h2, if_neg hk]

/-- C63, undisturbed.  What `save_to_disk` has written, in whatever order the map iterates and whatever follows
in the file, `load_from_disk` restores. -/
theorem C63_save_load (m : Sizes) (hm : m.Ok) (hf : Fits m) (rest : Buf) (m₀ : Sizes) :
    ∃ m', load (some (encode m ++ rest)) m₀ = (m', true) ∧ ∀ k, m'.get k = m.get k := by
  refine ⟨m.foldl (fun a e => a.insert e.1 e.2) [], ?_, fun k => ?_⟩
  · unfold load decode encode
    dsimp only
    rw [List.append_assoc, decVar_encVar 8 _ (lt_of_lt_of_le hf.1 (by norm_num)) (by omega)]
    dsimp only
    rw [decEntries_encEntries m hf.2]
  · rw [get_foldl m hm]
    cases m.get k <;> rfl

theorem decode_prefix (m : Sizes) (hf : Fits m) (p : Buf) (hp : p <+: encode m) (hne : p ≠ encode m) :
    decode p = none := by
  obtain ⟨t, ht⟩ := hp
  unfold decode
  cases h1 : decVar 8 p with
  | none => rfl
  | some y =>
    obtain ⟨n, b⟩ := y
    have s1 := decVar_stable 8 p _ _ h1 t
    rw [ht] at s1
    unfold encode at s1
    rw [decVar_encVar 8 _ (lt_of_lt_of_le hf.1 (by norm_num)) (by omega)] at s1
    have e1 : m.length = n := (Prod.mk.inj (Option.some.inj s1)).1
    have e2 : encEntries m = b ++ t := (Prod.mk.inj (Option.some.inj s1)).2
    subst e1
    dsimp only
    cases h2 : decEntries m.length [] b with
    | none => rfl
    | some z =>
      obtain ⟨m', r⟩ := z
      have s2 := decEntries_stable _ _ b _ _ h2 t
      rw [← e2] at s2
      have s3 := decEntries_encEntries m hf.2 [] []
      rw [List.append_nil] at s3
      rw [s3] at s2
      have e3 : ([] : Buf) = r ++ t := (Prod.mk.inj (Option.some.inj s2)).2
      have e4 : t = [] := (List.append_eq_nil_iff.mp e3.symm).2
      rw [e4, List.append_nil] at ht
      exact absurd ht hne

/-- C63.  After a crash at any point of `save_to_disk`, the next `load_from_disk` finds the file as it was
before, or restores exactly the sizes that were being saved, or reports an error and leaves the cache of the
process as it is. -/
theorem C63_crash (m : Sizes) (hm : m.Ok) (hf : Fits m) (old file : Option Buf) (h : SavePoint m old file)
    (m₀ : Sizes) :
    file = old ∨ load file m₀ = (m₀, false) ∨ ∃ m', load file m₀ = (m', true) ∧ ∀ k, m'.get k = m.get k := by
  cases h with
  | before => exact .inl rfl
  | during n =>
    right
    by_cases e : (encode m).take n = encode m
    · right
      rw [e]
      have := C63_save_load m hm hf [] m₀
      rw [List.append_nil] at this
      exact this
    · left
      unfold load
      dsimp only
      rw [decode_prefix m hf _ (List.take_prefix _ _) e]

/-- The cache of a process never has two sizes for a key, so that C63 applies to whatever is saved. -/
theorem C63_reachable (hash : Buf → BitVec 128) (loaded : Sizes) (hl : loaded.Ok)
    (files : List Char → Option Buf) (s : State) (h : Steps hash (initial loaded files) s) : s.shared.sizes.Ok := by
  refine (invariant (hash := hash) (fun sh => sh.sizes.Ok) (fun _ _ _ => True) h hl (fun _ _ _ => trivial)
    (fun _ _ _ => trivial) (fun c sh pc sh' pc' hl hI _ => ⟨?_, trivial, fun _ _ _ => trivial⟩)).1
  cases hl with
  | store => exact hI.insert _ _
  | record => exact hI.insert _ _
  | _ => exact hI

theorem foldl_ok (m acc : Sizes) (h : acc.Ok) : (m.foldl (fun a e => a.insert e.1 e.2) acc).Ok := by
  induction m generalizing acc with
  | nil => exact h
  | cons e m ih => exact ih _ (h.insert _ _)

theorem decEntries_ok (n : Nat) : ∀ (acc : Sizes) (b : Buf) m r, acc.Ok → decEntries n acc b = some (m, r) → m.Ok := by
  induction n with
  | zero =>
    intro acc b m r h e
    cases e
    exact h
  | succ n ih =>
    intro acc b m r h e
    unfold decEntries at e
    cases h1 : decEntry b with
    | none => rw [h1] at e; cases e
    | some y =>
      rw [h1] at e
      exact ih _ _ _ _ (h.insert _ _) e

/-- The same holds of what is loaded from any file. -/
theorem C63_loaded (file : Option Buf) (m₀ : Sizes) (h : m₀.Ok) : (load file m₀).1.Ok := by
  unfold load
  cases file with
  | none => exact h
  | some b =>
    dsimp only
    cases hd : decode b with
    | none => exact h
    | some m' =>
      unfold decode at hd
      cases h1 : decVar 8 b with
      | none => rw [h1] at hd; cases hd
      | some y =>
        rw [h1] at hd
        dsimp only at hd
        cases h2 : decEntries y.1 [] y.2 with
        | none => rw [h2] at hd; cases hd
        | some z =>
          rw [h2] at hd
          cases hd
          exact decEntries_ok y.1 [] y.2 z.1 z.2 List.nodup_nil h2

/-- **C63** (what is reported): without a cache file loading succeeds and what the process knows stays; when loading reports a failure,
what the process knows stays as well, there is a file, and it does not begin with what saving some map writes. -/
theorem C63_reported (m₀ : Sizes) :
    load none m₀ = (m₀, true) ∧
    ∀ file, (load file m₀).2 = false → (load file m₀).1 = m₀ ∧ ∃ b, file = some b ∧
      ∀ m : Sizes, m.Ok → Fits m → ∀ rest, b ≠ encode m ++ rest := by
  refine ⟨rfl, fun file h => ?_⟩
  cases file with
  | none => simp [load] at h
  | some b =>
    refine ⟨?_, b, rfl, fun m hm hf rest e => ?_⟩
    · unfold load at h ⊢
      cases hd : decode b with
      | none => simp [hd]
      | some m => simp [hd] at h
    · obtain ⟨m', h', -⟩ := C63_save_load m hm hf rest m₀
      rw [e, h'] at h
      simp at h

/-- A case of C63: a cache with two sizes, one of them large. -/
def exampleSizes : Sizes :=
  [(⟨0x0123456789abcdef0123456789abcdef, -3, .zstandard⟩, 70000), (⟨5, 16, .losslessTransformUtils⟩, 12)]

example : exampleSizes.Ok ∧ Fits exampleSizes := by
  refine ⟨by unfold Sizes.Ok; decide, by decide, ?_⟩
  decide
example : encode exampleSizes = [2, 254, 0xef, 0xcd, 0xab, 0x89, 0x67, 0x45, 0x23, 0x01, 0xef, 0xcd, 0xab, 0x89,
    0x67, 0x45, 0x23, 0x01, 5, 0, 252, 0x70, 0x11, 0x01, 0, 5, 32, 1, 12] := by decide +kernel
example : (load (some (encode exampleSizes)) []).2 = true ∧ (load (some ((encode exampleSizes).take 27)) []).2 = false := by
  decide +kernel

end Dlt.Props
