import Verif.Lemmas.Bc3Bytes
/-! Halves and quarters of loaded words, in either byte order. -/

namespace Dlt

theorem of64_big_rev (a b c d f g h i : Byte) :
    of64 .big [a, b, c, d, f, g, h, i] = of64 .little [i, h, g, f, d, c, b, a] := rfl

theorem to32_big_rev (w : U32) : to32 .big w = (to32 .little w).reverse := rfl
theorem to16_big_rev (w : U16) : to16 .big w = (to16 .little w).reverse := rfl

theorem to32_half64 (a b c d f g h i : Byte) :
    to32 .little ((of64 .little [a, b, c, d, f, g, h, i]).setWidth 32) = [a, b, c, d] := by
  simpa using to32_shift64 a b c d f g h i 0 (by omega)

theorem to32_half64' (a b c d f g h i : Byte) :
    to32 .little ((of64 .little [a, b, c, d, f, g, h, i] >>> 32).setWidth 32) = [f, g, h, i] := by
  simpa using to32_shift64 a b c d f g h i 4 (by omega)

/-- Step over one scalar load at `base + o`. -/
macro "klds " base:term:max o:term:max : tactic => `(tactic|
  (apply Ok.bind
   first
    | refine Ok.ld16At $base $o (by first | rfl | omega | (simp only <;> omega)) (by first | omega | (simp only <;> omega)) ?_
    | refine Ok.ld32At $base $o (by first | rfl | omega | (simp only <;> omega)) (by first | omega | (simp only <;> omega)) ?_
    | refine Ok.ld64At $base $o (by first | rfl | omega | (simp only <;> omega)) (by first | omega | (simp only <;> omega)) ?_))

theorem Ok.last {m : Option Buf} {Q : Buf → Prop} (h : Ok (m >>= fun x => Pure.pure x) Q) : Ok m Q := by
  simpa using h

/-- Step over one gather. -/
macro "kgather" : tactic => `(tactic|
  (apply Ok.bind
   refine Ok.gather32 _ (by intro o ho; simp at ho; omega) ?_))

end Dlt
