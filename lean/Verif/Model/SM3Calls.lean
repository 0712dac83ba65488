import Verif.Core.Basic

/-! Generated by tools/gen_has_sm3.py from sm3.h:498-577. -/

namespace Verif.Model.SM3

/-- The lambdas `sm3Round1`, `sm3Round2`. sm3.h:483, 515. -/
inductive Round where
  | r1 | r2
  deriving DecidableEq

/-- One call: the lambda, which of the variables `a`, `b`, `c`, `d` (numbered 0 to 3) is passed for
each of the first four parameters, which of `e`, `f`, `g`, `h` (numbered 0 to 3) for each of the next
four, and the literals `tTable`, `t`. sm3.h:483-577. -/
structure Call where
  rnd : Round
  a : Fin 4
  b : Fin 4
  c : Fin 4
  d : Fin 4
  e : Fin 4
  f : Fin 4
  g : Fin 4
  h : Fin 4
  k : W32
  t : Fin 64
  deriving DecidableEq

/-- The calls in program order. sm3.h:498-577. -/
def calls : List Call := [
  ⟨.r1, 0, 1, 2, 3, 0, 1, 2, 3, 0x79cc4519, 0⟩,
  ⟨.r1, 3, 0, 1, 2, 3, 0, 1, 2, 0xf3988a32, 1⟩,
  ⟨.r1, 2, 3, 0, 1, 2, 3, 0, 1, 0xe7311465, 2⟩,
  ⟨.r1, 1, 2, 3, 0, 1, 2, 3, 0, 0xce6228cb, 3⟩,
  ⟨.r1, 0, 1, 2, 3, 0, 1, 2, 3, 0x9cc45197, 4⟩,
  ⟨.r1, 3, 0, 1, 2, 3, 0, 1, 2, 0x3988a32f, 5⟩,
  ⟨.r1, 2, 3, 0, 1, 2, 3, 0, 1, 0x7311465e, 6⟩,
  ⟨.r1, 1, 2, 3, 0, 1, 2, 3, 0, 0xe6228cbc, 7⟩,
  ⟨.r1, 0, 1, 2, 3, 0, 1, 2, 3, 0xcc451979, 8⟩,
  ⟨.r1, 3, 0, 1, 2, 3, 0, 1, 2, 0x988a32f3, 9⟩,
  ⟨.r1, 2, 3, 0, 1, 2, 3, 0, 1, 0x311465e7, 10⟩,
  ⟨.r1, 1, 2, 3, 0, 1, 2, 3, 0, 0x6228cbce, 11⟩,
  ⟨.r1, 0, 1, 2, 3, 0, 1, 2, 3, 0xc451979c, 12⟩,
  ⟨.r1, 3, 0, 1, 2, 3, 0, 1, 2, 0x88a32f39, 13⟩,
  ⟨.r1, 2, 3, 0, 1, 2, 3, 0, 1, 0x11465e73, 14⟩,
  ⟨.r1, 1, 2, 3, 0, 1, 2, 3, 0, 0x228cbce6, 15⟩,
  ⟨.r2, 0, 1, 2, 3, 0, 1, 2, 3, 0x9d8a7a87, 16⟩,
  ⟨.r2, 3, 0, 1, 2, 3, 0, 1, 2, 0x3b14f50f, 17⟩,
  ⟨.r2, 2, 3, 0, 1, 2, 3, 0, 1, 0x7629ea1e, 18⟩,
  ⟨.r2, 1, 2, 3, 0, 1, 2, 3, 0, 0xec53d43c, 19⟩,
  ⟨.r2, 0, 1, 2, 3, 0, 1, 2, 3, 0xd8a7a879, 20⟩,
  ⟨.r2, 3, 0, 1, 2, 3, 0, 1, 2, 0xb14f50f3, 21⟩,
  ⟨.r2, 2, 3, 0, 1, 2, 3, 0, 1, 0x629ea1e7, 22⟩,
  ⟨.r2, 1, 2, 3, 0, 1, 2, 3, 0, 0xc53d43ce, 23⟩,
  ⟨.r2, 0, 1, 2, 3, 0, 1, 2, 3, 0x8a7a879d, 24⟩,
  ⟨.r2, 3, 0, 1, 2, 3, 0, 1, 2, 0x14f50f3b, 25⟩,
  ⟨.r2, 2, 3, 0, 1, 2, 3, 0, 1, 0x29ea1e76, 26⟩,
  ⟨.r2, 1, 2, 3, 0, 1, 2, 3, 0, 0x53d43cec, 27⟩,
  ⟨.r2, 0, 1, 2, 3, 0, 1, 2, 3, 0xa7a879d8, 28⟩,
  ⟨.r2, 3, 0, 1, 2, 3, 0, 1, 2, 0x4f50f3b1, 29⟩,
  ⟨.r2, 2, 3, 0, 1, 2, 3, 0, 1, 0x9ea1e762, 30⟩,
  ⟨.r2, 1, 2, 3, 0, 1, 2, 3, 0, 0x3d43cec5, 31⟩,
  ⟨.r2, 0, 1, 2, 3, 0, 1, 2, 3, 0x7a879d8a, 32⟩,
  ⟨.r2, 3, 0, 1, 2, 3, 0, 1, 2, 0xf50f3b14, 33⟩,
  ⟨.r2, 2, 3, 0, 1, 2, 3, 0, 1, 0xea1e7629, 34⟩,
  ⟨.r2, 1, 2, 3, 0, 1, 2, 3, 0, 0xd43cec53, 35⟩,
  ⟨.r2, 0, 1, 2, 3, 0, 1, 2, 3, 0xa879d8a7, 36⟩,
  ⟨.r2, 3, 0, 1, 2, 3, 0, 1, 2, 0x50f3b14f, 37⟩,
  ⟨.r2, 2, 3, 0, 1, 2, 3, 0, 1, 0xa1e7629e, 38⟩,
  ⟨.r2, 1, 2, 3, 0, 1, 2, 3, 0, 0x43cec53d, 39⟩,
  ⟨.r2, 0, 1, 2, 3, 0, 1, 2, 3, 0x879d8a7a, 40⟩,
  ⟨.r2, 3, 0, 1, 2, 3, 0, 1, 2, 0x0f3b14f5, 41⟩,
  ⟨.r2, 2, 3, 0, 1, 2, 3, 0, 1, 0x1e7629ea, 42⟩,
  ⟨.r2, 1, 2, 3, 0, 1, 2, 3, 0, 0x3cec53d4, 43⟩,
  ⟨.r2, 0, 1, 2, 3, 0, 1, 2, 3, 0x79d8a7a8, 44⟩,
  ⟨.r2, 3, 0, 1, 2, 3, 0, 1, 2, 0xf3b14f50, 45⟩,
  ⟨.r2, 2, 3, 0, 1, 2, 3, 0, 1, 0xe7629ea1, 46⟩,
  ⟨.r2, 1, 2, 3, 0, 1, 2, 3, 0, 0xcec53d43, 47⟩,
  ⟨.r2, 0, 1, 2, 3, 0, 1, 2, 3, 0x9d8a7a87, 48⟩,
  ⟨.r2, 3, 0, 1, 2, 3, 0, 1, 2, 0x3b14f50f, 49⟩,
  ⟨.r2, 2, 3, 0, 1, 2, 3, 0, 1, 0x7629ea1e, 50⟩,
  ⟨.r2, 1, 2, 3, 0, 1, 2, 3, 0, 0xec53d43c, 51⟩,
  ⟨.r2, 0, 1, 2, 3, 0, 1, 2, 3, 0xd8a7a879, 52⟩,
  ⟨.r2, 3, 0, 1, 2, 3, 0, 1, 2, 0xb14f50f3, 53⟩,
  ⟨.r2, 2, 3, 0, 1, 2, 3, 0, 1, 0x629ea1e7, 54⟩,
  ⟨.r2, 1, 2, 3, 0, 1, 2, 3, 0, 0xc53d43ce, 55⟩,
  ⟨.r2, 0, 1, 2, 3, 0, 1, 2, 3, 0x8a7a879d, 56⟩,
  ⟨.r2, 3, 0, 1, 2, 3, 0, 1, 2, 0x14f50f3b, 57⟩,
  ⟨.r2, 2, 3, 0, 1, 2, 3, 0, 1, 0x29ea1e76, 58⟩,
  ⟨.r2, 1, 2, 3, 0, 1, 2, 3, 0, 0x53d43cec, 59⟩,
  ⟨.r2, 0, 1, 2, 3, 0, 1, 2, 3, 0xa7a879d8, 60⟩,
  ⟨.r2, 3, 0, 1, 2, 3, 0, 1, 2, 0x4f50f3b1, 61⟩,
  ⟨.r2, 2, 3, 0, 1, 2, 3, 0, 1, 0x9ea1e762, 62⟩,
  ⟨.r2, 1, 2, 3, 0, 1, 2, 3, 0, 0x3d43cec5, 63⟩]

end Verif.Model.SM3
