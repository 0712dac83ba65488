import Verif.Core.Basic

/-! Generated by tools/gen_sha1.py from sha1.h:469-603. -/

namespace Verif.Model.SHA1

/-- The macros `sha1Round1`, `sha1Round1a`, .. `sha1Round4` (sha1.h:464, 491, 506, 529, 548, 579). -/
inductive Round where
  | r1 | r1a | r2 | r2a | r3 | r4
  deriving DecidableEq

/-- One macro call: the macro, which of the variables `a`, `b`, `c`, `d`, `e` (numbered 0 to 4) is
passed for each parameter, and the literal `t`. sha1.h:465-603. -/
structure Call where
  rnd : Round
  a : Fin 5
  b : Fin 5
  c : Fin 5
  d : Fin 5
  e : Fin 5
  t : Fin 80
  deriving DecidableEq

/-- The macro calls in program order (sha1.h:469-603). -/
def calls : List Call := [
  ⟨.r1, 0, 1, 2, 3, 4, 0⟩,
  ⟨.r1, 4, 0, 1, 2, 3, 1⟩,
  ⟨.r1, 3, 4, 0, 1, 2, 2⟩,
  ⟨.r1, 2, 3, 4, 0, 1, 3⟩,
  ⟨.r1, 1, 2, 3, 4, 0, 4⟩,
  ⟨.r1, 0, 1, 2, 3, 4, 5⟩,
  ⟨.r1, 4, 0, 1, 2, 3, 6⟩,
  ⟨.r1, 3, 4, 0, 1, 2, 7⟩,
  ⟨.r1, 2, 3, 4, 0, 1, 8⟩,
  ⟨.r1, 1, 2, 3, 4, 0, 9⟩,
  ⟨.r1, 0, 1, 2, 3, 4, 10⟩,
  ⟨.r1, 4, 0, 1, 2, 3, 11⟩,
  ⟨.r1, 3, 4, 0, 1, 2, 12⟩,
  ⟨.r1, 2, 3, 4, 0, 1, 13⟩,
  ⟨.r1, 1, 2, 3, 4, 0, 14⟩,
  ⟨.r1, 0, 1, 2, 3, 4, 15⟩,
  ⟨.r1a, 4, 0, 1, 2, 3, 16⟩,
  ⟨.r1a, 3, 4, 0, 1, 2, 17⟩,
  ⟨.r1a, 2, 3, 4, 0, 1, 18⟩,
  ⟨.r1a, 1, 2, 3, 4, 0, 19⟩,
  ⟨.r2, 0, 1, 2, 3, 4, 20⟩,
  ⟨.r2, 4, 0, 1, 2, 3, 21⟩,
  ⟨.r2, 3, 4, 0, 1, 2, 22⟩,
  ⟨.r2, 2, 3, 4, 0, 1, 23⟩,
  ⟨.r2, 1, 2, 3, 4, 0, 24⟩,
  ⟨.r2, 0, 1, 2, 3, 4, 25⟩,
  ⟨.r2, 4, 0, 1, 2, 3, 26⟩,
  ⟨.r2, 3, 4, 0, 1, 2, 27⟩,
  ⟨.r2, 2, 3, 4, 0, 1, 28⟩,
  ⟨.r2, 1, 2, 3, 4, 0, 29⟩,
  ⟨.r2, 0, 1, 2, 3, 4, 30⟩,
  ⟨.r2, 4, 0, 1, 2, 3, 31⟩,
  ⟨.r2a, 3, 4, 0, 1, 2, 32⟩,
  ⟨.r2a, 2, 3, 4, 0, 1, 33⟩,
  ⟨.r2a, 1, 2, 3, 4, 0, 34⟩,
  ⟨.r2a, 0, 1, 2, 3, 4, 35⟩,
  ⟨.r2a, 4, 0, 1, 2, 3, 36⟩,
  ⟨.r2a, 3, 4, 0, 1, 2, 37⟩,
  ⟨.r2a, 2, 3, 4, 0, 1, 38⟩,
  ⟨.r2a, 1, 2, 3, 4, 0, 39⟩,
  ⟨.r3, 0, 1, 2, 3, 4, 40⟩,
  ⟨.r3, 4, 0, 1, 2, 3, 41⟩,
  ⟨.r3, 3, 4, 0, 1, 2, 42⟩,
  ⟨.r3, 2, 3, 4, 0, 1, 43⟩,
  ⟨.r3, 1, 2, 3, 4, 0, 44⟩,
  ⟨.r3, 0, 1, 2, 3, 4, 45⟩,
  ⟨.r3, 4, 0, 1, 2, 3, 46⟩,
  ⟨.r3, 3, 4, 0, 1, 2, 47⟩,
  ⟨.r3, 2, 3, 4, 0, 1, 48⟩,
  ⟨.r3, 1, 2, 3, 4, 0, 49⟩,
  ⟨.r3, 0, 1, 2, 3, 4, 50⟩,
  ⟨.r3, 4, 0, 1, 2, 3, 51⟩,
  ⟨.r3, 3, 4, 0, 1, 2, 52⟩,
  ⟨.r3, 2, 3, 4, 0, 1, 53⟩,
  ⟨.r3, 1, 2, 3, 4, 0, 54⟩,
  ⟨.r3, 0, 1, 2, 3, 4, 55⟩,
  ⟨.r3, 4, 0, 1, 2, 3, 56⟩,
  ⟨.r3, 3, 4, 0, 1, 2, 57⟩,
  ⟨.r3, 2, 3, 4, 0, 1, 58⟩,
  ⟨.r3, 1, 2, 3, 4, 0, 59⟩,
  ⟨.r4, 0, 1, 2, 3, 4, 60⟩,
  ⟨.r4, 4, 0, 1, 2, 3, 61⟩,
  ⟨.r4, 3, 4, 0, 1, 2, 62⟩,
  ⟨.r4, 2, 3, 4, 0, 1, 63⟩,
  ⟨.r4, 1, 2, 3, 4, 0, 64⟩,
  ⟨.r4, 0, 1, 2, 3, 4, 65⟩,
  ⟨.r4, 4, 0, 1, 2, 3, 66⟩,
  ⟨.r4, 3, 4, 0, 1, 2, 67⟩,
  ⟨.r4, 2, 3, 4, 0, 1, 68⟩,
  ⟨.r4, 1, 2, 3, 4, 0, 69⟩,
  ⟨.r4, 0, 1, 2, 3, 4, 70⟩,
  ⟨.r4, 4, 0, 1, 2, 3, 71⟩,
  ⟨.r4, 3, 4, 0, 1, 2, 72⟩,
  ⟨.r4, 2, 3, 4, 0, 1, 73⟩,
  ⟨.r4, 1, 2, 3, 4, 0, 74⟩,
  ⟨.r4, 0, 1, 2, 3, 4, 75⟩,
  ⟨.r4, 4, 0, 1, 2, 3, 76⟩,
  ⟨.r4, 3, 4, 0, 1, 2, 77⟩,
  ⟨.r4, 2, 3, 4, 0, 1, 78⟩,
  ⟨.r4, 1, 2, 3, 4, 0, 79⟩]

end Verif.Model.SHA1
