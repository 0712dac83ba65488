import Verif.Core.Basic

/-! Generated by tools/gen_has_sm3.py from has_160.h. -/

namespace Verif.Model.HAS160

/-- `lTable` (has_160.h:453-459). -/
def lTable : Vector (Fin 20) 80 := #v[
  18, 0, 1, 2, 3, 19, 4, 5, 6, 7, 16, 8, 9, 10, 11, 17, 12, 13, 14, 15,
  18, 3, 6, 9, 12, 19, 15, 2, 5, 8, 16, 11, 14, 1, 4, 17, 7, 10, 13, 0,
  18, 12, 5, 14, 7, 19, 0, 9, 2, 11, 16, 4, 13, 6, 15, 17, 8, 1, 10, 3,
  18, 7, 2, 13, 8, 19, 3, 14, 9, 4, 16, 15, 10, 5, 0, 17, 11, 6, 1, 12]

/-- The lambdas `round1` .. `round4`. has_160.h:479, 507, 535, 563. -/
inductive Round where
  | r1 | r2 | r3 | r4
  deriving DecidableEq

/-- One call: the lambda, which of the variables `a`, `b`, `c`, `d`, `e` (numbered 0 to 4) is passed
for each parameter, and the literals `s1`, `t`. has_160.h:485-589. -/
structure Call where
  rnd : Round
  a : Fin 5
  b : Fin 5
  c : Fin 5
  d : Fin 5
  e : Fin 5
  s1 : Nat
  t : Fin 80
  deriving DecidableEq

/-- The calls after `extendXTable(0)` (has_160.h:486-505). -/
def seg0 : List Call := [
  ⟨.r1, 0, 1, 2, 3, 4, 5, 0⟩,
  ⟨.r1, 4, 0, 1, 2, 3, 11, 1⟩,
  ⟨.r1, 3, 4, 0, 1, 2, 7, 2⟩,
  ⟨.r1, 2, 3, 4, 0, 1, 15, 3⟩,
  ⟨.r1, 1, 2, 3, 4, 0, 6, 4⟩,
  ⟨.r1, 0, 1, 2, 3, 4, 13, 5⟩,
  ⟨.r1, 4, 0, 1, 2, 3, 8, 6⟩,
  ⟨.r1, 3, 4, 0, 1, 2, 14, 7⟩,
  ⟨.r1, 2, 3, 4, 0, 1, 7, 8⟩,
  ⟨.r1, 1, 2, 3, 4, 0, 12, 9⟩,
  ⟨.r1, 0, 1, 2, 3, 4, 9, 10⟩,
  ⟨.r1, 4, 0, 1, 2, 3, 11, 11⟩,
  ⟨.r1, 3, 4, 0, 1, 2, 8, 12⟩,
  ⟨.r1, 2, 3, 4, 0, 1, 15, 13⟩,
  ⟨.r1, 1, 2, 3, 4, 0, 6, 14⟩,
  ⟨.r1, 0, 1, 2, 3, 4, 12, 15⟩,
  ⟨.r1, 4, 0, 1, 2, 3, 9, 16⟩,
  ⟨.r1, 3, 4, 0, 1, 2, 14, 17⟩,
  ⟨.r1, 2, 3, 4, 0, 1, 5, 18⟩,
  ⟨.r1, 1, 2, 3, 4, 0, 13, 19⟩]

/-- The calls after `extendXTable(20)` (has_160.h:514-533). -/
def seg1 : List Call := [
  ⟨.r2, 0, 1, 2, 3, 4, 5, 20⟩,
  ⟨.r2, 4, 0, 1, 2, 3, 11, 21⟩,
  ⟨.r2, 3, 4, 0, 1, 2, 7, 22⟩,
  ⟨.r2, 2, 3, 4, 0, 1, 15, 23⟩,
  ⟨.r2, 1, 2, 3, 4, 0, 6, 24⟩,
  ⟨.r2, 0, 1, 2, 3, 4, 13, 25⟩,
  ⟨.r2, 4, 0, 1, 2, 3, 8, 26⟩,
  ⟨.r2, 3, 4, 0, 1, 2, 14, 27⟩,
  ⟨.r2, 2, 3, 4, 0, 1, 7, 28⟩,
  ⟨.r2, 1, 2, 3, 4, 0, 12, 29⟩,
  ⟨.r2, 0, 1, 2, 3, 4, 9, 30⟩,
  ⟨.r2, 4, 0, 1, 2, 3, 11, 31⟩,
  ⟨.r2, 3, 4, 0, 1, 2, 8, 32⟩,
  ⟨.r2, 2, 3, 4, 0, 1, 15, 33⟩,
  ⟨.r2, 1, 2, 3, 4, 0, 6, 34⟩,
  ⟨.r2, 0, 1, 2, 3, 4, 12, 35⟩,
  ⟨.r2, 4, 0, 1, 2, 3, 9, 36⟩,
  ⟨.r2, 3, 4, 0, 1, 2, 14, 37⟩,
  ⟨.r2, 2, 3, 4, 0, 1, 5, 38⟩,
  ⟨.r2, 1, 2, 3, 4, 0, 13, 39⟩]

/-- The calls after `extendXTable(40)` (has_160.h:542-561). -/
def seg2 : List Call := [
  ⟨.r3, 0, 1, 2, 3, 4, 5, 40⟩,
  ⟨.r3, 4, 0, 1, 2, 3, 11, 41⟩,
  ⟨.r3, 3, 4, 0, 1, 2, 7, 42⟩,
  ⟨.r3, 2, 3, 4, 0, 1, 15, 43⟩,
  ⟨.r3, 1, 2, 3, 4, 0, 6, 44⟩,
  ⟨.r3, 0, 1, 2, 3, 4, 13, 45⟩,
  ⟨.r3, 4, 0, 1, 2, 3, 8, 46⟩,
  ⟨.r3, 3, 4, 0, 1, 2, 14, 47⟩,
  ⟨.r3, 2, 3, 4, 0, 1, 7, 48⟩,
  ⟨.r3, 1, 2, 3, 4, 0, 12, 49⟩,
  ⟨.r3, 0, 1, 2, 3, 4, 9, 50⟩,
  ⟨.r3, 4, 0, 1, 2, 3, 11, 51⟩,
  ⟨.r3, 3, 4, 0, 1, 2, 8, 52⟩,
  ⟨.r3, 2, 3, 4, 0, 1, 15, 53⟩,
  ⟨.r3, 1, 2, 3, 4, 0, 6, 54⟩,
  ⟨.r3, 0, 1, 2, 3, 4, 12, 55⟩,
  ⟨.r3, 4, 0, 1, 2, 3, 9, 56⟩,
  ⟨.r3, 3, 4, 0, 1, 2, 14, 57⟩,
  ⟨.r3, 2, 3, 4, 0, 1, 5, 58⟩,
  ⟨.r3, 1, 2, 3, 4, 0, 13, 59⟩]

/-- The calls after `extendXTable(60)` (has_160.h:570-589). -/
def seg3 : List Call := [
  ⟨.r4, 0, 1, 2, 3, 4, 5, 60⟩,
  ⟨.r4, 4, 0, 1, 2, 3, 11, 61⟩,
  ⟨.r4, 3, 4, 0, 1, 2, 7, 62⟩,
  ⟨.r4, 2, 3, 4, 0, 1, 15, 63⟩,
  ⟨.r4, 1, 2, 3, 4, 0, 6, 64⟩,
  ⟨.r4, 0, 1, 2, 3, 4, 13, 65⟩,
  ⟨.r4, 4, 0, 1, 2, 3, 8, 66⟩,
  ⟨.r4, 3, 4, 0, 1, 2, 14, 67⟩,
  ⟨.r4, 2, 3, 4, 0, 1, 7, 68⟩,
  ⟨.r4, 1, 2, 3, 4, 0, 12, 69⟩,
  ⟨.r4, 0, 1, 2, 3, 4, 9, 70⟩,
  ⟨.r4, 4, 0, 1, 2, 3, 11, 71⟩,
  ⟨.r4, 3, 4, 0, 1, 2, 8, 72⟩,
  ⟨.r4, 2, 3, 4, 0, 1, 15, 73⟩,
  ⟨.r4, 1, 2, 3, 4, 0, 6, 74⟩,
  ⟨.r4, 0, 1, 2, 3, 4, 12, 75⟩,
  ⟨.r4, 4, 0, 1, 2, 3, 9, 76⟩,
  ⟨.r4, 3, 4, 0, 1, 2, 14, 77⟩,
  ⟨.r4, 2, 3, 4, 0, 1, 5, 78⟩,
  ⟨.r4, 1, 2, 3, 4, 0, 13, 79⟩]

end Verif.Model.HAS160
