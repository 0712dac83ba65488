import Verif.Core.Basic

/-! Generated by tools/gen_md45.py from md4.h:462-521. -/

namespace Verif.Model.MD4

/-- The lambdas `round1`, `round2`, `round3` (md4.h:457-461, 479-483, 501-505). -/
inductive Round where
  | round1 | round2 | round3
  deriving DecidableEq

/-- One call: the lambda, which of the variables `aa`, `bb`, `cc`, `dd` (numbered 0 to 3) is passed
for each reference parameter, and the literals `k` and `s`. md4.h:457-521. -/
structure Call where
  rnd : Round
  a : Fin 4
  b : Fin 4
  c : Fin 4
  d : Fin 4
  k : Fin 16
  s : Nat
  deriving DecidableEq

/-- The calls in program order (md4.h:462-521). -/
def calls : List Call := [
  ⟨.round1, 0, 1, 2, 3, 0, 3⟩,
  ⟨.round1, 3, 0, 1, 2, 1, 7⟩,
  ⟨.round1, 2, 3, 0, 1, 2, 11⟩,
  ⟨.round1, 1, 2, 3, 0, 3, 19⟩,
  ⟨.round1, 0, 1, 2, 3, 4, 3⟩,
  ⟨.round1, 3, 0, 1, 2, 5, 7⟩,
  ⟨.round1, 2, 3, 0, 1, 6, 11⟩,
  ⟨.round1, 1, 2, 3, 0, 7, 19⟩,
  ⟨.round1, 0, 1, 2, 3, 8, 3⟩,
  ⟨.round1, 3, 0, 1, 2, 9, 7⟩,
  ⟨.round1, 2, 3, 0, 1, 10, 11⟩,
  ⟨.round1, 1, 2, 3, 0, 11, 19⟩,
  ⟨.round1, 0, 1, 2, 3, 12, 3⟩,
  ⟨.round1, 3, 0, 1, 2, 13, 7⟩,
  ⟨.round1, 2, 3, 0, 1, 14, 11⟩,
  ⟨.round1, 1, 2, 3, 0, 15, 19⟩,
  ⟨.round2, 0, 1, 2, 3, 0, 3⟩,
  ⟨.round2, 3, 0, 1, 2, 4, 5⟩,
  ⟨.round2, 2, 3, 0, 1, 8, 9⟩,
  ⟨.round2, 1, 2, 3, 0, 12, 13⟩,
  ⟨.round2, 0, 1, 2, 3, 1, 3⟩,
  ⟨.round2, 3, 0, 1, 2, 5, 5⟩,
  ⟨.round2, 2, 3, 0, 1, 9, 9⟩,
  ⟨.round2, 1, 2, 3, 0, 13, 13⟩,
  ⟨.round2, 0, 1, 2, 3, 2, 3⟩,
  ⟨.round2, 3, 0, 1, 2, 6, 5⟩,
  ⟨.round2, 2, 3, 0, 1, 10, 9⟩,
  ⟨.round2, 1, 2, 3, 0, 14, 13⟩,
  ⟨.round2, 0, 1, 2, 3, 3, 3⟩,
  ⟨.round2, 3, 0, 1, 2, 7, 5⟩,
  ⟨.round2, 2, 3, 0, 1, 11, 9⟩,
  ⟨.round2, 1, 2, 3, 0, 15, 13⟩,
  ⟨.round3, 0, 1, 2, 3, 0, 3⟩,
  ⟨.round3, 3, 0, 1, 2, 8, 9⟩,
  ⟨.round3, 2, 3, 0, 1, 4, 11⟩,
  ⟨.round3, 1, 2, 3, 0, 12, 15⟩,
  ⟨.round3, 0, 1, 2, 3, 2, 3⟩,
  ⟨.round3, 3, 0, 1, 2, 10, 9⟩,
  ⟨.round3, 2, 3, 0, 1, 6, 11⟩,
  ⟨.round3, 1, 2, 3, 0, 14, 15⟩,
  ⟨.round3, 0, 1, 2, 3, 1, 3⟩,
  ⟨.round3, 3, 0, 1, 2, 9, 9⟩,
  ⟨.round3, 2, 3, 0, 1, 5, 11⟩,
  ⟨.round3, 1, 2, 3, 0, 13, 15⟩,
  ⟨.round3, 0, 1, 2, 3, 3, 3⟩,
  ⟨.round3, 3, 0, 1, 2, 11, 9⟩,
  ⟨.round3, 2, 3, 0, 1, 7, 11⟩,
  ⟨.round3, 1, 2, 3, 0, 15, 15⟩]

end Verif.Model.MD4
