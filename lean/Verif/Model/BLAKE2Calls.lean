import Verif.Core.Basic

/-! Generated by tools/gen_blake.py from blake2.h:534-629 and blake2s.h:468-547. -/

namespace Verif.Model.BLAKE2

/-- One use of the macro `blakeMix(v[a], v[b], v[c], v[d], m[x], m[y])`. blake2.h:523. -/
structure Call where
  (a b c d x y : Fin 16)
  deriving DecidableEq

/-- The 96 uses in program order (blake2.h:534-629). -/
def calls64 : List Call := [
  ⟨0, 4, 8, 12, 0, 1⟩,
  ⟨1, 5, 9, 13, 2, 3⟩,
  ⟨2, 6, 10, 14, 4, 5⟩,
  ⟨3, 7, 11, 15, 6, 7⟩,
  ⟨0, 5, 10, 15, 8, 9⟩,
  ⟨1, 6, 11, 12, 10, 11⟩,
  ⟨2, 7, 8, 13, 12, 13⟩,
  ⟨3, 4, 9, 14, 14, 15⟩,
  ⟨0, 4, 8, 12, 14, 10⟩,
  ⟨1, 5, 9, 13, 4, 8⟩,
  ⟨2, 6, 10, 14, 9, 15⟩,
  ⟨3, 7, 11, 15, 13, 6⟩,
  ⟨0, 5, 10, 15, 1, 12⟩,
  ⟨1, 6, 11, 12, 0, 2⟩,
  ⟨2, 7, 8, 13, 11, 7⟩,
  ⟨3, 4, 9, 14, 5, 3⟩,
  ⟨0, 4, 8, 12, 11, 8⟩,
  ⟨1, 5, 9, 13, 12, 0⟩,
  ⟨2, 6, 10, 14, 5, 2⟩,
  ⟨3, 7, 11, 15, 15, 13⟩,
  ⟨0, 5, 10, 15, 10, 14⟩,
  ⟨1, 6, 11, 12, 3, 6⟩,
  ⟨2, 7, 8, 13, 7, 1⟩,
  ⟨3, 4, 9, 14, 9, 4⟩,
  ⟨0, 4, 8, 12, 7, 9⟩,
  ⟨1, 5, 9, 13, 3, 1⟩,
  ⟨2, 6, 10, 14, 13, 12⟩,
  ⟨3, 7, 11, 15, 11, 14⟩,
  ⟨0, 5, 10, 15, 2, 6⟩,
  ⟨1, 6, 11, 12, 5, 10⟩,
  ⟨2, 7, 8, 13, 4, 0⟩,
  ⟨3, 4, 9, 14, 15, 8⟩,
  ⟨0, 4, 8, 12, 9, 0⟩,
  ⟨1, 5, 9, 13, 5, 7⟩,
  ⟨2, 6, 10, 14, 2, 4⟩,
  ⟨3, 7, 11, 15, 10, 15⟩,
  ⟨0, 5, 10, 15, 14, 1⟩,
  ⟨1, 6, 11, 12, 11, 12⟩,
  ⟨2, 7, 8, 13, 6, 8⟩,
  ⟨3, 4, 9, 14, 3, 13⟩,
  ⟨0, 4, 8, 12, 2, 12⟩,
  ⟨1, 5, 9, 13, 6, 10⟩,
  ⟨2, 6, 10, 14, 0, 11⟩,
  ⟨3, 7, 11, 15, 8, 3⟩,
  ⟨0, 5, 10, 15, 4, 13⟩,
  ⟨1, 6, 11, 12, 7, 5⟩,
  ⟨2, 7, 8, 13, 15, 14⟩,
  ⟨3, 4, 9, 14, 1, 9⟩,
  ⟨0, 4, 8, 12, 12, 5⟩,
  ⟨1, 5, 9, 13, 1, 15⟩,
  ⟨2, 6, 10, 14, 14, 13⟩,
  ⟨3, 7, 11, 15, 4, 10⟩,
  ⟨0, 5, 10, 15, 0, 7⟩,
  ⟨1, 6, 11, 12, 6, 3⟩,
  ⟨2, 7, 8, 13, 9, 2⟩,
  ⟨3, 4, 9, 14, 8, 11⟩,
  ⟨0, 4, 8, 12, 13, 11⟩,
  ⟨1, 5, 9, 13, 7, 14⟩,
  ⟨2, 6, 10, 14, 12, 1⟩,
  ⟨3, 7, 11, 15, 3, 9⟩,
  ⟨0, 5, 10, 15, 5, 0⟩,
  ⟨1, 6, 11, 12, 15, 4⟩,
  ⟨2, 7, 8, 13, 8, 6⟩,
  ⟨3, 4, 9, 14, 2, 10⟩,
  ⟨0, 4, 8, 12, 6, 15⟩,
  ⟨1, 5, 9, 13, 14, 9⟩,
  ⟨2, 6, 10, 14, 11, 3⟩,
  ⟨3, 7, 11, 15, 0, 8⟩,
  ⟨0, 5, 10, 15, 12, 2⟩,
  ⟨1, 6, 11, 12, 13, 7⟩,
  ⟨2, 7, 8, 13, 1, 4⟩,
  ⟨3, 4, 9, 14, 10, 5⟩,
  ⟨0, 4, 8, 12, 10, 2⟩,
  ⟨1, 5, 9, 13, 8, 4⟩,
  ⟨2, 6, 10, 14, 7, 6⟩,
  ⟨3, 7, 11, 15, 1, 5⟩,
  ⟨0, 5, 10, 15, 15, 11⟩,
  ⟨1, 6, 11, 12, 9, 14⟩,
  ⟨2, 7, 8, 13, 3, 12⟩,
  ⟨3, 4, 9, 14, 13, 0⟩,
  ⟨0, 4, 8, 12, 0, 1⟩,
  ⟨1, 5, 9, 13, 2, 3⟩,
  ⟨2, 6, 10, 14, 4, 5⟩,
  ⟨3, 7, 11, 15, 6, 7⟩,
  ⟨0, 5, 10, 15, 8, 9⟩,
  ⟨1, 6, 11, 12, 10, 11⟩,
  ⟨2, 7, 8, 13, 12, 13⟩,
  ⟨3, 4, 9, 14, 14, 15⟩,
  ⟨0, 4, 8, 12, 14, 10⟩,
  ⟨1, 5, 9, 13, 4, 8⟩,
  ⟨2, 6, 10, 14, 9, 15⟩,
  ⟨3, 7, 11, 15, 13, 6⟩,
  ⟨0, 5, 10, 15, 1, 12⟩,
  ⟨1, 6, 11, 12, 0, 2⟩,
  ⟨2, 7, 8, 13, 11, 7⟩,
  ⟨3, 4, 9, 14, 5, 3⟩]

/-- The 80 uses in program order (blake2s.h:468-547). -/
def calls32 : List Call := [
  ⟨0, 4, 8, 12, 0, 1⟩,
  ⟨1, 5, 9, 13, 2, 3⟩,
  ⟨2, 6, 10, 14, 4, 5⟩,
  ⟨3, 7, 11, 15, 6, 7⟩,
  ⟨0, 5, 10, 15, 8, 9⟩,
  ⟨1, 6, 11, 12, 10, 11⟩,
  ⟨2, 7, 8, 13, 12, 13⟩,
  ⟨3, 4, 9, 14, 14, 15⟩,
  ⟨0, 4, 8, 12, 14, 10⟩,
  ⟨1, 5, 9, 13, 4, 8⟩,
  ⟨2, 6, 10, 14, 9, 15⟩,
  ⟨3, 7, 11, 15, 13, 6⟩,
  ⟨0, 5, 10, 15, 1, 12⟩,
  ⟨1, 6, 11, 12, 0, 2⟩,
  ⟨2, 7, 8, 13, 11, 7⟩,
  ⟨3, 4, 9, 14, 5, 3⟩,
  ⟨0, 4, 8, 12, 11, 8⟩,
  ⟨1, 5, 9, 13, 12, 0⟩,
  ⟨2, 6, 10, 14, 5, 2⟩,
  ⟨3, 7, 11, 15, 15, 13⟩,
  ⟨0, 5, 10, 15, 10, 14⟩,
  ⟨1, 6, 11, 12, 3, 6⟩,
  ⟨2, 7, 8, 13, 7, 1⟩,
  ⟨3, 4, 9, 14, 9, 4⟩,
  ⟨0, 4, 8, 12, 7, 9⟩,
  ⟨1, 5, 9, 13, 3, 1⟩,
  ⟨2, 6, 10, 14, 13, 12⟩,
  ⟨3, 7, 11, 15, 11, 14⟩,
  ⟨0, 5, 10, 15, 2, 6⟩,
  ⟨1, 6, 11, 12, 5, 10⟩,
  ⟨2, 7, 8, 13, 4, 0⟩,
  ⟨3, 4, 9, 14, 15, 8⟩,
  ⟨0, 4, 8, 12, 9, 0⟩,
  ⟨1, 5, 9, 13, 5, 7⟩,
  ⟨2, 6, 10, 14, 2, 4⟩,
  ⟨3, 7, 11, 15, 10, 15⟩,
  ⟨0, 5, 10, 15, 14, 1⟩,
  ⟨1, 6, 11, 12, 11, 12⟩,
  ⟨2, 7, 8, 13, 6, 8⟩,
  ⟨3, 4, 9, 14, 3, 13⟩,
  ⟨0, 4, 8, 12, 2, 12⟩,
  ⟨1, 5, 9, 13, 6, 10⟩,
  ⟨2, 6, 10, 14, 0, 11⟩,
  ⟨3, 7, 11, 15, 8, 3⟩,
  ⟨0, 5, 10, 15, 4, 13⟩,
  ⟨1, 6, 11, 12, 7, 5⟩,
  ⟨2, 7, 8, 13, 15, 14⟩,
  ⟨3, 4, 9, 14, 1, 9⟩,
  ⟨0, 4, 8, 12, 12, 5⟩,
  ⟨1, 5, 9, 13, 1, 15⟩,
  ⟨2, 6, 10, 14, 14, 13⟩,
  ⟨3, 7, 11, 15, 4, 10⟩,
  ⟨0, 5, 10, 15, 0, 7⟩,
  ⟨1, 6, 11, 12, 6, 3⟩,
  ⟨2, 7, 8, 13, 9, 2⟩,
  ⟨3, 4, 9, 14, 8, 11⟩,
  ⟨0, 4, 8, 12, 13, 11⟩,
  ⟨1, 5, 9, 13, 7, 14⟩,
  ⟨2, 6, 10, 14, 12, 1⟩,
  ⟨3, 7, 11, 15, 3, 9⟩,
  ⟨0, 5, 10, 15, 5, 0⟩,
  ⟨1, 6, 11, 12, 15, 4⟩,
  ⟨2, 7, 8, 13, 8, 6⟩,
  ⟨3, 4, 9, 14, 2, 10⟩,
  ⟨0, 4, 8, 12, 6, 15⟩,
  ⟨1, 5, 9, 13, 14, 9⟩,
  ⟨2, 6, 10, 14, 11, 3⟩,
  ⟨3, 7, 11, 15, 0, 8⟩,
  ⟨0, 5, 10, 15, 12, 2⟩,
  ⟨1, 6, 11, 12, 13, 7⟩,
  ⟨2, 7, 8, 13, 1, 4⟩,
  ⟨3, 4, 9, 14, 10, 5⟩,
  ⟨0, 4, 8, 12, 10, 2⟩,
  ⟨1, 5, 9, 13, 8, 4⟩,
  ⟨2, 6, 10, 14, 7, 6⟩,
  ⟨3, 7, 11, 15, 1, 5⟩,
  ⟨0, 5, 10, 15, 15, 11⟩,
  ⟨1, 6, 11, 12, 9, 14⟩,
  ⟨2, 7, 8, 13, 3, 12⟩,
  ⟨3, 4, 9, 14, 13, 0⟩]

end Verif.Model.BLAKE2
