import Verif.Core.Basic

/-! Generated by tools/gen_blake.py from blake1_256.h:495-619 (same calls in blake1_224.h) and
blake1_512.h:562-704 (same calls in blake1_384.h). -/

namespace Verif.Model.BLAKE

/-- One use of the macro `blakeMix(v[a], v[b], v[c], v[d], m[x], m[y], cTable[k1], cTable[k2])`. blake1_256.h:484. -/
structure Call where
  (a b c d x y k1 k2 : Fin 16)
  deriving DecidableEq

/-- The 112 uses in program order (blake1_256.h:495-619). -/
def calls32 : List Call := [
  ⟨0, 4, 8, 12, 0, 1, 1, 0⟩,
  ⟨1, 5, 9, 13, 2, 3, 3, 2⟩,
  ⟨2, 6, 10, 14, 4, 5, 5, 4⟩,
  ⟨3, 7, 11, 15, 6, 7, 7, 6⟩,
  ⟨0, 5, 10, 15, 8, 9, 9, 8⟩,
  ⟨1, 6, 11, 12, 10, 11, 11, 10⟩,
  ⟨2, 7, 8, 13, 12, 13, 13, 12⟩,
  ⟨3, 4, 9, 14, 14, 15, 15, 14⟩,
  ⟨0, 4, 8, 12, 14, 10, 10, 14⟩,
  ⟨1, 5, 9, 13, 4, 8, 8, 4⟩,
  ⟨2, 6, 10, 14, 9, 15, 15, 9⟩,
  ⟨3, 7, 11, 15, 13, 6, 6, 13⟩,
  ⟨0, 5, 10, 15, 1, 12, 12, 1⟩,
  ⟨1, 6, 11, 12, 0, 2, 2, 0⟩,
  ⟨2, 7, 8, 13, 11, 7, 7, 11⟩,
  ⟨3, 4, 9, 14, 5, 3, 3, 5⟩,
  ⟨0, 4, 8, 12, 11, 8, 8, 11⟩,
  ⟨1, 5, 9, 13, 12, 0, 0, 12⟩,
  ⟨2, 6, 10, 14, 5, 2, 2, 5⟩,
  ⟨3, 7, 11, 15, 15, 13, 13, 15⟩,
  ⟨0, 5, 10, 15, 10, 14, 14, 10⟩,
  ⟨1, 6, 11, 12, 3, 6, 6, 3⟩,
  ⟨2, 7, 8, 13, 7, 1, 1, 7⟩,
  ⟨3, 4, 9, 14, 9, 4, 4, 9⟩,
  ⟨0, 4, 8, 12, 7, 9, 9, 7⟩,
  ⟨1, 5, 9, 13, 3, 1, 1, 3⟩,
  ⟨2, 6, 10, 14, 13, 12, 12, 13⟩,
  ⟨3, 7, 11, 15, 11, 14, 14, 11⟩,
  ⟨0, 5, 10, 15, 2, 6, 6, 2⟩,
  ⟨1, 6, 11, 12, 5, 10, 10, 5⟩,
  ⟨2, 7, 8, 13, 4, 0, 0, 4⟩,
  ⟨3, 4, 9, 14, 15, 8, 8, 15⟩,
  ⟨0, 4, 8, 12, 9, 0, 0, 9⟩,
  ⟨1, 5, 9, 13, 5, 7, 7, 5⟩,
  ⟨2, 6, 10, 14, 2, 4, 4, 2⟩,
  ⟨3, 7, 11, 15, 10, 15, 15, 10⟩,
  ⟨0, 5, 10, 15, 14, 1, 1, 14⟩,
  ⟨1, 6, 11, 12, 11, 12, 12, 11⟩,
  ⟨2, 7, 8, 13, 6, 8, 8, 6⟩,
  ⟨3, 4, 9, 14, 3, 13, 13, 3⟩,
  ⟨0, 4, 8, 12, 2, 12, 12, 2⟩,
  ⟨1, 5, 9, 13, 6, 10, 10, 6⟩,
  ⟨2, 6, 10, 14, 0, 11, 11, 0⟩,
  ⟨3, 7, 11, 15, 8, 3, 3, 8⟩,
  ⟨0, 5, 10, 15, 4, 13, 13, 4⟩,
  ⟨1, 6, 11, 12, 7, 5, 5, 7⟩,
  ⟨2, 7, 8, 13, 15, 14, 14, 15⟩,
  ⟨3, 4, 9, 14, 1, 9, 9, 1⟩,
  ⟨0, 4, 8, 12, 12, 5, 5, 12⟩,
  ⟨1, 5, 9, 13, 1, 15, 15, 1⟩,
  ⟨2, 6, 10, 14, 14, 13, 13, 14⟩,
  ⟨3, 7, 11, 15, 4, 10, 10, 4⟩,
  ⟨0, 5, 10, 15, 0, 7, 7, 0⟩,
  ⟨1, 6, 11, 12, 6, 3, 3, 6⟩,
  ⟨2, 7, 8, 13, 9, 2, 2, 9⟩,
  ⟨3, 4, 9, 14, 8, 11, 11, 8⟩,
  ⟨0, 4, 8, 12, 13, 11, 11, 13⟩,
  ⟨1, 5, 9, 13, 7, 14, 14, 7⟩,
  ⟨2, 6, 10, 14, 12, 1, 1, 12⟩,
  ⟨3, 7, 11, 15, 3, 9, 9, 3⟩,
  ⟨0, 5, 10, 15, 5, 0, 0, 5⟩,
  ⟨1, 6, 11, 12, 15, 4, 4, 15⟩,
  ⟨2, 7, 8, 13, 8, 6, 6, 8⟩,
  ⟨3, 4, 9, 14, 2, 10, 10, 2⟩,
  ⟨0, 4, 8, 12, 6, 15, 15, 6⟩,
  ⟨1, 5, 9, 13, 14, 9, 9, 14⟩,
  ⟨2, 6, 10, 14, 11, 3, 3, 11⟩,
  ⟨3, 7, 11, 15, 0, 8, 8, 0⟩,
  ⟨0, 5, 10, 15, 12, 2, 2, 12⟩,
  ⟨1, 6, 11, 12, 13, 7, 7, 13⟩,
  ⟨2, 7, 8, 13, 1, 4, 4, 1⟩,
  ⟨3, 4, 9, 14, 10, 5, 5, 10⟩,
  ⟨0, 4, 8, 12, 10, 2, 2, 10⟩,
  ⟨1, 5, 9, 13, 8, 4, 4, 8⟩,
  ⟨2, 6, 10, 14, 7, 6, 6, 7⟩,
  ⟨3, 7, 11, 15, 1, 5, 5, 1⟩,
  ⟨0, 5, 10, 15, 15, 11, 11, 15⟩,
  ⟨1, 6, 11, 12, 9, 14, 14, 9⟩,
  ⟨2, 7, 8, 13, 3, 12, 12, 3⟩,
  ⟨3, 4, 9, 14, 13, 0, 0, 13⟩,
  ⟨0, 4, 8, 12, 0, 1, 1, 0⟩,
  ⟨1, 5, 9, 13, 2, 3, 3, 2⟩,
  ⟨2, 6, 10, 14, 4, 5, 5, 4⟩,
  ⟨3, 7, 11, 15, 6, 7, 7, 6⟩,
  ⟨0, 5, 10, 15, 8, 9, 9, 8⟩,
  ⟨1, 6, 11, 12, 10, 11, 11, 10⟩,
  ⟨2, 7, 8, 13, 12, 13, 13, 12⟩,
  ⟨3, 4, 9, 14, 14, 15, 15, 14⟩,
  ⟨0, 4, 8, 12, 14, 10, 10, 14⟩,
  ⟨1, 5, 9, 13, 4, 8, 8, 4⟩,
  ⟨2, 6, 10, 14, 9, 15, 15, 9⟩,
  ⟨3, 7, 11, 15, 13, 6, 6, 13⟩,
  ⟨0, 5, 10, 15, 1, 12, 12, 1⟩,
  ⟨1, 6, 11, 12, 0, 2, 2, 0⟩,
  ⟨2, 7, 8, 13, 11, 7, 7, 11⟩,
  ⟨3, 4, 9, 14, 5, 3, 3, 5⟩,
  ⟨0, 4, 8, 12, 11, 8, 8, 11⟩,
  ⟨1, 5, 9, 13, 12, 0, 0, 12⟩,
  ⟨2, 6, 10, 14, 5, 2, 2, 5⟩,
  ⟨3, 7, 11, 15, 15, 13, 13, 15⟩,
  ⟨0, 5, 10, 15, 10, 14, 14, 10⟩,
  ⟨1, 6, 11, 12, 3, 6, 6, 3⟩,
  ⟨2, 7, 8, 13, 7, 1, 1, 7⟩,
  ⟨3, 4, 9, 14, 9, 4, 4, 9⟩,
  ⟨0, 4, 8, 12, 7, 9, 9, 7⟩,
  ⟨1, 5, 9, 13, 3, 1, 1, 3⟩,
  ⟨2, 6, 10, 14, 13, 12, 12, 13⟩,
  ⟨3, 7, 11, 15, 11, 14, 14, 11⟩,
  ⟨0, 5, 10, 15, 2, 6, 6, 2⟩,
  ⟨1, 6, 11, 12, 5, 10, 10, 5⟩,
  ⟨2, 7, 8, 13, 4, 0, 0, 4⟩,
  ⟨3, 4, 9, 14, 15, 8, 8, 15⟩]

/-- The 128 uses in program order (blake1_512.h:562-704). -/
def calls64 : List Call := [
  ⟨0, 4, 8, 12, 0, 1, 1, 0⟩,
  ⟨1, 5, 9, 13, 2, 3, 3, 2⟩,
  ⟨2, 6, 10, 14, 4, 5, 5, 4⟩,
  ⟨3, 7, 11, 15, 6, 7, 7, 6⟩,
  ⟨0, 5, 10, 15, 8, 9, 9, 8⟩,
  ⟨1, 6, 11, 12, 10, 11, 11, 10⟩,
  ⟨2, 7, 8, 13, 12, 13, 13, 12⟩,
  ⟨3, 4, 9, 14, 14, 15, 15, 14⟩,
  ⟨0, 4, 8, 12, 14, 10, 10, 14⟩,
  ⟨1, 5, 9, 13, 4, 8, 8, 4⟩,
  ⟨2, 6, 10, 14, 9, 15, 15, 9⟩,
  ⟨3, 7, 11, 15, 13, 6, 6, 13⟩,
  ⟨0, 5, 10, 15, 1, 12, 12, 1⟩,
  ⟨1, 6, 11, 12, 0, 2, 2, 0⟩,
  ⟨2, 7, 8, 13, 11, 7, 7, 11⟩,
  ⟨3, 4, 9, 14, 5, 3, 3, 5⟩,
  ⟨0, 4, 8, 12, 11, 8, 8, 11⟩,
  ⟨1, 5, 9, 13, 12, 0, 0, 12⟩,
  ⟨2, 6, 10, 14, 5, 2, 2, 5⟩,
  ⟨3, 7, 11, 15, 15, 13, 13, 15⟩,
  ⟨0, 5, 10, 15, 10, 14, 14, 10⟩,
  ⟨1, 6, 11, 12, 3, 6, 6, 3⟩,
  ⟨2, 7, 8, 13, 7, 1, 1, 7⟩,
  ⟨3, 4, 9, 14, 9, 4, 4, 9⟩,
  ⟨0, 4, 8, 12, 7, 9, 9, 7⟩,
  ⟨1, 5, 9, 13, 3, 1, 1, 3⟩,
  ⟨2, 6, 10, 14, 13, 12, 12, 13⟩,
  ⟨3, 7, 11, 15, 11, 14, 14, 11⟩,
  ⟨0, 5, 10, 15, 2, 6, 6, 2⟩,
  ⟨1, 6, 11, 12, 5, 10, 10, 5⟩,
  ⟨2, 7, 8, 13, 4, 0, 0, 4⟩,
  ⟨3, 4, 9, 14, 15, 8, 8, 15⟩,
  ⟨0, 4, 8, 12, 9, 0, 0, 9⟩,
  ⟨1, 5, 9, 13, 5, 7, 7, 5⟩,
  ⟨2, 6, 10, 14, 2, 4, 4, 2⟩,
  ⟨3, 7, 11, 15, 10, 15, 15, 10⟩,
  ⟨0, 5, 10, 15, 14, 1, 1, 14⟩,
  ⟨1, 6, 11, 12, 11, 12, 12, 11⟩,
  ⟨2, 7, 8, 13, 6, 8, 8, 6⟩,
  ⟨3, 4, 9, 14, 3, 13, 13, 3⟩,
  ⟨0, 4, 8, 12, 2, 12, 12, 2⟩,
  ⟨1, 5, 9, 13, 6, 10, 10, 6⟩,
  ⟨2, 6, 10, 14, 0, 11, 11, 0⟩,
  ⟨3, 7, 11, 15, 8, 3, 3, 8⟩,
  ⟨0, 5, 10, 15, 4, 13, 13, 4⟩,
  ⟨1, 6, 11, 12, 7, 5, 5, 7⟩,
  ⟨2, 7, 8, 13, 15, 14, 14, 15⟩,
  ⟨3, 4, 9, 14, 1, 9, 9, 1⟩,
  ⟨0, 4, 8, 12, 12, 5, 5, 12⟩,
  ⟨1, 5, 9, 13, 1, 15, 15, 1⟩,
  ⟨2, 6, 10, 14, 14, 13, 13, 14⟩,
  ⟨3, 7, 11, 15, 4, 10, 10, 4⟩,
  ⟨0, 5, 10, 15, 0, 7, 7, 0⟩,
  ⟨1, 6, 11, 12, 6, 3, 3, 6⟩,
  ⟨2, 7, 8, 13, 9, 2, 2, 9⟩,
  ⟨3, 4, 9, 14, 8, 11, 11, 8⟩,
  ⟨0, 4, 8, 12, 13, 11, 11, 13⟩,
  ⟨1, 5, 9, 13, 7, 14, 14, 7⟩,
  ⟨2, 6, 10, 14, 12, 1, 1, 12⟩,
  ⟨3, 7, 11, 15, 3, 9, 9, 3⟩,
  ⟨0, 5, 10, 15, 5, 0, 0, 5⟩,
  ⟨1, 6, 11, 12, 15, 4, 4, 15⟩,
  ⟨2, 7, 8, 13, 8, 6, 6, 8⟩,
  ⟨3, 4, 9, 14, 2, 10, 10, 2⟩,
  ⟨0, 4, 8, 12, 6, 15, 15, 6⟩,
  ⟨1, 5, 9, 13, 14, 9, 9, 14⟩,
  ⟨2, 6, 10, 14, 11, 3, 3, 11⟩,
  ⟨3, 7, 11, 15, 0, 8, 8, 0⟩,
  ⟨0, 5, 10, 15, 12, 2, 2, 12⟩,
  ⟨1, 6, 11, 12, 13, 7, 7, 13⟩,
  ⟨2, 7, 8, 13, 1, 4, 4, 1⟩,
  ⟨3, 4, 9, 14, 10, 5, 5, 10⟩,
  ⟨0, 4, 8, 12, 10, 2, 2, 10⟩,
  ⟨1, 5, 9, 13, 8, 4, 4, 8⟩,
  ⟨2, 6, 10, 14, 7, 6, 6, 7⟩,
  ⟨3, 7, 11, 15, 1, 5, 5, 1⟩,
  ⟨0, 5, 10, 15, 15, 11, 11, 15⟩,
  ⟨1, 6, 11, 12, 9, 14, 14, 9⟩,
  ⟨2, 7, 8, 13, 3, 12, 12, 3⟩,
  ⟨3, 4, 9, 14, 13, 0, 0, 13⟩,
  ⟨0, 4, 8, 12, 0, 1, 1, 0⟩,
  ⟨1, 5, 9, 13, 2, 3, 3, 2⟩,
  ⟨2, 6, 10, 14, 4, 5, 5, 4⟩,
  ⟨3, 7, 11, 15, 6, 7, 7, 6⟩,
  ⟨0, 5, 10, 15, 8, 9, 9, 8⟩,
  ⟨1, 6, 11, 12, 10, 11, 11, 10⟩,
  ⟨2, 7, 8, 13, 12, 13, 13, 12⟩,
  ⟨3, 4, 9, 14, 14, 15, 15, 14⟩,
  ⟨0, 4, 8, 12, 14, 10, 10, 14⟩,
  ⟨1, 5, 9, 13, 4, 8, 8, 4⟩,
  ⟨2, 6, 10, 14, 9, 15, 15, 9⟩,
  ⟨3, 7, 11, 15, 13, 6, 6, 13⟩,
  ⟨0, 5, 10, 15, 1, 12, 12, 1⟩,
  ⟨1, 6, 11, 12, 0, 2, 2, 0⟩,
  ⟨2, 7, 8, 13, 11, 7, 7, 11⟩,
  ⟨3, 4, 9, 14, 5, 3, 3, 5⟩,
  ⟨0, 4, 8, 12, 11, 8, 8, 11⟩,
  ⟨1, 5, 9, 13, 12, 0, 0, 12⟩,
  ⟨2, 6, 10, 14, 5, 2, 2, 5⟩,
  ⟨3, 7, 11, 15, 15, 13, 13, 15⟩,
  ⟨0, 5, 10, 15, 10, 14, 14, 10⟩,
  ⟨1, 6, 11, 12, 3, 6, 6, 3⟩,
  ⟨2, 7, 8, 13, 7, 1, 1, 7⟩,
  ⟨3, 4, 9, 14, 9, 4, 4, 9⟩,
  ⟨0, 4, 8, 12, 7, 9, 9, 7⟩,
  ⟨1, 5, 9, 13, 3, 1, 1, 3⟩,
  ⟨2, 6, 10, 14, 13, 12, 12, 13⟩,
  ⟨3, 7, 11, 15, 11, 14, 14, 11⟩,
  ⟨0, 5, 10, 15, 2, 6, 6, 2⟩,
  ⟨1, 6, 11, 12, 5, 10, 10, 5⟩,
  ⟨2, 7, 8, 13, 4, 0, 0, 4⟩,
  ⟨3, 4, 9, 14, 15, 8, 8, 15⟩,
  ⟨0, 4, 8, 12, 9, 0, 0, 9⟩,
  ⟨1, 5, 9, 13, 5, 7, 7, 5⟩,
  ⟨2, 6, 10, 14, 2, 4, 4, 2⟩,
  ⟨3, 7, 11, 15, 10, 15, 15, 10⟩,
  ⟨0, 5, 10, 15, 14, 1, 1, 14⟩,
  ⟨1, 6, 11, 12, 11, 12, 12, 11⟩,
  ⟨2, 7, 8, 13, 6, 8, 8, 6⟩,
  ⟨3, 4, 9, 14, 3, 13, 13, 3⟩,
  ⟨0, 4, 8, 12, 2, 12, 12, 2⟩,
  ⟨1, 5, 9, 13, 6, 10, 10, 6⟩,
  ⟨2, 6, 10, 14, 0, 11, 11, 0⟩,
  ⟨3, 7, 11, 15, 8, 3, 3, 8⟩,
  ⟨0, 5, 10, 15, 4, 13, 13, 4⟩,
  ⟨1, 6, 11, 12, 7, 5, 5, 7⟩,
  ⟨2, 7, 8, 13, 15, 14, 14, 15⟩,
  ⟨3, 4, 9, 14, 1, 9, 9, 1⟩]

end Verif.Model.BLAKE
