import Verif.Core.Basic

/-! Generated by tools/gen_ripemd.py from ripemd_128.h:484-611 (the calls in
ripemd_256.h:497-630 are the same, in four groups of 32 with a `swap` after each) and
ripemd_160.h:492-651 (ripemd_320.h:506-673: the same, in five groups of
32 with a `swap` after each). -/

namespace Verif.Model.RIPEMD

/-- The lambdas `f1` .. `f5` (ripemd_160.h:453-472). -/
inductive Fn where
  | f1 | f2 | f3 | f4 | f5
  deriving DecidableEq

/-- Arguments of one call of `lineLeft` or `lineRight` in the four-register classes: which of `a`,
`b`, `c`, `d` (`aa`, `bb`, `cc`, `dd` for `lineRight`) is passed, then `f`, `k`, `r`, `s`. ripemd_128.h:473,
ripemd_256.h:478. -/
structure Call4 where
  a : Fin 4
  b : Fin 4
  c : Fin 4
  d : Fin 4
  f : Fn
  k : W32
  r : Fin 16
  s : Nat
  deriving DecidableEq

/-- The same for the five-register classes. ripemd_160.h:479, ripemd_320.h:485. -/
structure Call5 where
  a : Fin 5
  b : Fin 5
  c : Fin 5
  d : Fin 5
  e : Fin 5
  f : Fn
  k : W32
  r : Fin 16
  s : Nat
  deriving DecidableEq

/-- A call statement. ripemd_128.h:473-611. -/
inductive Stmt (C : Type) where
  | left (q : C)
  | right (q : C)
  deriving DecidableEq

/-- ripemd_128.h:484-515 -/
def seg4_0 : List (Stmt Call4) := [
  .left ⟨0, 1, 2, 3, .f1, 0x00000000, 0, 11⟩,
  .left ⟨3, 0, 1, 2, .f1, 0x00000000, 1, 14⟩,
  .right ⟨0, 1, 2, 3, .f4, 0x50A28BE6, 5, 8⟩,
  .right ⟨3, 0, 1, 2, .f4, 0x50A28BE6, 14, 9⟩,
  .left ⟨2, 3, 0, 1, .f1, 0x00000000, 2, 15⟩,
  .left ⟨1, 2, 3, 0, .f1, 0x00000000, 3, 12⟩,
  .right ⟨2, 3, 0, 1, .f4, 0x50A28BE6, 7, 9⟩,
  .right ⟨1, 2, 3, 0, .f4, 0x50A28BE6, 0, 11⟩,
  .left ⟨0, 1, 2, 3, .f1, 0x00000000, 4, 5⟩,
  .left ⟨3, 0, 1, 2, .f1, 0x00000000, 5, 8⟩,
  .right ⟨0, 1, 2, 3, .f4, 0x50A28BE6, 9, 13⟩,
  .right ⟨3, 0, 1, 2, .f4, 0x50A28BE6, 2, 15⟩,
  .left ⟨2, 3, 0, 1, .f1, 0x00000000, 6, 7⟩,
  .left ⟨1, 2, 3, 0, .f1, 0x00000000, 7, 9⟩,
  .right ⟨2, 3, 0, 1, .f4, 0x50A28BE6, 11, 15⟩,
  .right ⟨1, 2, 3, 0, .f4, 0x50A28BE6, 4, 5⟩,
  .left ⟨0, 1, 2, 3, .f1, 0x00000000, 8, 11⟩,
  .left ⟨3, 0, 1, 2, .f1, 0x00000000, 9, 13⟩,
  .right ⟨0, 1, 2, 3, .f4, 0x50A28BE6, 13, 7⟩,
  .right ⟨3, 0, 1, 2, .f4, 0x50A28BE6, 6, 7⟩,
  .left ⟨2, 3, 0, 1, .f1, 0x00000000, 10, 14⟩,
  .left ⟨1, 2, 3, 0, .f1, 0x00000000, 11, 15⟩,
  .right ⟨2, 3, 0, 1, .f4, 0x50A28BE6, 15, 8⟩,
  .right ⟨1, 2, 3, 0, .f4, 0x50A28BE6, 8, 11⟩,
  .left ⟨0, 1, 2, 3, .f1, 0x00000000, 12, 6⟩,
  .left ⟨3, 0, 1, 2, .f1, 0x00000000, 13, 7⟩,
  .right ⟨0, 1, 2, 3, .f4, 0x50A28BE6, 1, 14⟩,
  .right ⟨3, 0, 1, 2, .f4, 0x50A28BE6, 10, 14⟩,
  .left ⟨2, 3, 0, 1, .f1, 0x00000000, 14, 9⟩,
  .left ⟨1, 2, 3, 0, .f1, 0x00000000, 15, 8⟩,
  .right ⟨2, 3, 0, 1, .f4, 0x50A28BE6, 3, 12⟩,
  .right ⟨1, 2, 3, 0, .f4, 0x50A28BE6, 12, 6⟩]

/-- ripemd_128.h:516-547 -/
def seg4_1 : List (Stmt Call4) := [
  .left ⟨0, 1, 2, 3, .f2, 0x5A827999, 7, 7⟩,
  .left ⟨3, 0, 1, 2, .f2, 0x5A827999, 4, 6⟩,
  .right ⟨0, 1, 2, 3, .f3, 0x5C4DD124, 6, 9⟩,
  .right ⟨3, 0, 1, 2, .f3, 0x5C4DD124, 11, 13⟩,
  .left ⟨2, 3, 0, 1, .f2, 0x5A827999, 13, 8⟩,
  .left ⟨1, 2, 3, 0, .f2, 0x5A827999, 1, 13⟩,
  .right ⟨2, 3, 0, 1, .f3, 0x5C4DD124, 3, 15⟩,
  .right ⟨1, 2, 3, 0, .f3, 0x5C4DD124, 7, 7⟩,
  .left ⟨0, 1, 2, 3, .f2, 0x5A827999, 10, 11⟩,
  .left ⟨3, 0, 1, 2, .f2, 0x5A827999, 6, 9⟩,
  .right ⟨0, 1, 2, 3, .f3, 0x5C4DD124, 0, 12⟩,
  .right ⟨3, 0, 1, 2, .f3, 0x5C4DD124, 13, 8⟩,
  .left ⟨2, 3, 0, 1, .f2, 0x5A827999, 15, 7⟩,
  .left ⟨1, 2, 3, 0, .f2, 0x5A827999, 3, 15⟩,
  .right ⟨2, 3, 0, 1, .f3, 0x5C4DD124, 5, 9⟩,
  .right ⟨1, 2, 3, 0, .f3, 0x5C4DD124, 10, 11⟩,
  .left ⟨0, 1, 2, 3, .f2, 0x5A827999, 12, 7⟩,
  .left ⟨3, 0, 1, 2, .f2, 0x5A827999, 0, 12⟩,
  .right ⟨0, 1, 2, 3, .f3, 0x5C4DD124, 14, 7⟩,
  .right ⟨3, 0, 1, 2, .f3, 0x5C4DD124, 15, 7⟩,
  .left ⟨2, 3, 0, 1, .f2, 0x5A827999, 9, 15⟩,
  .left ⟨1, 2, 3, 0, .f2, 0x5A827999, 5, 9⟩,
  .right ⟨2, 3, 0, 1, .f3, 0x5C4DD124, 8, 12⟩,
  .right ⟨1, 2, 3, 0, .f3, 0x5C4DD124, 12, 7⟩,
  .left ⟨0, 1, 2, 3, .f2, 0x5A827999, 2, 11⟩,
  .left ⟨3, 0, 1, 2, .f2, 0x5A827999, 14, 7⟩,
  .right ⟨0, 1, 2, 3, .f3, 0x5C4DD124, 4, 6⟩,
  .right ⟨3, 0, 1, 2, .f3, 0x5C4DD124, 9, 15⟩,
  .left ⟨2, 3, 0, 1, .f2, 0x5A827999, 11, 13⟩,
  .left ⟨1, 2, 3, 0, .f2, 0x5A827999, 8, 12⟩,
  .right ⟨2, 3, 0, 1, .f3, 0x5C4DD124, 1, 13⟩,
  .right ⟨1, 2, 3, 0, .f3, 0x5C4DD124, 2, 11⟩]

/-- ripemd_128.h:548-579 -/
def seg4_2 : List (Stmt Call4) := [
  .left ⟨0, 1, 2, 3, .f3, 0x6ED9EBA1, 3, 11⟩,
  .left ⟨3, 0, 1, 2, .f3, 0x6ED9EBA1, 10, 13⟩,
  .right ⟨0, 1, 2, 3, .f2, 0x6D703EF3, 15, 9⟩,
  .right ⟨3, 0, 1, 2, .f2, 0x6D703EF3, 5, 7⟩,
  .left ⟨2, 3, 0, 1, .f3, 0x6ED9EBA1, 14, 6⟩,
  .left ⟨1, 2, 3, 0, .f3, 0x6ED9EBA1, 4, 7⟩,
  .right ⟨2, 3, 0, 1, .f2, 0x6D703EF3, 1, 15⟩,
  .right ⟨1, 2, 3, 0, .f2, 0x6D703EF3, 3, 11⟩,
  .left ⟨0, 1, 2, 3, .f3, 0x6ED9EBA1, 9, 14⟩,
  .left ⟨3, 0, 1, 2, .f3, 0x6ED9EBA1, 15, 9⟩,
  .right ⟨0, 1, 2, 3, .f2, 0x6D703EF3, 7, 8⟩,
  .right ⟨3, 0, 1, 2, .f2, 0x6D703EF3, 14, 6⟩,
  .left ⟨2, 3, 0, 1, .f3, 0x6ED9EBA1, 8, 13⟩,
  .left ⟨1, 2, 3, 0, .f3, 0x6ED9EBA1, 1, 15⟩,
  .right ⟨2, 3, 0, 1, .f2, 0x6D703EF3, 6, 6⟩,
  .right ⟨1, 2, 3, 0, .f2, 0x6D703EF3, 9, 14⟩,
  .left ⟨0, 1, 2, 3, .f3, 0x6ED9EBA1, 2, 14⟩,
  .left ⟨3, 0, 1, 2, .f3, 0x6ED9EBA1, 7, 8⟩,
  .right ⟨0, 1, 2, 3, .f2, 0x6D703EF3, 11, 12⟩,
  .right ⟨3, 0, 1, 2, .f2, 0x6D703EF3, 8, 13⟩,
  .left ⟨2, 3, 0, 1, .f3, 0x6ED9EBA1, 0, 13⟩,
  .left ⟨1, 2, 3, 0, .f3, 0x6ED9EBA1, 6, 6⟩,
  .right ⟨2, 3, 0, 1, .f2, 0x6D703EF3, 12, 5⟩,
  .right ⟨1, 2, 3, 0, .f2, 0x6D703EF3, 2, 14⟩,
  .left ⟨0, 1, 2, 3, .f3, 0x6ED9EBA1, 13, 5⟩,
  .left ⟨3, 0, 1, 2, .f3, 0x6ED9EBA1, 11, 12⟩,
  .right ⟨0, 1, 2, 3, .f2, 0x6D703EF3, 10, 13⟩,
  .right ⟨3, 0, 1, 2, .f2, 0x6D703EF3, 0, 13⟩,
  .left ⟨2, 3, 0, 1, .f3, 0x6ED9EBA1, 5, 7⟩,
  .left ⟨1, 2, 3, 0, .f3, 0x6ED9EBA1, 12, 5⟩,
  .right ⟨2, 3, 0, 1, .f2, 0x6D703EF3, 4, 7⟩,
  .right ⟨1, 2, 3, 0, .f2, 0x6D703EF3, 13, 5⟩]

/-- ripemd_128.h:580-611 -/
def seg4_3 : List (Stmt Call4) := [
  .left ⟨0, 1, 2, 3, .f4, 0x8F1BBCDC, 1, 11⟩,
  .left ⟨3, 0, 1, 2, .f4, 0x8F1BBCDC, 9, 12⟩,
  .right ⟨0, 1, 2, 3, .f1, 0x00000000, 8, 15⟩,
  .right ⟨3, 0, 1, 2, .f1, 0x00000000, 6, 5⟩,
  .left ⟨2, 3, 0, 1, .f4, 0x8F1BBCDC, 11, 14⟩,
  .left ⟨1, 2, 3, 0, .f4, 0x8F1BBCDC, 10, 15⟩,
  .right ⟨2, 3, 0, 1, .f1, 0x00000000, 4, 8⟩,
  .right ⟨1, 2, 3, 0, .f1, 0x00000000, 1, 11⟩,
  .left ⟨0, 1, 2, 3, .f4, 0x8F1BBCDC, 0, 14⟩,
  .left ⟨3, 0, 1, 2, .f4, 0x8F1BBCDC, 8, 15⟩,
  .right ⟨0, 1, 2, 3, .f1, 0x00000000, 3, 14⟩,
  .right ⟨3, 0, 1, 2, .f1, 0x00000000, 11, 14⟩,
  .left ⟨2, 3, 0, 1, .f4, 0x8F1BBCDC, 12, 9⟩,
  .left ⟨1, 2, 3, 0, .f4, 0x8F1BBCDC, 4, 8⟩,
  .right ⟨2, 3, 0, 1, .f1, 0x00000000, 15, 6⟩,
  .right ⟨1, 2, 3, 0, .f1, 0x00000000, 0, 14⟩,
  .left ⟨0, 1, 2, 3, .f4, 0x8F1BBCDC, 13, 9⟩,
  .left ⟨3, 0, 1, 2, .f4, 0x8F1BBCDC, 3, 14⟩,
  .right ⟨0, 1, 2, 3, .f1, 0x00000000, 5, 6⟩,
  .right ⟨3, 0, 1, 2, .f1, 0x00000000, 12, 9⟩,
  .left ⟨2, 3, 0, 1, .f4, 0x8F1BBCDC, 7, 5⟩,
  .left ⟨1, 2, 3, 0, .f4, 0x8F1BBCDC, 15, 6⟩,
  .right ⟨2, 3, 0, 1, .f1, 0x00000000, 2, 12⟩,
  .right ⟨1, 2, 3, 0, .f1, 0x00000000, 13, 9⟩,
  .left ⟨0, 1, 2, 3, .f4, 0x8F1BBCDC, 14, 8⟩,
  .left ⟨3, 0, 1, 2, .f4, 0x8F1BBCDC, 5, 6⟩,
  .right ⟨0, 1, 2, 3, .f1, 0x00000000, 9, 12⟩,
  .right ⟨3, 0, 1, 2, .f1, 0x00000000, 7, 5⟩,
  .left ⟨2, 3, 0, 1, .f4, 0x8F1BBCDC, 6, 5⟩,
  .left ⟨1, 2, 3, 0, .f4, 0x8F1BBCDC, 2, 12⟩,
  .right ⟨2, 3, 0, 1, .f1, 0x00000000, 10, 15⟩,
  .right ⟨1, 2, 3, 0, .f1, 0x00000000, 14, 8⟩]

/-- ripemd_160.h:492-523 -/
def seg5_0 : List (Stmt Call5) := [
  .left ⟨0, 1, 2, 3, 4, .f1, 0x00000000, 0, 11⟩,
  .left ⟨4, 0, 1, 2, 3, .f1, 0x00000000, 1, 14⟩,
  .right ⟨0, 1, 2, 3, 4, .f5, 0x50A28BE6, 5, 8⟩,
  .right ⟨4, 0, 1, 2, 3, .f5, 0x50A28BE6, 14, 9⟩,
  .left ⟨3, 4, 0, 1, 2, .f1, 0x00000000, 2, 15⟩,
  .left ⟨2, 3, 4, 0, 1, .f1, 0x00000000, 3, 12⟩,
  .right ⟨3, 4, 0, 1, 2, .f5, 0x50A28BE6, 7, 9⟩,
  .right ⟨2, 3, 4, 0, 1, .f5, 0x50A28BE6, 0, 11⟩,
  .left ⟨1, 2, 3, 4, 0, .f1, 0x00000000, 4, 5⟩,
  .left ⟨0, 1, 2, 3, 4, .f1, 0x00000000, 5, 8⟩,
  .right ⟨1, 2, 3, 4, 0, .f5, 0x50A28BE6, 9, 13⟩,
  .right ⟨0, 1, 2, 3, 4, .f5, 0x50A28BE6, 2, 15⟩,
  .left ⟨4, 0, 1, 2, 3, .f1, 0x00000000, 6, 7⟩,
  .left ⟨3, 4, 0, 1, 2, .f1, 0x00000000, 7, 9⟩,
  .right ⟨4, 0, 1, 2, 3, .f5, 0x50A28BE6, 11, 15⟩,
  .right ⟨3, 4, 0, 1, 2, .f5, 0x50A28BE6, 4, 5⟩,
  .left ⟨2, 3, 4, 0, 1, .f1, 0x00000000, 8, 11⟩,
  .left ⟨1, 2, 3, 4, 0, .f1, 0x00000000, 9, 13⟩,
  .right ⟨2, 3, 4, 0, 1, .f5, 0x50A28BE6, 13, 7⟩,
  .right ⟨1, 2, 3, 4, 0, .f5, 0x50A28BE6, 6, 7⟩,
  .left ⟨0, 1, 2, 3, 4, .f1, 0x00000000, 10, 14⟩,
  .left ⟨4, 0, 1, 2, 3, .f1, 0x00000000, 11, 15⟩,
  .right ⟨0, 1, 2, 3, 4, .f5, 0x50A28BE6, 15, 8⟩,
  .right ⟨4, 0, 1, 2, 3, .f5, 0x50A28BE6, 8, 11⟩,
  .left ⟨3, 4, 0, 1, 2, .f1, 0x00000000, 12, 6⟩,
  .left ⟨2, 3, 4, 0, 1, .f1, 0x00000000, 13, 7⟩,
  .right ⟨3, 4, 0, 1, 2, .f5, 0x50A28BE6, 1, 14⟩,
  .right ⟨2, 3, 4, 0, 1, .f5, 0x50A28BE6, 10, 14⟩,
  .left ⟨1, 2, 3, 4, 0, .f1, 0x00000000, 14, 9⟩,
  .left ⟨0, 1, 2, 3, 4, .f1, 0x00000000, 15, 8⟩,
  .right ⟨1, 2, 3, 4, 0, .f5, 0x50A28BE6, 3, 12⟩,
  .right ⟨0, 1, 2, 3, 4, .f5, 0x50A28BE6, 12, 6⟩]

/-- ripemd_160.h:524-555 -/
def seg5_1 : List (Stmt Call5) := [
  .left ⟨4, 0, 1, 2, 3, .f2, 0x5A827999, 7, 7⟩,
  .left ⟨3, 4, 0, 1, 2, .f2, 0x5A827999, 4, 6⟩,
  .right ⟨4, 0, 1, 2, 3, .f4, 0x5C4DD124, 6, 9⟩,
  .right ⟨3, 4, 0, 1, 2, .f4, 0x5C4DD124, 11, 13⟩,
  .left ⟨2, 3, 4, 0, 1, .f2, 0x5A827999, 13, 8⟩,
  .left ⟨1, 2, 3, 4, 0, .f2, 0x5A827999, 1, 13⟩,
  .right ⟨2, 3, 4, 0, 1, .f4, 0x5C4DD124, 3, 15⟩,
  .right ⟨1, 2, 3, 4, 0, .f4, 0x5C4DD124, 7, 7⟩,
  .left ⟨0, 1, 2, 3, 4, .f2, 0x5A827999, 10, 11⟩,
  .left ⟨4, 0, 1, 2, 3, .f2, 0x5A827999, 6, 9⟩,
  .right ⟨0, 1, 2, 3, 4, .f4, 0x5C4DD124, 0, 12⟩,
  .right ⟨4, 0, 1, 2, 3, .f4, 0x5C4DD124, 13, 8⟩,
  .left ⟨3, 4, 0, 1, 2, .f2, 0x5A827999, 15, 7⟩,
  .left ⟨2, 3, 4, 0, 1, .f2, 0x5A827999, 3, 15⟩,
  .right ⟨3, 4, 0, 1, 2, .f4, 0x5C4DD124, 5, 9⟩,
  .right ⟨2, 3, 4, 0, 1, .f4, 0x5C4DD124, 10, 11⟩,
  .left ⟨1, 2, 3, 4, 0, .f2, 0x5A827999, 12, 7⟩,
  .left ⟨0, 1, 2, 3, 4, .f2, 0x5A827999, 0, 12⟩,
  .right ⟨1, 2, 3, 4, 0, .f4, 0x5C4DD124, 14, 7⟩,
  .right ⟨0, 1, 2, 3, 4, .f4, 0x5C4DD124, 15, 7⟩,
  .left ⟨4, 0, 1, 2, 3, .f2, 0x5A827999, 9, 15⟩,
  .left ⟨3, 4, 0, 1, 2, .f2, 0x5A827999, 5, 9⟩,
  .right ⟨4, 0, 1, 2, 3, .f4, 0x5C4DD124, 8, 12⟩,
  .right ⟨3, 4, 0, 1, 2, .f4, 0x5C4DD124, 12, 7⟩,
  .left ⟨2, 3, 4, 0, 1, .f2, 0x5A827999, 2, 11⟩,
  .left ⟨1, 2, 3, 4, 0, .f2, 0x5A827999, 14, 7⟩,
  .right ⟨2, 3, 4, 0, 1, .f4, 0x5C4DD124, 4, 6⟩,
  .right ⟨1, 2, 3, 4, 0, .f4, 0x5C4DD124, 9, 15⟩,
  .left ⟨0, 1, 2, 3, 4, .f2, 0x5A827999, 11, 13⟩,
  .left ⟨4, 0, 1, 2, 3, .f2, 0x5A827999, 8, 12⟩,
  .right ⟨0, 1, 2, 3, 4, .f4, 0x5C4DD124, 1, 13⟩,
  .right ⟨4, 0, 1, 2, 3, .f4, 0x5C4DD124, 2, 11⟩]

/-- ripemd_160.h:556-587 -/
def seg5_2 : List (Stmt Call5) := [
  .left ⟨3, 4, 0, 1, 2, .f3, 0x6ED9EBA1, 3, 11⟩,
  .left ⟨2, 3, 4, 0, 1, .f3, 0x6ED9EBA1, 10, 13⟩,
  .right ⟨3, 4, 0, 1, 2, .f3, 0x6D703EF3, 15, 9⟩,
  .right ⟨2, 3, 4, 0, 1, .f3, 0x6D703EF3, 5, 7⟩,
  .left ⟨1, 2, 3, 4, 0, .f3, 0x6ED9EBA1, 14, 6⟩,
  .left ⟨0, 1, 2, 3, 4, .f3, 0x6ED9EBA1, 4, 7⟩,
  .right ⟨1, 2, 3, 4, 0, .f3, 0x6D703EF3, 1, 15⟩,
  .right ⟨0, 1, 2, 3, 4, .f3, 0x6D703EF3, 3, 11⟩,
  .left ⟨4, 0, 1, 2, 3, .f3, 0x6ED9EBA1, 9, 14⟩,
  .left ⟨3, 4, 0, 1, 2, .f3, 0x6ED9EBA1, 15, 9⟩,
  .right ⟨4, 0, 1, 2, 3, .f3, 0x6D703EF3, 7, 8⟩,
  .right ⟨3, 4, 0, 1, 2, .f3, 0x6D703EF3, 14, 6⟩,
  .left ⟨2, 3, 4, 0, 1, .f3, 0x6ED9EBA1, 8, 13⟩,
  .left ⟨1, 2, 3, 4, 0, .f3, 0x6ED9EBA1, 1, 15⟩,
  .right ⟨2, 3, 4, 0, 1, .f3, 0x6D703EF3, 6, 6⟩,
  .right ⟨1, 2, 3, 4, 0, .f3, 0x6D703EF3, 9, 14⟩,
  .left ⟨0, 1, 2, 3, 4, .f3, 0x6ED9EBA1, 2, 14⟩,
  .left ⟨4, 0, 1, 2, 3, .f3, 0x6ED9EBA1, 7, 8⟩,
  .right ⟨0, 1, 2, 3, 4, .f3, 0x6D703EF3, 11, 12⟩,
  .right ⟨4, 0, 1, 2, 3, .f3, 0x6D703EF3, 8, 13⟩,
  .left ⟨3, 4, 0, 1, 2, .f3, 0x6ED9EBA1, 0, 13⟩,
  .left ⟨2, 3, 4, 0, 1, .f3, 0x6ED9EBA1, 6, 6⟩,
  .right ⟨3, 4, 0, 1, 2, .f3, 0x6D703EF3, 12, 5⟩,
  .right ⟨2, 3, 4, 0, 1, .f3, 0x6D703EF3, 2, 14⟩,
  .left ⟨1, 2, 3, 4, 0, .f3, 0x6ED9EBA1, 13, 5⟩,
  .left ⟨0, 1, 2, 3, 4, .f3, 0x6ED9EBA1, 11, 12⟩,
  .right ⟨1, 2, 3, 4, 0, .f3, 0x6D703EF3, 10, 13⟩,
  .right ⟨0, 1, 2, 3, 4, .f3, 0x6D703EF3, 0, 13⟩,
  .left ⟨4, 0, 1, 2, 3, .f3, 0x6ED9EBA1, 5, 7⟩,
  .left ⟨3, 4, 0, 1, 2, .f3, 0x6ED9EBA1, 12, 5⟩,
  .right ⟨4, 0, 1, 2, 3, .f3, 0x6D703EF3, 4, 7⟩,
  .right ⟨3, 4, 0, 1, 2, .f3, 0x6D703EF3, 13, 5⟩]

/-- ripemd_160.h:588-619 -/
def seg5_3 : List (Stmt Call5) := [
  .left ⟨2, 3, 4, 0, 1, .f4, 0x8F1BBCDC, 1, 11⟩,
  .left ⟨1, 2, 3, 4, 0, .f4, 0x8F1BBCDC, 9, 12⟩,
  .right ⟨2, 3, 4, 0, 1, .f2, 0x7A6D76E9, 8, 15⟩,
  .right ⟨1, 2, 3, 4, 0, .f2, 0x7A6D76E9, 6, 5⟩,
  .left ⟨0, 1, 2, 3, 4, .f4, 0x8F1BBCDC, 11, 14⟩,
  .left ⟨4, 0, 1, 2, 3, .f4, 0x8F1BBCDC, 10, 15⟩,
  .right ⟨0, 1, 2, 3, 4, .f2, 0x7A6D76E9, 4, 8⟩,
  .right ⟨4, 0, 1, 2, 3, .f2, 0x7A6D76E9, 1, 11⟩,
  .left ⟨3, 4, 0, 1, 2, .f4, 0x8F1BBCDC, 0, 14⟩,
  .left ⟨2, 3, 4, 0, 1, .f4, 0x8F1BBCDC, 8, 15⟩,
  .right ⟨3, 4, 0, 1, 2, .f2, 0x7A6D76E9, 3, 14⟩,
  .right ⟨2, 3, 4, 0, 1, .f2, 0x7A6D76E9, 11, 14⟩,
  .left ⟨1, 2, 3, 4, 0, .f4, 0x8F1BBCDC, 12, 9⟩,
  .left ⟨0, 1, 2, 3, 4, .f4, 0x8F1BBCDC, 4, 8⟩,
  .right ⟨1, 2, 3, 4, 0, .f2, 0x7A6D76E9, 15, 6⟩,
  .right ⟨0, 1, 2, 3, 4, .f2, 0x7A6D76E9, 0, 14⟩,
  .left ⟨4, 0, 1, 2, 3, .f4, 0x8F1BBCDC, 13, 9⟩,
  .left ⟨3, 4, 0, 1, 2, .f4, 0x8F1BBCDC, 3, 14⟩,
  .right ⟨4, 0, 1, 2, 3, .f2, 0x7A6D76E9, 5, 6⟩,
  .right ⟨3, 4, 0, 1, 2, .f2, 0x7A6D76E9, 12, 9⟩,
  .left ⟨2, 3, 4, 0, 1, .f4, 0x8F1BBCDC, 7, 5⟩,
  .left ⟨1, 2, 3, 4, 0, .f4, 0x8F1BBCDC, 15, 6⟩,
  .right ⟨2, 3, 4, 0, 1, .f2, 0x7A6D76E9, 2, 12⟩,
  .right ⟨1, 2, 3, 4, 0, .f2, 0x7A6D76E9, 13, 9⟩,
  .left ⟨0, 1, 2, 3, 4, .f4, 0x8F1BBCDC, 14, 8⟩,
  .left ⟨4, 0, 1, 2, 3, .f4, 0x8F1BBCDC, 5, 6⟩,
  .right ⟨0, 1, 2, 3, 4, .f2, 0x7A6D76E9, 9, 12⟩,
  .right ⟨4, 0, 1, 2, 3, .f2, 0x7A6D76E9, 7, 5⟩,
  .left ⟨3, 4, 0, 1, 2, .f4, 0x8F1BBCDC, 6, 5⟩,
  .left ⟨2, 3, 4, 0, 1, .f4, 0x8F1BBCDC, 2, 12⟩,
  .right ⟨3, 4, 0, 1, 2, .f2, 0x7A6D76E9, 10, 15⟩,
  .right ⟨2, 3, 4, 0, 1, .f2, 0x7A6D76E9, 14, 8⟩]

/-- ripemd_160.h:620-651 -/
def seg5_4 : List (Stmt Call5) := [
  .left ⟨1, 2, 3, 4, 0, .f5, 0xA953FD4E, 4, 9⟩,
  .left ⟨0, 1, 2, 3, 4, .f5, 0xA953FD4E, 0, 15⟩,
  .right ⟨1, 2, 3, 4, 0, .f1, 0x00000000, 12, 8⟩,
  .right ⟨0, 1, 2, 3, 4, .f1, 0x00000000, 15, 5⟩,
  .left ⟨4, 0, 1, 2, 3, .f5, 0xA953FD4E, 5, 5⟩,
  .left ⟨3, 4, 0, 1, 2, .f5, 0xA953FD4E, 9, 11⟩,
  .right ⟨4, 0, 1, 2, 3, .f1, 0x00000000, 10, 12⟩,
  .right ⟨3, 4, 0, 1, 2, .f1, 0x00000000, 4, 9⟩,
  .left ⟨2, 3, 4, 0, 1, .f5, 0xA953FD4E, 7, 6⟩,
  .left ⟨1, 2, 3, 4, 0, .f5, 0xA953FD4E, 12, 8⟩,
  .right ⟨2, 3, 4, 0, 1, .f1, 0x00000000, 1, 12⟩,
  .right ⟨1, 2, 3, 4, 0, .f1, 0x00000000, 5, 5⟩,
  .left ⟨0, 1, 2, 3, 4, .f5, 0xA953FD4E, 2, 13⟩,
  .left ⟨4, 0, 1, 2, 3, .f5, 0xA953FD4E, 10, 12⟩,
  .right ⟨0, 1, 2, 3, 4, .f1, 0x00000000, 8, 14⟩,
  .right ⟨4, 0, 1, 2, 3, .f1, 0x00000000, 7, 6⟩,
  .left ⟨3, 4, 0, 1, 2, .f5, 0xA953FD4E, 14, 5⟩,
  .left ⟨2, 3, 4, 0, 1, .f5, 0xA953FD4E, 1, 12⟩,
  .right ⟨3, 4, 0, 1, 2, .f1, 0x00000000, 6, 8⟩,
  .right ⟨2, 3, 4, 0, 1, .f1, 0x00000000, 2, 13⟩,
  .left ⟨1, 2, 3, 4, 0, .f5, 0xA953FD4E, 3, 13⟩,
  .left ⟨0, 1, 2, 3, 4, .f5, 0xA953FD4E, 8, 14⟩,
  .right ⟨1, 2, 3, 4, 0, .f1, 0x00000000, 13, 6⟩,
  .right ⟨0, 1, 2, 3, 4, .f1, 0x00000000, 14, 5⟩,
  .left ⟨4, 0, 1, 2, 3, .f5, 0xA953FD4E, 11, 11⟩,
  .left ⟨3, 4, 0, 1, 2, .f5, 0xA953FD4E, 6, 8⟩,
  .right ⟨4, 0, 1, 2, 3, .f1, 0x00000000, 0, 15⟩,
  .right ⟨3, 4, 0, 1, 2, .f1, 0x00000000, 3, 13⟩,
  .left ⟨2, 3, 4, 0, 1, .f5, 0xA953FD4E, 15, 5⟩,
  .left ⟨1, 2, 3, 4, 0, .f5, 0xA953FD4E, 13, 6⟩,
  .right ⟨2, 3, 4, 0, 1, .f1, 0x00000000, 9, 11⟩,
  .right ⟨1, 2, 3, 4, 0, .f1, 0x00000000, 11, 11⟩]

end Verif.Model.RIPEMD
