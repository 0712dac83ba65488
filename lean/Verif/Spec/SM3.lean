import Verif.Spec.Bytes

/-! # SM3 (GB/T 32905-2016, draft-sca-cfrg-sm3) -/

namespace Verif.Spec.SM3

abbrev Word := BitVec 32
/-- two quadruples: (A, B, C, D), (E, F, G, H) -/
abbrev State := (Word × Word × Word × Word) × (Word × Word × Word × Word)

/-- 4.2 constants -/
def T (j : Nat) : Word := if j < 16 then 0x79cc4519 else 0x7a879d8a

/-- 4.3 boolean functions -/
def FF (j : Nat) (X Y Z : Word) : Word :=
  if j < 16 then X ^^^ Y ^^^ Z else (X &&& Y) ||| (X &&& Z) ||| (Y &&& Z)
def GG (j : Nat) (X Y Z : Word) : Word :=
  if j < 16 then X ^^^ Y ^^^ Z else (X &&& Y) ||| (~~~X &&& Z)

/-- 4.4 permutation functions -/
def P0 (X : Word) : Word := X ^^^ X.rotateLeft 9 ^^^ X.rotateLeft 17
def P1 (X : Word) : Word := X ^^^ X.rotateLeft 15 ^^^ X.rotateLeft 23

/-- 5.3.2 message expansion: W_0 .. W_67 and W'_j = W_j ⊕ W_{j+4} -/
def W (M : Nat → Word) (j : Nat) : Word :=
  if j < 16 then M j
  else P1 (W M (j - 16) ^^^ W M (j - 9) ^^^ (W M (j - 3)).rotateLeft 15) ^^^
    (W M (j - 13)).rotateLeft 7 ^^^ W M (j - 6)
termination_by j
decreasing_by all_goals omega

def W' (M : Nat → Word) (j : Nat) : Word := W M j ^^^ W M (j + 4)

/-- 5.3.3 compression function, iteration `j` -/
def step (M : Nat → Word) (q : State) (j : Nat) : State :=
  let ((A, B, C, D), (E, F, G, H)) := q
  let SS1 := (A.rotateLeft 12 + E + (T j).rotateLeft (j % 32)).rotateLeft 7
  let SS2 := SS1 ^^^ A.rotateLeft 12
  let TT1 := FF j A B C + D + SS2 + W' M j
  let TT2 := GG j E F G + H + SS1 + W M j
  ((TT1, A, B.rotateLeft 9, C), (P0 TT2, E, F.rotateLeft 19, G))

def compress (V : State) (block : List Byte) : State :=
  let ((A, B, C, D), (E, F, G, H)) := (List.range 64).foldl (step (wordBE 32 block)) V
  let ((a, b, c, d), (e, f, g, h)) := V
  ((A ^^^ a, B ^^^ b, C ^^^ c, D ^^^ d), (E ^^^ e, F ^^^ f, G ^^^ g, H ^^^ h))

/-- 5.2 padding -/
def pad (M : List Byte) : List Byte :=
  M ++ [0x80] ++ List.replicate ((64 - (M.length + 1 + 8) % 64) % 64) 0 ++ toBE 8 (8 * M.length)

/-- 4.1 initial value -/
def init : State := ((0x7380166f, 0x4914b2b9, 0x172442d7, 0xda8a0600),
  (0xa96f30bc, 0x163138aa, 0xe38dee4d, 0xb0fb0e4e))

def sm3 (M : List Byte) : List Byte :=
  let ((A, B, C, D), (E, F, G, H)) := (blocks 64 (pad M)).foldl compress init
  bytesBE [A, B, C, D, E, F, G, H]

end Verif.Spec.SM3
