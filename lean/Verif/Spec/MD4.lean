import Verif.Spec.Bytes

/-! # RFC 1320: MD4 -/

namespace Verif.Spec.MD4

abbrev Word := BitVec 32
/-- The buffer (A, B, C, D). -/
abbrev State := Word × Word × Word × Word

/-- Section 3.4 -/
def F (X Y Z : Word) : Word := (X &&& Y) ||| (~~~X &&& Z)
def G (X Y Z : Word) : Word := (X &&& Y) ||| (X &&& Z) ||| (Y &&& Z)
def H (X Y Z : Word) : Word := X ^^^ Y ^^^ Z

/-- Step `t` of 48: the word index `k`, the shift `s`, the function and the constant, read off the
lists of section 3.4. -/
def k (t : Nat) : Nat :=
  if t < 16 then t
  else if t < 32 then 4 * (t % 4) + (t - 16) / 4
  else [0, 8, 4, 12, 2, 10, 6, 14, 1, 9, 5, 13, 3, 11, 7, 15].getD (t - 32) 0

def s (t : Nat) : Nat :=
  if t < 16 then [3, 7, 11, 19].getD (t % 4) 0
  else if t < 32 then [3, 5, 9, 13].getD (t % 4) 0
  else [3, 9, 11, 15].getD (t % 4) 0

def f (t : Nat) : Word → Word → Word → Word := if t < 16 then F else if t < 32 then G else H

def K (t : Nat) : Word := if t < 16 then 0 else if t < 32 then 0x5A827999 else 0x6ED9EBA1

/-- `[abcd k s]`: `a = (a + f(b,c,d) + X[k] + K) <<< s`; the next step is written `[dabc ..]`, that is
with the names rotated. -/
def step (X : Nat → Word) (q : State) (t : Nat) : State :=
  let (a, b, c, d) := q
  (d, (a + f t b c d + X (k t) + K t).rotateLeft (s t), b, c)

def compress (q : State) (block : List Byte) : State :=
  let (A, B, C, D) := q
  let (a, b, c, d) := (List.range 48).foldl (step (wordLE 32 block)) q
  (A + a, B + b, C + c, D + d)

/-- Sections 3.1 and 3.2 -/
def pad (M : List Byte) : List Byte :=
  M ++ [0x80] ++ List.replicate ((64 - (M.length + 1 + 8) % 64) % 64) 0 ++ toLE 8 (8 * M.length)

/-- Section 3.3: word A is 01 23 45 67 low-order byte first, and so on. -/
def init : State := (0x67452301, 0xefcdab89, 0x98badcfe, 0x10325476)

def md4 (M : List Byte) : List Byte :=
  let (A, B, C, D) := (blocks 64 (pad M)).foldl compress init
  bytesLE [A, B, C, D]

end Verif.Spec.MD4
