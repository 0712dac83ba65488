import Verif.Spec.Bytes

/-! # RFC 1321: MD5 -/

namespace Verif.Spec.MD5

abbrev Word := BitVec 32
/-- The buffer (A, B, C, D). -/
abbrev State := Word × Word × Word × Word

/-- Section 3.4 -/
def F (X Y Z : Word) : Word := (X &&& Y) ||| (~~~X &&& Z)
def G (X Y Z : Word) : Word := (X &&& Z) ||| (Y &&& ~~~Z)
def H (X Y Z : Word) : Word := X ^^^ Y ^^^ Z
def I (X Y Z : Word) : Word := Y ^^^ (X ||| ~~~Z)

/-- The table `T[1 .. 64]` of the RFC: `T[i]` is the integer part of `4294967296 * |sin i|`
(the appendix of the RFC lists the values; Props/Pi.lean proves that they are those). -/
def T : List Word := [
  0xd76aa478, 0xe8c7b756, 0x242070db, 0xc1bdceee, 0xf57c0faf, 0x4787c62a, 0xa8304613, 0xfd469501,
  0x698098d8, 0x8b44f7af, 0xffff5bb1, 0x895cd7be, 0x6b901122, 0xfd987193, 0xa679438e, 0x49b40821,
  0xf61e2562, 0xc040b340, 0x265e5a51, 0xe9b6c7aa, 0xd62f105d, 0x02441453, 0xd8a1e681, 0xe7d3fbc8,
  0x21e1cde6, 0xc33707d6, 0xf4d50d87, 0x455a14ed, 0xa9e3e905, 0xfcefa3f8, 0x676f02d9, 0x8d2a4c8a,
  0xfffa3942, 0x8771f681, 0x6d9d6122, 0xfde5380c, 0xa4beea44, 0x4bdecfa9, 0xf6bb4b60, 0xbebfbc70,
  0x289b7ec6, 0xeaa127fa, 0xd4ef3085, 0x04881d05, 0xd9d4d039, 0xe6db99e5, 0x1fa27cf8, 0xc4ac5665,
  0xf4292244, 0x432aff97, 0xab9423a7, 0xfc93a039, 0x655b59c3, 0x8f0ccc92, 0xffeff47d, 0x85845dd1,
  0x6fa87e4f, 0xfe2ce6e0, 0xa3014314, 0x4e0811a1, 0xf7537e82, 0xbd3af235, 0x2ad7d2bb, 0xeb86d391]

/-- Step `t` of 64 (`i = t + 1` in the RFC): word index, shift and function of section 3.4. -/
def k (t : Nat) : Nat :=
  if t < 16 then t
  else if t < 32 then (5 * t + 1) % 16
  else if t < 48 then (3 * t + 5) % 16
  else (7 * t) % 16

def s (t : Nat) : Nat :=
  if t < 16 then [7, 12, 17, 22].getD (t % 4) 0
  else if t < 32 then [5, 9, 14, 20].getD (t % 4) 0
  else if t < 48 then [4, 11, 16, 23].getD (t % 4) 0
  else [6, 10, 15, 21].getD (t % 4) 0

def f (t : Nat) : Word → Word → Word → Word :=
  if t < 16 then F else if t < 32 then G else if t < 48 then H else I

/-- `[abcd k s i]`: `a = b + ((a + f(b,c,d) + X[k] + T[i]) <<< s)`; the next step has the names
rotated. -/
def step (X : Nat → Word) (q : State) (t : Nat) : State :=
  let (a, b, c, d) := q
  (d, b + (a + f t b c d + X (k t) + T.getD t 0).rotateLeft (s t), b, c)

def compress (q : State) (block : List Byte) : State :=
  let (A, B, C, D) := q
  let (a, b, c, d) := (List.range 64).foldl (step (wordLE 32 block)) q
  (A + a, B + b, C + c, D + d)

/-- Sections 3.1 and 3.2 -/
def pad (M : List Byte) : List Byte :=
  M ++ [0x80] ++ List.replicate ((64 - (M.length + 1 + 8) % 64) % 64) 0 ++ toLE 8 (8 * M.length)

/-- Section 3.3 -/
def init : State := (0x67452301, 0xefcdab89, 0x98badcfe, 0x10325476)

def md5 (M : List Byte) : List Byte :=
  let (A, B, C, D) := (blocks 64 (pad M)).foldl compress init
  bytesLE [A, B, C, D]

end Verif.Spec.MD5
