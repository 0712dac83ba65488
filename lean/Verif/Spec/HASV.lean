import Verif.Spec.Bytes

/-!
# The function that src/unfinished/has_v_320.cpp computes

HAS-V (Park, Hwang, Lee: "HAS-V: A New Hash Function with Variable Output Length", SAC 2000) has no text in the
repository, and the repository lists its implementation as unfinished. What follows is therefore not the published function
but a short description of the two-line structure found in the code, in the style of `Spec/HAS160.lean`, whose word orders and
constants it shares. C49 proves that the program computes this function, and that it is not the function of the vectors in
the program's own test.
-/

namespace Verif.Spec.HASV

abbrev Word := BitVec 32
/-- one of the two lines: (A, B, C, D, E) -/
abbrev Line := Word × Word × Word × Word × Word

/-- The order in which sixteen message words are used in round `k`. -/
def order (k i : Nat) : Nat :=
  ([[0, 1, 2, 3, 4, 5, 6, 7, 8, 9, 10, 11, 12, 13, 14, 15],
    [3, 6, 9, 12, 15, 2, 5, 8, 11, 14, 1, 4, 7, 10, 13, 0],
    [12, 5, 14, 7, 0, 9, 2, 11, 4, 13, 6, 15, 8, 1, 10, 3],
    [7, 2, 13, 8, 3, 14, 9, 4, 15, 10, 5, 0, 11, 6, 1, 12],
    [15, 9, 5, 3, 12, 8, 6, 2, 13, 11, 7, 1, 14, 10, 4, 0]].getD k []).getD i 0

/-- The exclusive or of the `g`-th group of four words in the order of round `k`: X[16 + g]. -/
def extra (X : Nat → Word) (k g : Nat) : Word :=
  X (order k (4 * g)) ^^^ X (order k (4 * g + 1)) ^^^ X (order k (4 * g + 2)) ^^^ X (order k (4 * g + 3))

/-- The word used in step `i` (of 20) of round `k`: groups of four message words, each preceded by one of the extra words
X[18], X[19], X[16], X[17]. -/
def word (X : Nat → Word) (k i : Nat) : Word :=
  if i % 5 = 0 then extra X k ([2, 3, 0, 1].getD (i / 5) 0)
  else X (order k (i - i / 5 - 1))

/-- the five Boolean functions -/
def f (n : Nat) (x y z u : Word) : Word :=
  match n with
  | 0 => (x &&& y) ^^^ (~~~x &&& z) ^^^ (y &&& u) ^^^ (z &&& u)
  | 1 => (x &&& z) ^^^ y ^^^ u
  | 2 => (x &&& y) ^^^ (~~~x &&& u) ^^^ z
  | 3 => (y &&& z) ^^^ x ^^^ u
  | _ => (x &&& z) ^^^ (~~~x &&& y) ^^^ (z &&& u) ^^^ (y &&& u)

/-- the constants of the five rounds on the left … -/
def KL (r : Nat) : Word := [0x00000000, 0x5A827999, 0x6ED9EBA1, 0x8F1BBCDC, 0xA953FD4E].getD r 0
/-- … and on the right -/
def KR (r : Nat) : Word := [0xA953FD4E, 0x8F1BBCDC, 0x00000000, 0x5A827999, 0x6ED9EBA1].getD r 0

/-- rotation of A in step `i` of every round -/
def s (i : Nat) : Nat := [5, 11, 7, 13, 15, 6, 13, 9, 5, 11, 7, 12, 8, 15, 13, 8, 15, 6, 7, 14].getD i 0

/-- Step `i` of 20. -/
def step (X : Nat → Word) (r n : Nat) (K : Word) (q : Line) (i : Nat) : Line :=
  let (A, B, C, D, E) := q
  (A.rotateLeft (s i) + f n B C D E + word X r i + K, A, B.rotateLeft 30, C, D)

/-- the twenty steps of round `r` on one line, with the message words `X` -/
def line (X : Nat → Word) (r n : Nat) (K : Word) (q : Line) : Line := (List.range 20).foldl (step X r n K) q

/-- Round `r`: the left line uses the functions 0 to 4 in turn and the first half `X` of the block, the right line the
functions 4 to 0 and the second half `Y`; then the lines change places. -/
def round (X Y : Nat → Word) (pq : Line × Line) (r : Nat) : Line × Line :=
  (line Y r (4 - r) (KR r) pq.2, line X r r (KL r) pq.1)

def addLine (p q : Line) : Line :=
  (p.1 + q.1, p.2.1 + q.2.1, p.2.2.1 + q.2.2.1, p.2.2.2.1 + q.2.2.2.1, p.2.2.2.2 + q.2.2.2.2)

def compress (h : Line × Line) (block : List Byte) : Line × Line :=
  let (p, q) := (List.range 5).foldl (round (wordLE 32 block) (fun i => wordLE 32 block (16 + i))) h
  (addLine h.1 p, addLine h.2 q)

/-- a one bit, zeros, the length of the digest in bytes, the length of the message in bits -/
def pad (M : List Byte) : List Byte :=
  M ++ [0x80] ++ List.replicate ((128 - (M.length + 1 + 9) % 128) % 128) 0 ++ [40] ++ toLE 8 (8 * M.length)

def init : Line × Line :=
  ((0x67452301, 0xEFCDAB89, 0x98BADCFE, 0x10325476, 0xC3D2E1F0),
    (0x8796A5B4, 0x4B5A6978, 0x0F1E2D3C, 0xA0B1C2D3, 0x68794E5F))

def hasv320 (M : List Byte) : List Byte :=
  let ((A, B, C, D, E), (F, G, H, I, J)) := (blocks 128 (pad M)).foldl compress init
  bytesLE [A, B, C, D, E, F, G, H, I, J]

end Verif.Spec.HASV
