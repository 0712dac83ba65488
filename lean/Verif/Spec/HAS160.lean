import Verif.Spec.Bytes

/-! # HAS-160 (TTAS.KO-12.0011/R2) -/

namespace Verif.Spec.HAS160

abbrev Word := BitVec 32
/-- (A, B, C, D, E) -/
abbrev State := Word × Word × Word × Word × Word

/-- The order in which the sixteen message words are used in round `k`. -/
def order (k i : Nat) : Nat :=
  ([[0, 1, 2, 3, 4, 5, 6, 7, 8, 9, 10, 11, 12, 13, 14, 15],
    [3, 6, 9, 12, 15, 2, 5, 8, 11, 14, 1, 4, 7, 10, 13, 0],
    [12, 5, 14, 7, 0, 9, 2, 11, 4, 13, 6, 15, 8, 1, 10, 3],
    [7, 2, 13, 8, 3, 14, 9, 4, 15, 10, 5, 0, 11, 6, 1, 12]].getD k []).getD i 0

/-- The exclusive or of the `g`-th group of four words in the order of round `k`: X[16 + g]. -/
def extra (X : Nat → Word) (k g : Nat) : Word :=
  X (order k (4 * g)) ^^^ X (order k (4 * g + 1)) ^^^ X (order k (4 * g + 2)) ^^^ X (order k (4 * g + 3))

/-- The word used in step `i` (of 20) of round `k`: groups of four message words, each preceded by
one of the extra words X[18], X[19], X[16], X[17]. -/
def word (X : Nat → Word) (k i : Nat) : Word :=
  if i % 5 = 0 then extra X k ([2, 3, 0, 1].getD (i / 5) 0)
  else X (order k (i - i / 5 - 1))

def f (k : Nat) (x y z : Word) : Word :=
  match k with
  | 0 => (x &&& y) ||| (~~~x &&& z)
  | 1 => x ^^^ y ^^^ z
  | 2 => y ^^^ (x ||| ~~~z)
  | _ => x ^^^ y ^^^ z

def K (k : Nat) : Word := [0x00000000, 0x5A827999, 0x6ED9EBA1, 0x8F1BBCDC].getD k 0

/-- rotation of A in step `i` of every round -/
def s1 (i : Nat) : Nat :=
  [5, 11, 7, 15, 6, 13, 8, 14, 7, 12, 9, 11, 8, 15, 6, 12, 9, 14, 5, 13].getD i 0
/-- rotation of B in round `k` -/
def s2 (k : Nat) : Nat := [10, 17, 25, 30].getD k 0

/-- Step `t` of 80. -/
def step (X : Nat → Word) (q : State) (t : Nat) : State :=
  let (A, B, C, D, E) := q
  (A.rotateLeft (s1 (t % 20)) + f (t / 20) B C D + E + word X (t / 20) (t % 20) + K (t / 20),
    A, B.rotateLeft (s2 (t / 20)), C, D)

def compress (q : State) (block : List Byte) : State :=
  let (h0, h1, h2, h3, h4) := q
  let (A, B, C, D, E) := (List.range 80).foldl (step (wordLE 32 block)) q
  (h0 + A, h1 + B, h2 + C, h3 + D, h4 + E)

def pad (M : List Byte) : List Byte :=
  M ++ [0x80] ++ List.replicate ((64 - (M.length + 1 + 8) % 64) % 64) 0 ++ toLE 8 (8 * M.length)

def init : State := (0x67452301, 0xEFCDAB89, 0x98BADCFE, 0x10325476, 0xC3D2E1F0)

def has160 (M : List Byte) : List Byte :=
  let (A, B, C, D, E) := (blocks 64 (pad M)).foldl compress init
  bytesLE [A, B, C, D, E]

end Verif.Spec.HAS160
