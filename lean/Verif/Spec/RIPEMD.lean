import Verif.Spec.Bytes

/-! # RIPEMD-128, RIPEMD-160 and their double-length versions RIPEMD-256, RIPEMD-320

Dobbertin, Bosselaers, Preneel, "RIPEMD-160: A Strengthened Version of RIPEMD", and the pseudo-code
published with it. -/

namespace Verif.Spec.RIPEMD

abbrev Word := BitVec 32

/-- Nonlinear functions at bit level; `i` is the round (0 .. 4). -/
def f (i : Nat) (x y z : Word) : Word :=
  match i with
  | 0 => x ^^^ y ^^^ z
  | 1 => (x &&& y) ||| (~~~x &&& z)
  | 2 => (x ||| ~~~y) ^^^ z
  | 3 => (x &&& z) ||| (y &&& ~~~z)
  | _ => x ^^^ (y ||| ~~~z)

/-- Added constants, left line. -/
def K (i : Nat) : Word := [0x00000000, 0x5A827999, 0x6ED9EBA1, 0x8F1BBCDC, 0xA953FD4E].getD i 0
/-- Added constants, right line of the five-round versions. -/
def K' (i : Nat) : Word := [0x50A28BE6, 0x5C4DD124, 0x6D703EF3, 0x7A6D76E9, 0x00000000].getD i 0
/-- Added constants, right line of the four-round versions. -/
def K4' (i : Nat) : Word := [0x50A28BE6, 0x5C4DD124, 0x6D703EF3, 0x00000000].getD i 0

/-- Selection of message word: the permutations `ρ` and `π`; the left line uses `id, ρ, ρ², ρ³, ρ⁴`,
the right line `π, ρπ, ρ²π, ρ³π, ρ⁴π`. -/
def rho (i : Nat) : Nat := [7, 4, 13, 1, 10, 6, 15, 3, 12, 0, 9, 5, 2, 14, 11, 8].getD i 0
def pi (i : Nat) : Nat := (9 * i + 5) % 16
def r (j : Nat) : Nat := Nat.repeat rho (j / 16) (j % 16)
def r' (j : Nat) : Nat := Nat.repeat rho (j / 16) (pi (j % 16))

/-- Amount for rotate left, left line. -/
def s (j : Nat) : Nat :=
  [11, 14, 15, 12, 5, 8, 7, 9, 11, 13, 14, 15, 6, 7, 9, 8,
   7, 6, 8, 13, 11, 9, 7, 15, 7, 12, 15, 9, 11, 7, 13, 12,
   11, 13, 6, 7, 14, 9, 13, 15, 14, 8, 13, 6, 5, 12, 7, 5,
   11, 12, 14, 15, 14, 15, 9, 8, 9, 14, 5, 6, 8, 6, 5, 12,
   9, 15, 5, 11, 6, 8, 13, 12, 5, 12, 13, 14, 11, 8, 5, 6].getD j 0
/-- Amount for rotate left, right line. -/
def s' (j : Nat) : Nat :=
  [8, 9, 9, 11, 13, 15, 15, 5, 7, 7, 8, 11, 14, 14, 12, 6,
   9, 13, 15, 7, 12, 8, 9, 11, 7, 7, 12, 7, 6, 15, 13, 11,
   9, 7, 15, 11, 8, 6, 6, 14, 12, 13, 5, 14, 13, 13, 7, 5,
   15, 5, 8, 11, 14, 14, 6, 14, 6, 9, 12, 9, 12, 5, 15, 8,
   8, 5, 12, 9, 12, 5, 14, 6, 8, 13, 6, 5, 15, 13, 11, 11].getD j 0

/-! ## Four registers -/

abbrev Q4 := Word × Word × Word × Word

/-- One step of a line: `T := rol_s(A + f(B,C,D) + X[r] + K); A := D; D := C; C := B; B := T`. -/
def step4 (g : Nat) (X K : Word) (s : Nat) (q : Q4) : Q4 :=
  let (A, B, C, D) := q
  (D, (A + f g B C D + X + K).rotateLeft s, B, C)

/-- Step `j` of the left and of the right line; the right line uses the functions in reverse order. -/
def left4 (X : Nat → Word) (q : Q4) (j : Nat) : Q4 := step4 (j / 16) (X (r j)) (K (j / 16)) (s j) q
def right4 (X : Nat → Word) (q : Q4) (j : Nat) : Q4 :=
  step4 (3 - j / 16) (X (r' j)) (K4' (j / 16)) (s' j) q

def compress128 (h : Q4) (block : List Byte) : Q4 :=
  let X := wordLE 32 block
  let (A, B, C, D) := (List.range 64).foldl (left4 X) h
  let (A', B', C', D') := (List.range 64).foldl (right4 X) h
  let (h0, h1, h2, h3) := h
  (h1 + C + D', h2 + D + A', h3 + A + B', h0 + B + C')

/-- Exchange register number `i` of the two lines. -/
def exchange4 (i : Nat) (p : Q4 × Q4) : Q4 × Q4 :=
  let ((A, B, C, D), (A', B', C', D')) := p
  match i with
  | 0 => ((A', B, C, D), (A, B', C', D'))
  | 1 => ((A, B', C, D), (A', B, C', D'))
  | 2 => ((A, B, C', D), (A', B', C, D'))
  | _ => ((A, B, C, D'), (A', B', C', D))

/-- One step of both lines, and the exchange at the end of each round:
`A` after step 15, `B` after step 31, `C` after step 47, `D` after step 63. -/
def both4 (X : Nat → Word) (p : Q4 × Q4) (j : Nat) : Q4 × Q4 :=
  let p := (left4 X p.1 j, right4 X p.2 j)
  if j % 16 = 15 then exchange4 (j / 16) p else p

def compress256 (h : Q4 × Q4) (block : List Byte) : Q4 × Q4 :=
  let X := wordLE 32 block
  let ((A, B, C, D), (A', B', C', D')) := (List.range 64).foldl (both4 X) h
  let ((h0, h1, h2, h3), (h4, h5, h6, h7)) := h
  ((h0 + A, h1 + B, h2 + C, h3 + D), (h4 + A', h5 + B', h6 + C', h7 + D'))

/-! ## Five registers -/

abbrev Q5 := Word × Word × Word × Word × Word

/-- `T := rol_s(A + f(B,C,D) + X[r] + K) + E; A := E; E := D; D := rol_10(C); C := B; B := T`. -/
def step5 (g : Nat) (X K : Word) (s : Nat) (q : Q5) : Q5 :=
  let (A, B, C, D, E) := q
  (E, (A + f g B C D + X + K).rotateLeft s + E, B, C.rotateLeft 10, D)

def left5 (X : Nat → Word) (q : Q5) (j : Nat) : Q5 := step5 (j / 16) (X (r j)) (K (j / 16)) (s j) q
def right5 (X : Nat → Word) (q : Q5) (j : Nat) : Q5 :=
  step5 (4 - j / 16) (X (r' j)) (K' (j / 16)) (s' j) q

def compress160 (h : Q5) (block : List Byte) : Q5 :=
  let X := wordLE 32 block
  let (A, B, C, D, E) := (List.range 80).foldl (left5 X) h
  let (A', B', C', D', E') := (List.range 80).foldl (right5 X) h
  let (h0, h1, h2, h3, h4) := h
  (h1 + C + D', h2 + D + E', h3 + E + A', h4 + A + B', h0 + B + C')

/-- The exchange at the end of round `i`: `B`, `D`, `A`, `C`, `E`. -/
def exchange5 (i : Nat) (p : Q5 × Q5) : Q5 × Q5 :=
  let ((A, B, C, D, E), (A', B', C', D', E')) := p
  match i with
  | 0 => ((A, B', C, D, E), (A', B, C', D', E'))
  | 1 => ((A, B, C, D', E), (A', B', C', D, E'))
  | 2 => ((A', B, C, D, E), (A, B', C', D', E'))
  | 3 => ((A, B, C', D, E), (A', B', C, D', E'))
  | _ => ((A, B, C, D, E'), (A', B', C', D', E))

def both5 (X : Nat → Word) (p : Q5 × Q5) (j : Nat) : Q5 × Q5 :=
  let p := (left5 X p.1 j, right5 X p.2 j)
  if j % 16 = 15 then exchange5 (j / 16) p else p

def compress320 (h : Q5 × Q5) (block : List Byte) : Q5 × Q5 :=
  let X := wordLE 32 block
  let ((A, B, C, D, E), (A', B', C', D', E')) := (List.range 80).foldl (both5 X) h
  let ((h0, h1, h2, h3, h4), (h5, h6, h7, h8, h9)) := h
  ((h0 + A, h1 + B, h2 + C, h3 + D, h4 + E), (h5 + A', h6 + B', h7 + C', h8 + D', h9 + E'))

/-! ## The hash functions -/

/-- Padding as in MD4. -/
def pad (M : List Byte) : List Byte :=
  M ++ [0x80] ++ List.replicate ((64 - (M.length + 1 + 8) % 64) % 64) 0 ++ toLE 8 (8 * M.length)

def init128 : Q4 := (0x67452301, 0xEFCDAB89, 0x98BADCFE, 0x10325476)
def init160 : Q5 := (0x67452301, 0xEFCDAB89, 0x98BADCFE, 0x10325476, 0xC3D2E1F0)
def init256 : Q4 × Q4 := (init128, (0x76543210, 0xFEDCBA98, 0x89ABCDEF, 0x01234567))
def init320 : Q5 × Q5 := (init160, (0x76543210, 0xFEDCBA98, 0x89ABCDEF, 0x01234567, 0x3C2D1E0F))

def words4 (q : Q4) : List Word := [q.1, q.2.1, q.2.2.1, q.2.2.2]
def words5 (q : Q5) : List Word := [q.1, q.2.1, q.2.2.1, q.2.2.2.1, q.2.2.2.2]

def ripemd128 (M : List Byte) : List Byte :=
  bytesLE (words4 ((blocks 64 (pad M)).foldl compress128 init128))
def ripemd160 (M : List Byte) : List Byte :=
  bytesLE (words5 ((blocks 64 (pad M)).foldl compress160 init160))
def ripemd256 (M : List Byte) : List Byte :=
  let q := (blocks 64 (pad M)).foldl compress256 init256
  bytesLE (words4 q.1 ++ words4 q.2)
def ripemd320 (M : List Byte) : List Byte :=
  let q := (blocks 64 (pad M)).foldl compress320 init320
  bytesLE (words5 q.1 ++ words5 q.2)

end Verif.Spec.RIPEMD
