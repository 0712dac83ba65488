import Verif.Spec.Bytes

/-! # FIPS 180-4: SHA-1 -/

namespace Verif.Spec.SHA1

/-- 4.1.1 -/
def f (t : Nat) (x y z : BitVec 32) : BitVec 32 :=
  if t < 20 then (x &&& y) ^^^ (~~~x &&& z)
  else if t < 40 then x ^^^ y ^^^ z
  else if t < 60 then (x &&& y) ^^^ (x &&& z) ^^^ (y &&& z)
  else x ^^^ y ^^^ z

/-- 4.2.1 -/
def K (t : Nat) : BitVec 32 :=
  if t < 20 then 0x5a827999
  else if t < 40 then 0x6ed9eba1
  else if t < 60 then 0x8f1bbcdc
  else 0xca62c1d6

structure State where
  (a b c d e : BitVec 32)
  deriving DecidableEq

/-- 6.1.2 step 1 -/
def W (M : Nat → BitVec 32) (t : Nat) : BitVec 32 :=
  if t < 16 then M t
  else (W M (t - 3) ^^^ W M (t - 8) ^^^ W M (t - 14) ^^^ W M (t - 16)).rotateLeft 1

/-- 6.1.2 step 3 -/
def step (M : Nat → BitVec 32) (s : State) (t : Nat) : State :=
  let T := s.a.rotateLeft 5 + f t s.b s.c s.d + s.e + K t + W M t
  { a := T, b := s.a, c := s.b.rotateLeft 30, d := s.c, e := s.d }

/-- 6.1.2 -/
def compress (H : State) (block : List Byte) : State :=
  let s := (List.range 80).foldl (step (wordBE 32 block)) H
  ⟨H.a + s.a, H.b + s.b, H.c + s.c, H.d + s.d, H.e + s.e⟩

/-- 5.1.1 -/
def pad (M : List Byte) : List Byte :=
  M ++ [0x80] ++ List.replicate ((64 - (M.length + 1 + 8) % 64) % 64) 0 ++ toBE 8 (8 * M.length)

/-- 5.3.1 -/
def H0 : State := ⟨0x67452301, 0xefcdab89, 0x98badcfe, 0x10325476, 0xc3d2e1f0⟩

def sha1 (M : List Byte) : List Byte :=
  let s := (blocks 64 (pad M)).foldl compress H0
  bytesBE [s.a, s.b, s.c, s.d, s.e]

end Verif.Spec.SHA1
