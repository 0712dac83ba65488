import Verif.Spec.Bytes
import Verif.Spec.Numbers

/-!
# FIPS 180-4: SHA-224, SHA-256, SHA-384, SHA-512, SHA-512/224, SHA-512/256

Written from the standard; section numbers are those of FIPS 180-4.
-/

namespace Verif.Spec.SHA2

/-- The functions of sections 4.1.2 and 4.1.3, and the constants of 4.2.2 and 4.2.3. -/
structure Params (w : Nat) where
  rounds : Nat
  Sigma0 : BitVec w → BitVec w
  Sigma1 : BitVec w → BitVec w
  sigma0 : BitVec w → BitVec w
  sigma1 : BitVec w → BitVec w
  K : Nat → BitVec w

def Ch {w : Nat} (x y z : BitVec w) : BitVec w := (x &&& y) ^^^ (~~~x &&& z)
def Maj {w : Nat} (x y z : BitVec w) : BitVec w := (x &&& y) ^^^ (x &&& z) ^^^ (y &&& z)

/-- The first eighty primes are the primes below 410. -/
def prime (t : Nat) : Nat := (primesBelow 410).getD t 0

/-- 4.1.2, 4.2.2: SHA-224 and SHA-256. -/
def p256 : Params 32 where
  rounds := 64
  Sigma0 x := x.rotateRight 2 ^^^ x.rotateRight 13 ^^^ x.rotateRight 22
  Sigma1 x := x.rotateRight 6 ^^^ x.rotateRight 11 ^^^ x.rotateRight 25
  sigma0 x := x.rotateRight 7 ^^^ x.rotateRight 18 ^^^ (x >>> 3)
  sigma1 x := x.rotateRight 17 ^^^ x.rotateRight 19 ^^^ (x >>> 10)
  K t := fracRoot 3 32 (prime t)

/-- 4.1.3, 4.2.3: SHA-384, SHA-512, SHA-512/224, SHA-512/256. -/
def p512 : Params 64 where
  rounds := 80
  Sigma0 x := x.rotateRight 28 ^^^ x.rotateRight 34 ^^^ x.rotateRight 39
  Sigma1 x := x.rotateRight 14 ^^^ x.rotateRight 18 ^^^ x.rotateRight 41
  sigma0 x := x.rotateRight 1 ^^^ x.rotateRight 8 ^^^ (x >>> 7)
  sigma1 x := x.rotateRight 19 ^^^ x.rotateRight 61 ^^^ (x >>> 6)
  K t := fracRoot 3 64 (prime t)

/-- The eight working variables / words of the hash value. -/
structure State (w : Nat) where
  (a b c d e f g h : BitVec w)
  deriving DecidableEq

variable {w : Nat} (p : Params w)

/-- Message schedule (6.2.2 step 1, 6.4.2 step 1). -/
def W (M : Nat → BitVec w) (t : Nat) : BitVec w :=
  if t < 16 then M t
  else p.sigma1 (W M (t - 2)) + W M (t - 7) + p.sigma0 (W M (t - 15)) + W M (t - 16)

/-- Step 3 for one `t`. -/
def step (M : Nat → BitVec w) (s : State w) (t : Nat) : State w :=
  let T1 := s.h + p.Sigma1 s.e + Ch s.e s.f s.g + p.K t + W p M t
  let T2 := p.Sigma0 s.a + Maj s.a s.b s.c
  { a := T1 + T2, b := s.a, c := s.b, d := s.c, e := s.d + T1, f := s.e, g := s.f, h := s.g }

/-- Steps 2 to 4: the next intermediate hash value. -/
def compress (H : State w) (block : List Byte) : State w :=
  let M := wordBE w block
  let s := (List.range p.rounds).foldl (step p M) H
  { a := H.a + s.a, b := H.b + s.b, c := H.c + s.c, d := H.d + s.d,
    e := H.e + s.e, f := H.f + s.f, g := H.g + s.g, h := H.h + s.h }

/-- Padding (5.1): a one bit, the least number of zero bits, and the length in bits as an
`L`-byte number, to a multiple of `B` bytes. -/
def pad (B L : Nat) (M : List Byte) : List Byte :=
  M ++ [0x80] ++ List.replicate ((B - (M.length + 1 + L) % B) % B) 0 ++ toBE L (8 * M.length)

def State.words (s : State w) : List (BitVec w) := [s.a, s.b, s.c, s.d, s.e, s.f, s.g, s.h]

/-- 6.2, 6.4: the final hash value as bytes. -/
def hash (B L : Nat) (H0 : State w) (M : List Byte) : List Byte :=
  bytesBE ((blocks B (pad B L M)).foldl (compress p) H0).words

def ofFn (f : Nat → BitVec w) : State w := ⟨f 0, f 1, f 2, f 3, f 4, f 5, f 6, f 7⟩

/-- 5.3.3: fractional parts of the square roots of the first eight primes. -/
def H256 : State 32 := ofFn fun i => fracRoot 2 32 (prime i)
/-- 5.3.5 -/
def H512 : State 64 := ofFn fun i => fracRoot 2 64 (prime i)
/-- 5.3.4: fractional parts of the square roots of the ninth through sixteenth primes. -/
def H384 : State 64 := ofFn fun i => fracRoot 2 64 (prime (8 + i))
/-- 5.3.2: the second (low-order) 32 bits of the same fractional parts. -/
def H224 : State 32 := ofFn fun i => (fracRoot 2 64 (prime (8 + i))).setWidth 32

/-- SHA-224, SHA-256 for messages of fewer than 2^64 bits. -/
def sha256 (M : List Byte) : List Byte := hash p256 64 8 H256 M
def sha224 (M : List Byte) : List Byte := (hash p256 64 8 H224 M).take 28
/-- SHA-384, SHA-512 for messages of fewer than 2^128 bits. -/
def sha512 (M : List Byte) : List Byte := hash p512 128 16 H512 M
def sha384 (M : List Byte) : List Byte := (hash p512 128 16 H384 M).take 48

/-- 5.3.6 SHA-512/t IV generation: the hash of the ASCII name with the masked initial value. -/
def H512t (name : List Byte) : State 64 :=
  let m : BitVec 64 := 0xa5a5a5a5a5a5a5a5
  let H := H512
  let H' : State 64 := ⟨H.a ^^^ m, H.b ^^^ m, H.c ^^^ m, H.d ^^^ m, H.e ^^^ m, H.f ^^^ m, H.g ^^^ m, H.h ^^^ m⟩
  ofFn (wordBE 64 (hash p512 128 16 H' name))

/-- "SHA-512/224" -/
def name224 : List Byte := [0x53, 0x48, 0x41, 0x2d, 0x35, 0x31, 0x32, 0x2f, 0x32, 0x32, 0x34]
/-- "SHA-512/256" -/
def name256 : List Byte := [0x53, 0x48, 0x41, 0x2d, 0x35, 0x31, 0x32, 0x2f, 0x32, 0x35, 0x36]

def sha512_224 (M : List Byte) : List Byte := (hash p512 128 16 (H512t name224) M).take 28
def sha512_256 (M : List Byte) : List Byte := (hash p512 128 16 (H512t name256) M).take 32

end Verif.Spec.SHA2
