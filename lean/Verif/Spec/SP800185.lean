import Verif.Spec.Keccak
import Verif.Spec.Bytes

/-!
# NIST SP 800-185: cSHAKE and TupleHash, on byte strings

Lengths `L` of outputs are in bytes here; the standard's bit lengths are 8 times that.
-/

namespace Verif.Spec.SP800185

/-- 2.3.1: the smallest positive `n` with `2^(8 n) > x` (shown to be that in Props/CShake.lean) -/
def byteLen (x : Nat) : Nat := if x < 256 then 1 else byteLen (x / 256) + 1
termination_by x
decreasing_by omega

/-- A function that counts the bytes of every positive multiple of 8 below 2^56 - 2048: what the theorems need of
the code's `lround(log2(v) / 8 + 0.5)`. Those are the bit lengths of strings shorter than 2^53 - 256 bytes. -/
def ExactLog (nb : Nat → Nat) : Prop := ∀ v, 0 < v → v < 2 ^ 56 - 2048 → v % 8 = 0 → nb v = byteLen v

/-- 2.3.1: `O_0 || O_1 || ... || O_n`, the number of bytes and then the base-256 digits -/
def leftEncode (x : Nat) : List Byte := BitVec.ofNat 8 (byteLen x) :: toBE (byteLen x) x

/-- 2.3.1: the base-256 digits and then their number -/
def rightEncode (x : Nat) : List Byte := toBE (byteLen x) x ++ [BitVec.ofNat 8 (byteLen x)]

/-- 2.3.2 -/
def encodeString (S : List Byte) : List Byte := leftEncode (8 * S.length) ++ S

/-- 2.3.3: `left_encode(w) || X`, then zero bytes up to a multiple of `w` bytes -/
def bytepad (X : List Byte) (w : Nat) : List Byte :=
  let z := leftEncode w ++ X
  z ++ List.replicate ((w - z.length % w) % w) 0

/-- 3.3 -/
def cshake128 (X : List Byte) (L : Nat) (N S : List Byte) : List Byte :=
  if N = [] ∧ S = [] then Keccak.shake128 X L
  else Keccak.bytes (Keccak.keccak 256
    (Keccak.bits (bytepad (encodeString N ++ encodeString S) 168 ++ X) ++ [false, false]) (8 * L))

/-- 3.3 -/
def cshake256 (X : List Byte) (L : Nat) (N S : List Byte) : List Byte :=
  if N = [] ∧ S = [] then Keccak.shake256 X L
  else Keccak.bytes (Keccak.keccak 512
    (Keccak.bits (bytepad (encodeString N ++ encodeString S) 136 ++ X) ++ [false, false]) (8 * L))

/-- the ASCII bytes of "TupleHash" -/
def tupleHashName : List Byte := [0x54, 0x75, 0x70, 0x6c, 0x65, 0x48, 0x61, 0x73, 0x68]

/-- 5.3: the string given to cSHAKE -/
def tupleInput (X : List (List Byte)) (L : Nat) : List Byte := X.flatMap encodeString ++ rightEncode (8 * L)

def tupleHash128 (X : List (List Byte)) (L : Nat) (S : List Byte) : List Byte :=
  cshake128 (tupleInput X L) L tupleHashName S

def tupleHash256 (X : List (List Byte)) (L : Nat) (S : List Byte) : List Byte :=
  cshake256 (tupleInput X L) L tupleHashName S

end Verif.Spec.SP800185
