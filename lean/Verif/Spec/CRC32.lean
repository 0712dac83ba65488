import Verif.Spec.Bytes

/-!
# CRC-32

The bit-at-a-time definition: a 32-bit shift register, all ones at the start, fed with the bits of
the message, least significant bit of each byte first, and complemented at the end
(ITU-T V.42, section 8.1.1.6.2; ISO 3309; RFC 1952, section 8). The register is kept in the
"reflected" order: its bit 0 is the coefficient of x^31. `Props/CRC32.lean` relates this to division
of polynomials.
-/

namespace Verif.Spec.CRC32

/-- Bits 31, 30, ..., 0 are the coefficients of x^0, x^1, ..., x^31 of the generator polynomial
x^32 + x^26 + x^23 + x^22 + x^16 + x^12 + x^11 + x^10 + x^8 + x^7 + x^5 + x^4 + x^2 + x + 1. -/
def poly : BitVec 32 := 0xEDB88320

/-- One bit of the message enters the register. -/
def step (crc : BitVec 32) (bit : Bool) : BitVec 32 :=
  if (crc.getLsbD 0 != bit) = true then (crc >>> 1) ^^^ poly else crc >>> 1

/-- The bits of a byte string in the order of transmission: least significant bit first. -/
def bits (m : List Byte) : List Bool := m.flatMap fun b => (List.range 8).map b.getLsbD

def crc32 (m : List Byte) : BitVec 32 := ~~~ ((bits m).foldl step (BitVec.allOnes 32))

/-- The generator of the tables as the comment in the code gives it (crc_32.h:826-841):
`entry0 i` is eight shifts of the number `i`, ... -/
def shift1 (crc : BitVec 32) : BitVec 32 := (crc >>> 1) ^^^ ((crc &&& 1) * poly)

def entry0 (i : Nat) : BitVec 32 :=
  (List.range 8).foldl (fun crc _ => shift1 crc) (BitVec.ofNat 32 i)

/-- ... and each slice is made from the one before. -/
def table : Nat → Nat → BitVec 32
  | 0, i => entry0 i
  | slice + 1, i => (table slice i >>> 8) ^^^ entry0 (table slice i &&& 0xFF).toNat

end Verif.Spec.CRC32
