import Verif.Spec.Bytes

/-!
# FNV-0, FNV-1, FNV-1a

Written from draft-eastlake-fnv, sections 2 to 5.
-/

namespace Verif.Spec.FNV

/-- Section 2.1: the primes for 32 and 64 bits. -/
def prime32 : BitVec 32 := BitVec.ofNat 32 (2 ^ 24 + 2 ^ 8 + 0x93)
def prime64 : BitVec 64 := BitVec.ofNat 64 (2 ^ 40 + 2 ^ 8 + 0xb3)

variable {w : Nat}

/-- FNV-1 (and FNV-0): multiply, then exclusive-or the octet into the low byte. -/
def fnv1 (prime offset_basis : BitVec w) (m : List Byte) : BitVec w :=
  m.foldl (fun hash octet => hash * prime ^^^ octet.setWidth w) offset_basis

/-- FNV-1a: the two steps in the other order. -/
def fnv1a (prime offset_basis : BitVec w) (m : List Byte) : BitVec w :=
  m.foldl (fun hash octet => (hash ^^^ octet.setWidth w) * prime) offset_basis

/-- Section 2.2: the offset basis is the FNV-0 hash of these 32 octets:
`chongo <Landon Curt Noll> /\../\`. -/
def signature : List Byte :=
  ("chongo <Landon Curt Noll> /\\../\\".toList.map fun ch => BitVec.ofNat 8 ch.toNat)

def basis32 : BitVec 32 := fnv1 prime32 0 signature
def basis64 : BitVec 64 := fnv1 prime64 0 signature

end Verif.Spec.FNV
