/-!
# C++ scalar types and the small helpers shared by every header

Every header of `/repo/src` repeats the same helper text (guarded by
`#ifndef CHOCOBO1_HASH_..._IMPL`); the line numbers below are those of
`/repo/src/sha2_256.h` unless another file is named.
-/

namespace Verif

/-- `uint8_t` (sha2_256.h:206) -/
abbrev Byte := BitVec 8
/-- `uint32_t` (sha2_256.h:260) -/
abbrev W32 := BitVec 32
/-- `uint64_t` (sha2_512.h:323) -/
abbrev W64 := BitVec 64

/-- What can go wrong when the C++ runs: undefined behaviour, a failed `assert`,
or an exception.  A model function returns `Except Fault _` when the C++ text it
transcribes can reach one of these. Not in /repo: the ways to fail of C++. -/
inductive Fault where
  /-- `Buffer` written or checked outside its `std::array` (`m_array.at(..)` throws in
  debug builds; out-of-bounds write in release builds). -/
  | bufferOverrun
  /-- a failed `assert(..)` -/
  | assertion
  /-- `gsl::span`/`std::span` precondition violated (`first`, `subspan`, element access) -/
  | spanBounds
  /-- write outside the result array -/
  | resultOverrun
  /-- dereference of a null `unique_ptr` -/
  | nullDeref
  /-- `std::length_error`/`std::bad_alloc` from a container -/
  | badLength
  /-- signed integer overflow -/
  | signedOverflow
  /-- use of `front()` on an empty string -/
  | emptyFront
  /-- `std::out_of_range` from `std::stoi` -/
  | outOfRange
  deriving DecidableEq, Repr

/-- `ror<R>(x, s)`: shift right and truncate to `R` (sha2_256.h:174-184). -/
def ror {w : Nat} (r : Nat) (x : BitVec w) (s : Nat) : BitVec r :=
  (x >>> s).setWidth r

/-- `rotr(x, s)` (sha2_256.h:186-196). -/
def rotr {w : Nat} (x : BitVec w) (s : Nat) : BitVec w :=
  if s = 0 then x else (x >>> s) ||| (x <<< (w - s))

/-- `rotl(x, s)` (sha1.h:177-187, and the other headers that rotate left). -/
def rotl {w : Nat} (x : BitVec w) (s : Nat) : BitVec w :=
  if s = 0 then x else (x <<< s) ||| (x >>> (w - s))

/-- A whole input block handed to the body of an `addDataImpl` loop. sha2_256.h:481-483. -/
abbrev Block (B : Nat) := Vector Byte B

/-- `Loader<uint32_t>::operator[]`, big-endian text (sha2_256.h:296-305). The bound
proof says the four bytes read lie inside the block. -/
def loadBE32 {B : Nat} (m : Block B) (idx : Nat) (h : 4 * idx + 4 ≤ B := by omega) : W32 :=
  ((m[4 * idx + 0]).setWidth 32 <<< 24)
  ||| ((m[4 * idx + 1]).setWidth 32 <<< 16)
  ||| ((m[4 * idx + 2]).setWidth 32 <<< 8)
  ||| ((m[4 * idx + 3]).setWidth 32 <<< 0)

/-- `Loader<uint32_t>::operator[]`, little-endian text (md5.h:257-, ripemd_*.h, crc_32.h:707-716). -/
def loadLE32 {B : Nat} (m : Block B) (idx : Nat) (h : 4 * idx + 4 ≤ B := by omega) : W32 :=
  ((m[4 * idx + 0]).setWidth 32 <<< 0)
  ||| ((m[4 * idx + 1]).setWidth 32 <<< 8)
  ||| ((m[4 * idx + 2]).setWidth 32 <<< 16)
  ||| ((m[4 * idx + 3]).setWidth 32 <<< 24)

/-- `Loader<uint64_t>::operator[]`, big-endian text (sha2_512.h:363-376, whirlpool.h:600-). -/
def loadBE64 {B : Nat} (m : Block B) (idx : Nat) (h : 8 * idx + 8 ≤ B := by omega) : W64 :=
  ((m[8 * idx + 0]).setWidth 64 <<< 56)
  ||| ((m[8 * idx + 1]).setWidth 64 <<< 48)
  ||| ((m[8 * idx + 2]).setWidth 64 <<< 40)
  ||| ((m[8 * idx + 3]).setWidth 64 <<< 32)
  ||| ((m[8 * idx + 4]).setWidth 64 <<< 24)
  ||| ((m[8 * idx + 5]).setWidth 64 <<< 16)
  ||| ((m[8 * idx + 6]).setWidth 64 <<< 8)
  ||| ((m[8 * idx + 7]).setWidth 64 <<< 0)

/-- `Loader<uint64_t>::operator[]`, little-endian text (tiger.h:417-430, sha3.h:278-, blake2.h:325-, siphash.h:260-). -/
def loadLE64 {B : Nat} (m : Block B) (idx : Nat) (h : 8 * idx + 8 ≤ B := by omega) : W64 :=
  ((m[8 * idx + 0]).setWidth 64 <<< 0)
  ||| ((m[8 * idx + 1]).setWidth 64 <<< 8)
  ||| ((m[8 * idx + 2]).setWidth 64 <<< 16)
  ||| ((m[8 * idx + 3]).setWidth 64 <<< 24)
  ||| ((m[8 * idx + 4]).setWidth 64 <<< 32)
  ||| ((m[8 * idx + 5]).setWidth 64 <<< 40)
  ||| ((m[8 * idx + 6]).setWidth 64 <<< 48)
  ||| ((m[8 * idx + 7]).setWidth 64 <<< 56)

/-- the loop `for (j = dataSize-1; j >= 0; --j) *(retPtr++) = ror<Byte>(i, j*8)` of the
big-endian `toArray`s (sha2_256.h:386-400), for one word of `n` bytes. -/
def storeBE {w : Nat} (n : Nat) (x : BitVec w) : List Byte :=
  (List.range n).map fun k => ror 8 x ((n - 1 - k) * 8)

/-- the loop `for (j = 0; j < dataSize; ++j) *(retPtr++) = ror<Byte>(i, j*8)` of the
little-endian `toArray`s (md5.h:359-, tiger.h:511-525), for one word of `n` bytes. -/
def storeLE {w : Nat} (n : Nat) (x : BitVec w) : List Byte :=
  (List.range n).map fun k => ror 8 x (k * 8)

/-- The result array of a `toArray` whose text writes `bytes` one after the other through
`retPtr` into a `std::array<Byte, n>` (sha2_256.h:386-400, tiger.h:511-525): writing past the
end is a fault, bytes never written keep the value-initialised zero. -/
def resultArray (n : Nat) (bytes : List Byte) : Except Fault (List Byte) :=
  if bytes.length ≤ n then .ok (bytes ++ List.replicate (n - bytes.length) 0)
  else .error .resultOverrun

end Verif
