import Verif.Core.Basic

/-!
# `Buffer<T, N>` (sha2_256.h:80-173; the same text in every header) and span slicing
-/

namespace Verif

/-- `class Buffer<Byte, N>`: a zero-initialised `std::array<Byte, N>` and the number of bytes
in use (sha2_256.h:170-171). -/
structure Buffer (N : Nat) where
  arr : Vector Byte N := Vector.replicate N 0
  endIdx : Nat := 0
  deriving DecidableEq

namespace Buffer

/-- the store loop of `fill` (sha2_256.h:132-136). -/
def fillLoop {N : Nat} (value : Byte) : Nat → Buffer N → Buffer N
  | 0, b => b
  | n + 1, b => fillLoop value n ⟨b.arr.setIfInBounds b.endIdx value, b.endIdx + 1⟩

/-- `fill(value, count)` (sha2_256.h:125-137), debug build: the first thing it does is
`m_array.at(m_dataEndIdx + count - 1)`, which throws unless that index is in `[0, N)`
(index `-1`, i.e. an empty fill of an empty buffer, throws as well). -/
def fill {N : Nat} (b : Buffer N) (value : Byte) (count : Nat := 1) : Except Fault (Buffer N) :=
  if 1 ≤ b.endIdx + count ∧ b.endIdx + count ≤ N then .ok (fillLoop value count b)
  else .error .bufferOverrun

/-- `push_back(first, last)` (sha2_256.h:139-146): `fill` byte by byte. -/
def pushBack {N : Nat} (b : Buffer N) : List Byte → Except Fault (Buffer N)
  | [] => .ok b
  | x :: xs => do
    let b' ← b.fill x
    b'.pushBack xs

/-- `Buffer(first, last)` (sha2_256.h:106-113): a zeroed buffer filled byte by byte. -/
def ofRange {N : Nat} (xs : List Byte) : Except Fault (Buffer N) :=
  pushBack {} xs

/-- `clear()` (sha2_256.h:148-152). -/
def clear {N : Nat} (_ : Buffer N) : Buffer N := {}

/-- `empty()` (sha2_256.h:154-157). -/
def empty {N : Nat} (b : Buffer N) : Bool := b.endIdx == 0

/-- `size()` (sha2_256.h:159-162). -/
def size {N : Nat} (b : Buffer N) : Nat := b.endIdx

/-- The span `{m_buffer.data(), m_buffer.size()}`. sha2_256.h:355, 429. -/
def contents {N : Nat} (b : Buffer N) : List Byte := b.arr.toList.take b.endIdx

/-- the assignment `m_buffer[pos] = value` (sha2_256.h:115-118); `pos` outside the array is
undefined behaviour. -/
def setAt {N : Nat} (b : Buffer N) (pos : Nat) (value : Byte) : Except Fault (Buffer N) :=
  if pos < N then .ok ⟨b.arr.setIfInBounds pos value, b.endIdx⟩ else .error .bufferOverrun

/-- reading `m_buffer[pos]` (sha2_256.h:120-123). -/
def getAt {N : Nat} (b : Buffer N) (pos : Nat) : Except Fault Byte :=
  if h : pos < N then .ok b.arr[pos] else .error .bufferOverrun

end Buffer

/-- `span.first(len)`: the contract is `len <= size()`. gsl/span:619-623. -/
def spanFirst (data : List Byte) (len : Nat) : Except Fault (List Byte) :=
  if len ≤ data.length then .ok (data.take len) else .error .spanBounds

/-- `span.subspan(off)`: the contract is `off <= size()`. gsl/span:631-635, 755-768. -/
def spanSub (data : List Byte) (off : Nat) : Except Fault (List Byte) :=
  if off ≤ data.length then .ok (data.drop off) else .error .spanBounds

/-- The `B` bytes at `data.data() + off` as a block; reading past the end of the span is a fault. sha2_256.h:483. -/
def blockAt (B : Nat) (data : List Byte) (off : Nat) : Except Fault (Block B) :=
  if h : off + B ≤ data.length then
    .ok ⟨((data.drop off).take B).toArray, by simp; omega⟩
  else .error .spanBounds

end Verif
