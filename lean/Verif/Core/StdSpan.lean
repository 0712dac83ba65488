import Verif.Core.Memory

/-!
# `std::span` and the streaming text with it

With C++20 the headers use `std::span` (sha1.h:29-41, 200-206), otherwise the `gsl::span` of Core/Memory.lean. A
`std::span` is an address and a size, its iterators are pointers, and nothing is checked, neither when a span or an
iterator is made nor when it is used. What remains is memory: a read from an address that may not be read is the fault
`spanBounds`. Calling `first`, `subspan` or `[]` with an argument out of range is undefined; that is the same fault.
Pointer arithmetic out of range is undefined, too, but a pointer does not know its range; there is no fault for it here,
and C58 has it from the checked iterators of `gsl::span`.

`IndexType` (sha1.h:65-69) is unsigned with `std::span` and signed otherwise; indices and counts are natural numbers here
as in the rest of the model. The text of the headers is the same in both builds, so the definitions are those of Core/Memory.lean with the other span.
-/

namespace Verif

/-- `std::span<const Byte>` (sha2_256.h:211) -/
structure StdSpan where
  data : Nat
  size : Nat

namespace StdSpan

/-- `first(count)`; the standard library's (sha2_256.h:211) -/
def first (s : StdSpan) (count : Nat) : Except Fault StdSpan := do
  expects (count ≤ s.size)
  return ⟨s.data, count⟩

/-- `subspan(offset)`; the standard library's (sha2_256.h:211) -/
def subspan (s : StdSpan) (offset : Nat) : Except Fault StdSpan := do
  expects (offset ≤ s.size)
  return ⟨s.data + offset, s.size - offset⟩

/-- `operator[]`; the standard library's (sha2_256.h:211) -/
def get (mem : Mem) (s : StdSpan) (idx : Nat) : Except Fault Byte := do
  expects (idx < s.size)
  mem.read (s.data + idx)

/-- `begin()`: a pointer; the standard library's (sha2_256.h:211) -/
def begin (s : StdSpan) : Nat := s.data

/-- `end()`; the standard library's (sha2_256.h:211) -/
def «end» (s : StdSpan) : Nat := s.data + s.size

end StdSpan

/-- `ptr + n` for a `ptrdiff_t` (sha2_256.h:424, 446) -/
def ptrAdd (p : Nat) (n : Int) : Nat := ((p : Int) + n).toNat

/-- `for (InputIt iter = first; iter != last; ++iter) body(*iter)` (sha1.h:100-103, 133-136; fnv.h:302) over pointers. -/
def ptrLoop {S : Type} (mem : Mem) (body : S → Byte → Except Fault S) : Nat → Nat → Nat → S → Except Fault S
  | 0, _, _, _ => .error .assertion
  | fuel + 1, p, last, s =>
    if p ≠ last then do
      let s ← body s (← mem.read p)
      ptrLoop mem body fuel (p + 1) last s
    else return s

/-- The loop from `first` to `last`, `last - first` rounds. If `last` is before `first` the loop does not end well; that is
the fault `assertion`. sha2_256.h:109, 142. -/
def ptrRange {S : Type} (mem : Mem) (body : S → Byte → Except Fault S) (first last : Nat) (s : S) : Except Fault S :=
  ptrLoop mem body (last - first + 1) first last s

namespace Buffer
variable {N : Nat}

/-- `push_back(first, last)` (sha1.h:130-137) -/
def pushBackStd (mem : Mem) (b : Buffer N) (first last : Nat) : Except Fault (Buffer N) :=
  ptrRange mem (fun b x => b.fill x) first last b

/-- `Buffer(first, last)` (sha1.h:97-104) -/
def ofRangeStd (mem : Mem) (first last : Nat) : Except Fault (Buffer N) := pushBackStd mem {} first last

end Buffer

/-- the loop over blocks of every `addDataImpl` (sha1.h:449-451) -/
def forBlocksStd {S : Type} (B : Nat) (body : S → Block B → S) (mem : Mem) (data : StdSpan) (s : S) : Except Fault S :=
  (List.range (data.size / B)).foldlM (fun s i => do
    let m ← blockFrom B mem (data.data + i * B)
    pure (body s m)) s

/-- second half of `addData(Span)` (sha1.h:403-416) -/
def addDataTailStd {N : Nat} {S : Type} (B : Nat) (impl : S → Mem → StdSpan → Except Fault S)
    (o : Obj N S) (mem : Mem) (data : StdSpan) : Except Fault (Obj N S) := do
  let dataSize := data.size
  if dataSize < B then
    let b ← Buffer.ofRangeStd mem data.begin data.end
    return { o with buffer := b }
  else
    let len := dataSize - (dataSize % B)
    let c ← impl o.chain mem (← data.first len)
    if len < dataSize then
      let b ← Buffer.ofRangeStd mem (ptrAdd data.begin (Iter.toDiff len)) data.end
      return ⟨b, c⟩
    else
      return { o with chain := c }

/-- `addData(Span)` (sha1.h:385-417) of an object whose `m_buffer` array lies at address `self` -/
def addDataStd {N : Nat} {S : Type} (B : Nat) (impl : S → Mem → StdSpan → Except Fault S) (self : Nat)
    (o : Obj N S) (mem : Mem) (inData : StdSpan) : Except Fault (Obj N S) := do
  if !o.buffer.empty then
    let len := min (B - o.buffer.size) inData.size
    let b ← o.buffer.pushBackStd mem inData.begin (ptrAdd inData.begin (Iter.toDiff len))
    if b.size < B then
      return { o with buffer := b }
    else
      let c ← impl o.chain (b.mem self) ⟨self, b.size⟩
      addDataTailStd B impl ⟨b.clear, c⟩ mem (← inData.subspan len)
  else
    addDataTailStd B impl o mem inData

/-- `addDataImpl` of the Merkle-Damgård style classes, as in `mdImpl` (sha2_256.h:475-483) -/
def mdImplStd {C H : Type} (B : Nat) (cnt : Counter C) (comp : H → Block B → H) (s : MDState C H)
    (mem : Mem) (data : StdSpan) : Except Fault (MDState C H) := do
  if data.size % B ≠ 0 then throw .assertion
  let c := cnt.add s.sizeCounter data.size
  let h ← forBlocksStd B comp mem data s.h
  return ⟨c, h⟩

namespace API
variable {O : Type} (A : API O) (addAt : O → Mem → GSpan → Except Fault O) (addStd : O → Mem → StdSpan → Except Fault O)

/-- one call; `addData(ptr, length)` makes the span (sha1.h:419-423) -/
def stepStd (o : O) : MemOp → Except Fault O
  | .add mem ptr length => addStd o mem ⟨ptr, length⟩
  | .reset => .ok (A.reset o)
  | .finalize => A.finalize o

/-- a history of calls; not in /repo: the user chooses the calls (sha2_256.h:219-233) -/
def runStd (o : O) : List MemOp → Except Fault O
  | [] => .ok o
  | op :: ops => do runStd (← A.stepStd addStd o op) ops

/-- Whatever calls are made, in whatever order, in whatever memory: if the build with `gsl::span` gets through, the build
with `std::span` gets through, and they hold the same object. If the caller's bytes can be read, both get through, and the
object is the one that the bytes as lists give. Not in /repo. -/
def SameWithStdSpan : Prop :=
  (∀ calls o, A.runAt addAt A.fresh calls = .ok o → A.runStd addStd A.fresh calls = .ok o) ∧
  ∀ calls ops, HandsAll calls ops →
    ∃ o, A.runAt addAt A.fresh calls = .ok o ∧ A.runStd addStd A.fresh calls = .ok o ∧ A.run A.fresh ops = .ok o

end API
end Verif
