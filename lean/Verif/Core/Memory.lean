import Verif.Core.Stream

/-!
# Memory, `gsl::span` and the streaming text at the level of pointers

The rest of the model hands the bytes of a span to `addData` as a list. Here a span is what it is in the
code, an address and a size, and every byte is read from memory through it. Addresses are numbers, 0 is the
null pointer. `Expects` of gsl terminates the program when its condition is false; that is the fault
`spanBounds` here, and so is a read from an address that may not be read.
-/

namespace Verif

/-- Memory as one call sees it: `none` is an address that must not be read. Not in /repo: the machine. -/
abbrev Mem := Nat → Option Byte

/-- reading one byte; not in /repo: the machine -/
def Mem.read (mem : Mem) (a : Nat) : Except Fault Byte :=
  match mem a with
  | some x => .ok x
  | none => .error .spanBounds

/-- `Expects(c)` (gsl/assert:127) -/
def expects (c : Bool) : Except Fault Unit := if c then .ok () else .error .spanBounds

/-- `gsl::span<const Byte>` (gsl/span:408, 733): `data_` and `size_` -/
structure GSpan where
  data : Nat
  size : Nat

namespace GSpan

/-- `span(ptr, count)` (gsl/span:467-468, 400-403, 724-728); `dynamic_extent` is `2^64 - 1` -/
def make (ptr count : Nat) : Except Fault GSpan := do
  expects (count != 2 ^ 64 - 1)
  expects (ptr != 0 || count == 0)
  return ⟨ptr, count⟩

/-- `first(count)` (gsl/span:619-623) -/
def first (s : GSpan) (count : Nat) : Except Fault GSpan := do
  expects (count ≤ s.size)
  make s.data count

/-- `subspan(offset)` (gsl/span:631-635, 758-762, 719-722) -/
def subspan (s : GSpan) (offset : Nat) : Except Fault GSpan := do
  expects (offset ≤ s.size)
  expects (s.size - offset != 2 ^ 64 - 1)
  return ⟨s.data + offset, s.size - offset⟩

/-- `operator[]` (gsl/span:648-652) -/
def get (mem : Mem) (s : GSpan) (idx : Nat) : Except Fault Byte := do
  expects (idx < s.size)
  mem.read (s.data + idx)

end GSpan

/-- `span_iterator` (gsl/span:345-347): `begin_`, `end_`, `current_` -/
structure Iter where
  first : Nat
  last : Nat
  cur : Nat

namespace Iter

/-- the constructor (gsl/span:141-145) -/
def make (first last cur : Nat) : Except Fault Iter := do
  expects (first ≤ cur && cur ≤ last)
  return ⟨first, last, cur⟩

/-- `operator*` (gsl/span:152-156) -/
def deref (mem : Mem) (it : Iter) : Except Fault Byte := do
  expects (it.cur != it.last)
  mem.read it.cur

/-- `operator++` (gsl/span:163-171) -/
def inc (it : Iter) : Except Fault Iter := do
  expects (it.cur != it.last)
  return { it with cur := it.cur + 1 }

/-- a `size_t` passed as `difference_type` (`ptrdiff_t`) (gsl/span:131, sha2_256.h:424, 446) -/
def toDiff (n : Nat) : Int := if n < 2 ^ 63 then n else n - 2 ^ 64

/-- `operator+(n)` (gsl/span:194-212) -/
def add (it : Iter) (n : Int) : Except Fault Iter := do
  expects (n == 0 || (it.first != 0 && it.cur != 0 && it.last != 0))
  expects (!(0 < n) || n ≤ (it.last : Int) - it.cur)
  expects (!(n < 0) || -n ≤ (it.cur : Int) - it.first)
  return { it with cur := ((it.cur : Int) + n).toNat }

/-- `operator-(n)` (gsl/span:220-235) -/
def sub (it : Iter) (n : Int) : Except Fault Iter := do
  expects (n == 0 || (it.first != 0 && it.cur != 0 && it.last != 0))
  expects (!(0 < n) || n ≤ (it.cur : Int) - it.first)
  expects (!(n < 0) || -n ≤ (it.last : Int) - it.cur)
  return { it with cur := ((it.cur : Int) - n).toNat }

/-- `operator!=` (gsl/span:253-265) -/
def ne (l r : Iter) : Except Fault Bool := do
  expects (l.first == r.first && l.last == r.last)
  return l.cur != r.cur

end Iter

namespace GSpan

/-- `begin()` (gsl/span:669-676) -/
def begin (s : GSpan) : Except Fault Iter := Iter.make s.data (s.data + s.size) s.data

/-- `end()` (gsl/span:678-686) -/
def «end» (s : GSpan) : Except Fault Iter := Iter.make s.data (s.data + s.size) (s.data + s.size)

end GSpan

/-- `for (InputIt iter = first; iter != last; ++iter) body(*iter)` (sha1.h:100-103, 133-136; the range-for of
fnv.h:302 is the same loop). `++` stops the program at the end of the span, so there are at most
`iter.last - iter.cur` rounds; `fuel` is more than that. -/
def iterLoop {S : Type} (mem : Mem) (body : S → Byte → Except Fault S) : Nat → Iter → Iter → S → Except Fault S
  | 0, _, _, _ => .error .assertion
  | fuel + 1, it, last, s => do
    if ← it.ne last then
      let s ← body s (← it.deref mem)
      iterLoop mem body fuel (← it.inc) last s
    else return s

/-- the loop from `first` to `last` (sha2_256.h:109, 142) -/
def iterRange {S : Type} (mem : Mem) (body : S → Byte → Except Fault S) (first last : Iter) (s : S) :
    Except Fault S := iterLoop mem body (first.last - first.cur + 1) first last s

namespace Buffer
variable {N : Nat}

/-- `push_back(first, last)` (sha1.h:130-137) -/
def pushBackAt (mem : Mem) (b : Buffer N) (first last : Iter) : Except Fault (Buffer N) :=
  iterRange mem (fun b x => b.fill x) first last b

/-- `Buffer(first, last)` (sha1.h:97-104) -/
def ofRangeAt (mem : Mem) (first last : Iter) : Except Fault (Buffer N) := pushBackAt mem {} first last

/-- what can be read at and after `m_buffer.data()` when the array lies at address `self` (sha2_256.h:355, 429) -/
def mem (b : Buffer N) (self : Nat) : Mem := fun a => if self ≤ a then b.arr[a - self]? else none

end Buffer

/-- the `B` bytes at an address, read one by one (sha2_256.h:483, 296-305) -/
def blockFrom (B : Nat) (mem : Mem) (a : Nat) : Except Fault (Block B) := do
  let l ← (List.range B).mapM fun i => mem.read (a + i)
  if h : l.length = B then return ⟨l.toArray, by simpa using h⟩ else throw .assertion

/-- the loop over blocks of every `addDataImpl`, as in `forBlocks`: `Loader m(data.data() + i * BLOCK_SIZE)`
(sha1.h:449-451) -/
def forBlocksAt {S : Type} (B : Nat) (body : S → Block B → S) (mem : Mem) (data : GSpan) (s : S) : Except Fault S :=
  (List.range (data.size / B)).foldlM (fun s i => do
    let m ← blockFrom B mem (data.data + i * B)
    pure (body s m)) s

/-- second half of `addData(Span)` (sha1.h:403-416) -/
def addDataTailAt {N : Nat} {S : Type} (B : Nat) (impl : S → Mem → GSpan → Except Fault S)
    (o : Obj N S) (mem : Mem) (data : GSpan) : Except Fault (Obj N S) := do
  let dataSize := data.size
  if dataSize < B then
    let b ← Buffer.ofRangeAt mem (← data.begin) (← data.end)
    return { o with buffer := b }
  else
    let len := dataSize - (dataSize % B)
    let c ← impl o.chain mem (← data.first len)
    if len < dataSize then
      let b ← Buffer.ofRangeAt mem (← (← data.begin).add (Iter.toDiff len)) (← data.end)
      return ⟨b, c⟩
    else
      return { o with chain := c }

/-- `addData(Span)` (sha1.h:385-417) of an object whose `m_buffer` array lies at address `self` -/
def addDataAt {N : Nat} {S : Type} (B : Nat) (impl : S → Mem → GSpan → Except Fault S) (self : Nat)
    (o : Obj N S) (mem : Mem) (inData : GSpan) : Except Fault (Obj N S) := do
  if !o.buffer.empty then
    let len := min (B - o.buffer.size) inData.size
    let b ← o.buffer.pushBackAt mem (← inData.begin) (← (← inData.begin).add (Iter.toDiff len))
    if b.size < B then
      return { o with buffer := b }
    else
      let c ← impl o.chain (b.mem self) (← GSpan.make self b.size)
      addDataTailAt B impl ⟨b.clear, c⟩ mem (← inData.subspan len)
  else
    addDataTailAt B impl o mem inData

/-- `addDataImpl` of the Merkle-Damgård style classes, as in `mdImpl` (sha2_256.h:475-483) -/
def mdImplAt {C H : Type} (B : Nat) (cnt : Counter C) (comp : H → Block B → H) (s : MDState C H)
    (mem : Mem) (data : GSpan) : Except Fault (MDState C H) := do
  if data.size % B ≠ 0 then throw .assertion
  let c := cnt.add s.sizeCounter data.size
  let h ← forBlocksAt B comp mem data s.h
  return ⟨c, h⟩

/-! ## Histories of calls -/

/-- A call with its argument: `addData(ptr, length)` in a memory that belongs to this call alone. What the
caller does with its buffers between two calls shows in the memory of the next call. Not in /repo. -/
inductive MemOp where
  | add (mem : Mem) (ptr length : Nat)
  | reset
  | finalize

/-- The call hands over the bytes `d`: they are in memory at `ptr`, which is not null unless there are none,
and there are fewer than 2^63 of them (`PTRDIFF_MAX`). No other address needs to be readable. Not in /repo. -/
def MemOp.Hands : MemOp → Op → Prop
  | .add mem ptr length, .add d =>
    length = d.length ∧ (ptr ≠ 0 ∨ d = []) ∧ d.length < 2 ^ 63 ∧ ∀ i (h : i < d.length), mem (ptr + i) = some d[i]
  | .reset, .reset => True
  | .finalize, .finalize => True
  | _, _ => False

/-- call by call; not in /repo -/
def HandsAll : List MemOp → List Op → Prop
  | [], [] => True
  | c :: cs, o :: os => c.Hands o ∧ HandsAll cs os
  | _, _ => False

namespace API
variable {O : Type} (A : API O) (addAt : O → Mem → GSpan → Except Fault O)

/-- one call; `addData(ptr, length)` makes the span (sha1.h:419-423) -/
def stepAt (o : O) : MemOp → Except Fault O
  | .add mem ptr length => do addAt o mem (← GSpan.make ptr length)
  | .reset => .ok (A.reset o)
  | .finalize => A.finalize o

/-- a history of calls; not in /repo: the user chooses the calls (sha2_256.h:219-233) -/
def runAt (o : O) : List MemOp → Except Fault O
  | [] => .ok o
  | op :: ops => do runAt (← A.stepAt addAt o op) ops

/-- Whatever calls are made, in whatever order: through pointers they do what they do with the bytes as a
list, and they succeed. So nothing outside the caller's bytes is read, no contract of the span is broken, and
nothing that the caller does to its bytes after a call has an influence. Not in /repo. -/
def MemorySafe : Prop :=
  ∀ calls ops, HandsAll calls ops →
    ∃ o, A.runAt addAt A.fresh calls = .ok o ∧ A.run A.fresh ops = .ok o

end API
end Verif
