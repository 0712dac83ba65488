import Verif.Core.Buffer
import Verif.Core.API
import Verif.Core.Loops

/-!
# The streaming text shared by the block hashes

`addData(Span)` is textually the same in blake1_*.h, has_160.h, md2.h, md4.h, md5.h, ripemd_*.h,
sha1.h, sha2_*.h, sha3.h, siphash.h, sm3.h, tiger.h and whirlpool.h; it is transcribed once, from
sha2_256.h:417-449, and parameterised by `BLOCK_SIZE`, the buffer capacity and the class's
`addDataImpl`.
-/

namespace Verif

/-- A block-hash object: the carry-over buffer and everything else (`chain`: chaining value,
length counter, ...). sha2_256.h:257-260. -/
structure Obj (N : Nat) (S : Type) where
  buffer : Buffer N
  chain : S

/-- the loop `for (i = 0; i < data.size() / BLOCK_SIZE; ++i) { Loader m(data.data() + i*BLOCK_SIZE); .. }`
of every `addDataImpl` (sha2_256.h:481-483), with the loop body as parameter. -/
def forBlocks {S : Type} (B : Nat) (body : S → Block B → S) (data : List Byte) (s : S) :
    Except Fault S :=
  (List.range (data.length / B)).foldlM (fun s i => do
    let m ← blockAt B data (i * B)
    pure (body s m)) s

/-- second half of `addData(Span)`, reached when the carry-over buffer is empty
(sha2_256.h:435-448). -/
def addDataTail {N : Nat} {S : Type} (B : Nat) (impl : S → List Byte → Except Fault S)
    (o : Obj N S) (data : List Byte) : Except Fault (Obj N S) := do
  let dataSize := data.length
  if dataSize < B then
    let b ← Buffer.ofRange data
    return { o with buffer := b }
  else
    let len := dataSize - (dataSize % B)
    let c ← impl o.chain (← spanFirst data len)
    if len < dataSize then
      let b ← Buffer.ofRange (data.drop len)
      return ⟨b, c⟩
    else
      return { o with chain := c }

/-- `addData(Span)` (sha2_256.h:417-449). -/
def addData {N : Nat} {S : Type} (B : Nat) (impl : S → List Byte → Except Fault S)
    (o : Obj N S) (inData : List Byte) : Except Fault (Obj N S) := do
  if !o.buffer.empty then
    let len := min (B - o.buffer.size) inData.length
    let b ← o.buffer.pushBack (inData.take len)
    if b.size < B then
      return { o with buffer := b }
    else
      let c ← impl o.chain b.contents
      addDataTail B impl ⟨b.clear, c⟩ (← spanSub inData len)
  else
    addDataTail B impl o inData

/-- The members `m_sizeCounter` and the chaining value of the Merkle-Damgård style classes. sha2_256.h:258-260. -/
structure MDState (C H : Type) where
  sizeCounter : C
  h : H
  deriving DecidableEq

/-- `for (i = 0; i < n; ++i) m_buffer[pos(i)] = val(i)`: the loops writing the length field. sha2_256.h:347-353. -/
def writeLoop {N : Nat} (b : Buffer N) (ws : List (Nat × Byte)) : Except Fault (Buffer N) :=
  ws.foldlM (fun b w => b.setAt w.1 w.2) b

/-- The length-field stores of the big-endian 64-bit classes (sha2_256.h:345-353):
interleaved stores to `size-8+i` and `size-4+i`. -/
def lenWritesBE64 (size : Nat) (bits : W64) : List (Nat × Byte) :=
  (List.range 4).flatMap fun i =>
    [(size - 8 + i, ror 8 (ror 32 bits 32) (8 * (3 - i))),
     (size - 4 + i, ror 8 (ror 32 bits 0) (8 * (3 - i)))]

/-- The length-field stores of the little-endian 64-bit classes (tiger.h:468-476). -/
def lenWritesLE64 (size : Nat) (bits : W64) : List (Nat × Byte) :=
  (List.range 4).flatMap fun i =>
    [(size - 8 + i, ror 8 (ror 32 bits 0) (8 * i)),
     (size - 4 + i, ror 8 (ror 32 bits 32) (8 * i))]

/-- `finalize()` of the Merkle-Damgård style classes (sha2_256.h:334-359): `padByte` is the
"1 bit" byte, `L` the size of the length field, `cntAdd`/`writes` the counter arithmetic and the
length-field stores, which differ per class. `m_buffer.size()` is at most `B` at the subtraction,
so the `size_t` arithmetic does not wrap (proved: `mdFinalize_rel`). `cntPost` is what the size
counter member holds after the number of bits has been computed (`Uint128::operator*` multiplies
in place). -/
def mdFinalize {N : Nat} {C H : Type} (B L : Nat) (padByte : Byte)
    (cntAdd : C → Nat → C) (cntPost : C → C) (writes : Nat → C → List (Nat × Byte))
    (impl : MDState C H → List Byte → Except Fault (MDState C H))
    (o : Obj N (MDState C H)) : Except Fault (Obj N (MDState C H)) := do
  let cnt := cntAdd o.chain.sizeCounter o.buffer.size
  let b ← o.buffer.fill padByte
  let len := (2 * B - (b.size + L)) % B
  let b ← b.fill 0 (len + L)
  let b ← writeLoop b (writes b.size cnt)
  let c ← impl { o.chain with sizeCounter := cntPost cnt } b.contents
  return ⟨b.clear, c⟩

/-- How a class keeps and writes the message length. sha2_256.h:258, 336, 345-353, 479, sha2_512.h:321, 407, 416-426, 550. -/
structure Counter (C : Type) where
  zero : C
  add : C → Nat → C
  /-- value left in the member by the computation of the bit length in `finalize` -/
  post : C → C
  /-- stores of the length field, given the buffer size and the counter -/
  writes : Nat → C → List (Nat × Byte)

/-- `m_sizeCounter += n` on the `uint64_t` counter. sha2_256.h:336, 479. -/
def cntAdd64 (c : W64) (n : Nat) : W64 := c + BitVec.ofNat 64 n

/-- 64-bit counter, big-endian length field (sha2_256.h:336, 345-353). -/
def counterBE64 : Counter W64 where
  zero := 0
  add := cntAdd64
  post := id
  writes := fun size c => lenWritesBE64 size (c * 8)

/-- 64-bit counter, little-endian length field (tiger.h:459, 468-476; same text in has_160.h,
md4.h, md5.h, ripemd_*.h). -/
def counterLE64 : Counter W64 where
  zero := 0
  add := cntAdd64
  post := id
  writes := fun size c => lenWritesLE64 size (c * 8)

/-- The length-field stores of the big-endian 128-bit classes (sha2_512.h:416-424). -/
def lenWritesBE128 (size : Nat) (bits : Uint128) : List (Nat × Byte) :=
  (List.range 8).flatMap fun i =>
    [(size - 16 + i, ror 8 bits.hi (8 * (7 - i))),
     (size - 8 + i, ror 8 bits.lo (8 * (7 - i)))]

/-- `Uint128` counter, big-endian length field (sha2_512.h:407, 416-424). `m_sizeCounter * 8`
multiplies the member itself by 8 (`Uint128::operator*` is not const), hence `post`. -/
def counterBE128 : Counter Uint128 where
  zero := {}
  add := cntAdd128
  post := Uint128.mul8
  writes := fun size c => lenWritesBE128 size c.mul8

/-- `addDataImpl` of the Merkle-Damgård style classes (sha2_256.h:475-563): assertion, counter,
loop over blocks. `comp` is the body of the loop: `m_h` before, block, `m_h` after. -/
def mdImpl {C H : Type} (B : Nat) (cnt : Counter C) (comp : H → Block B → H) (s : MDState C H)
    (data : List Byte) : Except Fault (MDState C H) := do
  if data.length % B ≠ 0 then throw .assertion
  let c := cnt.add s.sizeCounter data.length
  let h ← forBlocks B comp data s.h
  return ⟨c, h⟩

/-- A Merkle-Damgård style class: `BLOCK_SIZE = B`, `m_buffer` of `2 * B` bytes, length field of
`L` bytes. The constructor zeroes the members and calls `reset()` (sha2_256.h:313-332); `iv` is
what `reset()` stores in `m_h`, `out` is `toArray()` as a function of `m_h`. -/
def mdApi {C H : Type} (B L : Nat) (padByte : Byte) (cnt : Counter C) (comp : H → Block B → H)
    (iv : H) (out : H → Except Fault (List Byte)) : API (Obj (2 * B) (MDState C H)) where
  fresh := ⟨{}, ⟨cnt.zero, iv⟩⟩
  reset := fun o => ⟨o.buffer.clear, ⟨cnt.zero, iv⟩⟩
  addData := addData B (mdImpl B cnt comp)
  finalize := mdFinalize B L padByte cnt.add cnt.post cnt.writes (mdImpl B cnt comp)
  toArray := fun o => out o.chain.h

/-- A class that shares the streaming text but has its own `finalize`: the constructor zeroes the
members and calls `reset()`; `reset()` clears the buffer and sets the other members to `init`. For example sha3.h:199-273. -/
def blockApi {N : Nat} {S : Type} (B : Nat) (impl : S → List Byte → Except Fault S) (init : S)
    (fin : Obj N S → Except Fault (Obj N S)) (out : Obj N S → Except Fault (List Byte)) :
    API (Obj N S) where
  fresh := ⟨{}, init⟩
  reset := fun o => ⟨o.buffer.clear, init⟩
  addData := addData B impl
  finalize := fin
  toArray := out

end Verif
