import Verif.Core.Memory
import Verif.Model.BLAKE
import Verif.Model.BLAKE2
import Verif.Model.CRC32
import Verif.Model.CShake
import Verif.Model.FNV
import Verif.Model.MD2
import Verif.Model.SipHash

/-!
# `addDataImpl` and `addData` through pointers, for the classes with a text of their own

Each definition reads memory where the one it is named after takes bytes from a list; the lines in /repo are
the same. The Merkle-Damgård style classes use `mdImplAt` (Core/Memory.lean).
-/

namespace Verif.Model

/-- sha3.h:467-583 -/
def SHA3.implAt (R : Nat) [RateOK R] (s : KState) (mem : Mem) (data : GSpan) : Except Fault KState := do
  if data.size % R ≠ 0 then throw .assertion
  let st ← forBlocksAt R body mem data s.state
  return { s with state := st }

/-- blake1_256.h:453-633 -/
def BLAKE.implAt {w B : Nat} {C : Type} (c : Cfg w B C) (paddingLen : Nat) (s : MDState C (Vector (BitVec w) 8))
    (mem : Mem) (data : GSpan) : Except Fault (MDState C (Vector (BitVec w) 8)) := do
  if data.size % B ≠ 0 then throw .assertion
  forBlocksAt B (body c paddingLen) mem data s

/-- md2.h:406-440: the block is `Span<const Byte> m(data.data() + i * BLOCK_SIZE, 16)`, read as `m[j]` for
`j` from 0 to 15. -/
def MD2.implAt (s : St) (mem : Mem) (data : GSpan) : Except Fault St :=
  (List.range (data.size / 16)).foldlM (fun s i => do
    let m ← GSpan.make (data.data + i * 16) 16
    let l ← (List.range 16).mapM fun j => m.get mem j
    if h : l.length = 16 then return body s ⟨l.toArray, by simpa using h⟩ else throw .assertion) s

/-- siphash.h:459-474 -/
def SipHash.implAt (C : Nat) (s : State) (mem : Mem) (data : GSpan) : Except Fault State := do
  if data.size % 8 ≠ 0 then throw .assertion
  let c := s.sizeCounter + BitVec.ofNat 8 data.size
  let v ← forBlocksAt 8 (body C) mem data s.state
  return { s with sizeCounter := c, state := v }

/-- `SipHash(key)` (siphash.h:292-302): the loader reads 16 bytes at `key.data()`. -/
def SipHash.constructAt (mem : Mem) (key : GSpan) : Except Fault O := do
  if key.size ≠ 16 then throw .assertion
  return constructKey (← blockFrom 16 mem key.data)

/-- the loop over the remaining bytes (crc_32.h:877-885) -/
def CRC32.tailLoopAt (mem : Mem) (data : GSpan) : (fuel processed : Nat) → W32 → Except Fault W32
  | 0, processed, h => if processed < data.size then .error .assertion else .ok h
  | fuel + 1, processed, h =>
    if processed < data.size then do
      let x ← data.get mem processed
      tailLoopAt mem data fuel (processed + 1) (tailByte h x)
    else .ok h

/-- crc_32.h:824-886 -/
def CRC32.addDataAt (h : W32) (mem : Mem) (data : GSpan) : Except Fault W32 := do
  let h ← forBlocksAt 16 body mem data h
  tailLoopAt mem data data.size (data.size / 16 * 16) h

/-- fnv.h:273-316: `for (const Byte dataPart : data)` -/
def FNV.addDataAt {w : Nat} (variant : Nat) (h : BitVec w) (mem : Mem) (data : GSpan) : Except Fault (BitVec w) := do
  iterRange mem (fun h x => .ok (body variant h x)) (← data.begin) (← data.end) h

/-- blake2.h:500-505 -/
def BLAKE2.implAt {w B : Nat} {C : Type} (c : Cfg w B C) (isFinal : Bool) (paddingLen : Nat) (s : State w C)
    (mem : Mem) (data : GSpan) : Except Fault (State w C) := do
  if data.size % B ≠ 0 then throw .assertion
  forBlocksAt B (body c isFinal paddingLen) mem data s

/-- blake2.h:463-473: the last bytes are taken from `data.end() - remainder` -/
def BLAKE2.addDataTailAt {S : Type} (B : Nat) (impl : S → Mem → GSpan → Except Fault S) (o : Obj B S) (mem : Mem)
    (data : GSpan) : Except Fault (Obj B S) := do
  let dataSize := data.size
  let remainder := if dataSize % B ≠ 0 then dataSize % B else B
  let len := dataSize - remainder
  let s ← impl o.chain mem (← data.first len)
  let b ← Buffer.ofRangeAt mem (← (← data.end).sub (Iter.toDiff remainder)) (← data.end)
  return ⟨b, s⟩

/-- blake2.h:441-474. The recursive call gets a span that is at least one byte shorter; `fuel` is the size
of the span. -/
def BLAKE2.addDataAt {S : Type} (B : Nat) (impl : S → Mem → GSpan → Except Fault S) (self : Nat) (mem : Mem) :
    (fuel : Nat) → (o : Obj B S) → (inData : GSpan) → Except Fault (Obj B S)
  | fuel, o, inData =>
    if inData.size = 0 then .ok o
    else if o.buffer.size = B then do
      let s ← impl o.chain (o.buffer.mem self) (← GSpan.make self o.buffer.size)
      addDataTailAt B impl ⟨o.buffer.clear, s⟩ mem inData
    else if !o.buffer.empty then
      match fuel with
      | 0 => .error .assertion
      | fuel + 1 => do
        let len := min (B - o.buffer.size) inData.size
        let b ← o.buffer.pushBackAt mem (← inData.begin) (← (← inData.begin).add (Iter.toDiff len))
        BLAKE2.addDataAt B impl self mem fuel { o with buffer := b } (← inData.subspan len)
    else addDataTailAt B impl o mem inData

namespace CShake
variable {R : Nat} [SHA3.RateOK R]

/-- cshake.h:289-294, 324-331: the span is handed to the object in use, whose `m_buffer` lies at `self`. -/
def addDataSpanAt (self : Nat) (o : CShake R) (mem : Mem) (data : GSpan) : Except Fault (CShake R) :=
  onActive o fun _ k => do
    return { k with obj := ← Verif.addDataAt R (SHA3.implAt R) self k.obj mem data }

/-- one call; not in /repo: the user chooses the calls (cshake.h:71-129) -/
def stepAt (self : Nat) (o : CShake R) : MemOp → Except Fault (CShake R)
  | .add mem ptr length => do addDataSpanAt self o mem (← GSpan.make ptr length)
  | .reset => reset o
  | .finalize => finalize o

/-- a history of calls; not in /repo: the user chooses the calls (cshake.h:71-129) -/
def runAt (self : Nat) (o : CShake R) : List MemOp → Except Fault (CShake R)
  | [] => .ok o
  | op :: ops => do runAt self (← stepAt self o op) ops

/-- tuple_hash.h:188-196: `encoded` is a local variable at address `local`. -/
def nextDataAt (nb : Nat → Nat) (self «local» : Nat) (o : TupleHash R) (mem : Mem) (inData : GSpan) :
    Except Fault (TupleHash R) := do
  let encoded ← leftEncode nb (inData.size * 8 % 2 ^ 64)
  let c ← addDataSpanAt self o.cshake (encoded.mem «local») (← GSpan.make «local» encoded.size)
  let c ← addDataSpanAt self c mem inData
  return { o with cshake := c }

/-- one call; not in /repo: the user chooses the calls (tuple_hash.h:70-119) -/
def tupleStepAt (nb : Nat → Nat) (self «local» : Nat) (o : TupleHash R) : MemOp → Except Fault (TupleHash R)
  | .add mem ptr length => do nextDataAt nb self «local» o mem (← GSpan.make ptr length)
  | .reset => tupleReset o
  | .finalize => tupleFinalize nb o

/-- a history of calls; not in /repo: the user chooses the calls (tuple_hash.h:70-119) -/
def tupleRunAt (nb : Nat → Nat) (self «local» : Nat) (o : TupleHash R) : List MemOp → Except Fault (TupleHash R)
  | [] => .ok o
  | op :: ops => do tupleRunAt nb self «local» (← tupleStepAt nb self «local» o op) ops

end CShake
end Verif.Model
