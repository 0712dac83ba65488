import Verif.Core.Threads
import Verif.Model.Spans
import Verif.Model.MD5

/-!
# The classes of Model/Spans.lean, access by access

`bodyAct` is the body of the loop over blocks at the address of its block, see `Reads` in Core/Threads.lean.
-/

namespace Verif.Model

/-- `Loader<uint32_t>::operator[]` (md5.h:267-276): four bytes are read each time it is called -/
def MD5.loadAct (a idx : Nat) : Act W32 :=
  .read (a + 4 * idx + 0) fun b0 => .read (a + 4 * idx + 1) fun b1 =>
  .read (a + 4 * idx + 2) fun b2 => .read (a + 4 * idx + 3) fun b3 =>
  .ret ((b0.setWidth 32 <<< 0) ||| (b1.setWidth 32 <<< 8) ||| (b2.setWidth 32 <<< 16) ||| (b3.setWidth 32 <<< 24))

/-- One call of the lambda `round` (md5.h:480-483), which reads `x[k]` from the caller's memory. -/
def MD5.execAct (a : Nat) (r : Vector W32 4) (q : Call) : Act (Vector W32 4) := do
  let w ← loadAct a q.k
  return r.set q.a (r[q.b] + rotl (r[q.a] + q.func.apply r[q.b] r[q.c] r[q.d] + w + q.t) q.s)

/-- The body of the block loop of `addDataImpl` (md5.h:454-558), access by access: every word of the block is read
four times. -/
def MD5.compressAct (h : Vector W32 4) (a : Nat) : Act (Vector W32 4) := do
  let r ← calls.foldlM (execAct a) #v[h[0], h[1], h[2], h[3]]
  return #v[h[0] + r[0], h[1] + r[1], h[2] + r[2], h[3] + r[3]]

/-- sha3.h:467-583 -/
def SHA3.implAct (R : Nat) (bodyAct : SHA3.State → Nat → Act SHA3.State) (s : KState) (data : GSpan) : Act KState := do
  if data.size % R ≠ 0 then .fault .assertion else
  let st ← forBlocksAct R bodyAct data s.state
  return { s with state := st }

/-- blake1_256.h:453-633, blake2.h:500-505 -/
def blakeImplAct {S : Type} (B : Nat) (bodyAct : S → Nat → Act S) (s : S) (data : GSpan) : Act S := do
  if data.size % B ≠ 0 then .fault .assertion else
  forBlocksAct B bodyAct data s

/-- md2.h:406-440: the span of the block is made before it is read -/
def MD2.implAct (bodyAct : St → Nat → Act St) (s : St) (data : GSpan) : Act St :=
  (List.range (data.size / 16)).foldlM (fun s i => do
    let m ← .lift (GSpan.make (data.data + i * 16) 16)
    bodyAct s m.data) s

/-- siphash.h:459-474 -/
def SipHash.implAct (bodyAct : Vector W64 4 → Nat → Act (Vector W64 4)) (s : State) (data : GSpan) : Act State := do
  if data.size % 8 ≠ 0 then .fault .assertion else
  let c := s.sizeCounter + BitVec.ofNat 8 data.size
  let v ← forBlocksAct 8 bodyAct data s.state
  return { s with sizeCounter := c, state := v }

/-- the loop over the remaining bytes (crc_32.h:877-885) -/
def CRC32.tailLoopAct (data : GSpan) : (fuel processed : Nat) → W32 → Act W32
  | 0, processed, h => if processed < data.size then .fault .assertion else .ret h
  | fuel + 1, processed, h =>
    if processed < data.size then do
      let x ← data.getAct processed
      tailLoopAct data fuel (processed + 1) (tailByte h x)
    else .ret h

/-- crc_32.h:824-886 -/
def CRC32.addDataAct (bodyAct : W32 → Nat → Act W32) (h : W32) (data : GSpan) : Act W32 := do
  let h ← forBlocksAct 16 bodyAct data h
  tailLoopAct data data.size (data.size / 16 * 16) h

/-- fnv.h:273-316: `for (const Byte dataPart : data)` -/
def FNV.addDataAct {w : Nat} (variant : Nat) (h : BitVec w) (data : GSpan) : Act (BitVec w) := do
  iterRangeAct (fun h x => .ok (body variant h x)) (← .lift data.begin) (← .lift data.end) h

/-- blake2.h:463-473: the last bytes are taken from `data.end() - remainder` -/
def BLAKE2.addDataTailAct {S : Type} (B : Nat) (impl : S → GSpan → Act S) (o : Obj B S) (data : GSpan) :
    Act (Obj B S) := do
  let dataSize := data.size
  let remainder := if dataSize % B ≠ 0 then dataSize % B else B
  let len := dataSize - remainder
  let s ← impl o.chain (← .lift (data.first len))
  let b ← Buffer.ofRangeAct (← .lift ((← .lift data.end).sub (Iter.toDiff remainder))) (← .lift data.end)
  return ⟨b, s⟩

/-- blake2.h:441-474, as `BLAKE2.addDataAt` -/
def BLAKE2.addDataAct {S : Type} (B : Nat) (impl : S → GSpan → Act S) (self : Nat) :
    (fuel : Nat) → (o : Obj B S) → (inData : GSpan) → Act (Obj B S)
  | fuel, o, inData =>
    if inData.size = 0 then .ret o
    else if o.buffer.size = B then do
      let s ← (impl o.chain (← .lift (GSpan.make self o.buffer.size))).within (o.buffer.mem self)
      addDataTailAct B impl ⟨o.buffer.clear, s⟩ inData
    else if !o.buffer.empty then
      match fuel with
      | 0 => .fault .assertion
      | fuel + 1 => do
        let len := min (B - o.buffer.size) inData.size
        let b ← o.buffer.pushBackAct (← .lift inData.begin) (← .lift ((← .lift inData.begin).add (Iter.toDiff len)))
        BLAKE2.addDataAct B impl self fuel { o with buffer := b } (← .lift (inData.subspan len))
    else addDataTailAct B impl o inData

namespace CShake
variable {R : Nat} [SHA3.RateOK R]

/-- `if (!m_customized) m_shake->addData(..) else m_keccak->addData(..)` (cshake.h:324-331) -/
def addDataSpanAct (bodyAct : SHA3.State → Nat → Act SHA3.State) (self : Nat) (o : CShake R) (data : GSpan) :
    Act (CShake R) :=
  if o.customized = false then
    match o.shake with
    | none => .fault .nullDeref
    | some k => do
      let obj ← Verif.addDataAct R (SHA3.implAct R bodyAct) self k.obj data
      return { o with shake := some { k with obj := obj } }
  else
    match o.keccak with
    | none => .fault .nullDeref
    | some k => do
      let obj ← Verif.addDataAct R (SHA3.implAct R bodyAct) self k.obj data
      return { o with keccak := some { k with obj := obj } }

/-- the commands of a thread on a cSHAKE object; not in /repo: the user's program -/
def commands (bodyAct : SHA3.State → Nat → Act SHA3.State) (self : Nat) : CShake R → List Cmd → Act (CShake R)
  | o, [] => .ret o
  | o, .store a x :: cs => .write a (some x) (commands bodyAct self o cs)
  | o, .add ptr length :: cs => do
    commands bodyAct self (← addDataSpanAct bodyAct self o (← .lift (GSpan.make ptr length))) cs
  | o, .reset :: cs => do commands bodyAct self (← .lift (reset o)) cs
  | o, .finalize :: cs => do commands bodyAct self (← .lift (finalize o)) cs

/-- the thread: the commands on the object that `construct` made, then `toVector`; not in /repo: the user's program -/
def thread (bodyAct : SHA3.State → Nat → Act SHA3.State) (self : Nat) (start : Except Fault (CShake R))
    (cmds : List Cmd) : Act (List Byte) := do
  let o ← .lift start
  let o ← commands bodyAct self o cmds
  .lift (toVector o)

/-- tuple_hash.h:188-196: the encoded length is in a local variable of the thread, at address `local` -/
def nextDataAct (bodyAct : SHA3.State → Nat → Act SHA3.State) (nb : Nat → Nat) (self «local» : Nat) (o : TupleHash R)
    (inData : GSpan) : Act (TupleHash R) := do
  let encoded ← .lift (leftEncode nb (inData.size * 8 % 2 ^ 64))
  let c ← (addDataSpanAct bodyAct self o.cshake (← .lift (GSpan.make «local» encoded.size))).within (encoded.mem «local»)
  let c ← addDataSpanAct bodyAct self c inData
  return { o with cshake := c }

/-- the commands of a thread on a TupleHash object; `add` is `addNextData`; not in /repo: the user's program -/
def tupleCommands (bodyAct : SHA3.State → Nat → Act SHA3.State) (nb : Nat → Nat) (self «local» : Nat) :
    TupleHash R → List Cmd → Act (TupleHash R)
  | o, [] => .ret o
  | o, .store a x :: cs => .write a (some x) (tupleCommands bodyAct nb self «local» o cs)
  | o, .add ptr length :: cs => do
    tupleCommands bodyAct nb self «local» (← nextDataAct bodyAct nb self «local» o (← .lift (GSpan.make ptr length))) cs
  | o, .reset :: cs => do tupleCommands bodyAct nb self «local» (← .lift (tupleReset o)) cs
  | o, .finalize :: cs => do tupleCommands bodyAct nb self «local» (← .lift (tupleFinalize nb o)) cs

/-- the thread: the commands on the object that `tupleConstruct` made, then `toVector`; not in /repo: the user's program -/
def tupleThread (bodyAct : SHA3.State → Nat → Act SHA3.State) (nb : Nat → Nat) (self «local» : Nat)
    (start : Except Fault (TupleHash R)) (cmds : List Cmd) : Act (List Byte) := do
  let o ← .lift start
  let o ← tupleCommands bodyAct nb self «local» o cmds
  .lift (tupleToVector o)

end CShake
end Verif.Model
