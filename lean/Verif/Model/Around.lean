import Verif.Core.Around
import Verif.Core.Render
import Verif.Core.Stream
import Verif.Model.BLAKE
import Verif.Model.BLAKE2
import Verif.Model.MD2
import Verif.Model.SHA3
import Verif.Model.SipHash

/-! The code around the block functions, written a second time with its events. -/

namespace Verif.Model.Around
open Verif

/-! ## The buffer -/

section
variable {N : Nat}

/-- the store loop of `fill` (sha2_256.h:132-136) -/
def fillLoop (value : Byte) : Nat → Buffer N → Traced (Buffer N)
  | 0, b => pure b
  | n + 1, b => do
    ev (.put b.endIdx)
    fillLoop value n ⟨b.arr.setIfInBounds b.endIdx value, b.endIdx + 1⟩

/-- `fill(value, count)` (sha2_256.h:125-137), debug build: the check of the last index comes first. -/
def fill (b : Buffer N) (value : Byte) (count : Nat := 1) : Traced (Buffer N) :=
  if 1 ≤ b.endIdx + count ∧ b.endIdx + count ≤ N then fillLoop value count b else throw .bufferOverrun

/-- `push_back(first, last)` (sha2_256.h:139-146); `first` points to byte `i` of the caller's data. -/
def pushBack (b : Buffer N) (i : Nat) : List Byte → Traced (Buffer N)
  | [] => pure b
  | x :: xs => do
    ev (.input i)
    let b' ← fill b x
    pushBack b' (i + 1) xs

/-- `m_buffer = {first, last}` (sha2_256.h:106-113): a zeroed buffer filled byte by byte. -/
def ofRange (i : Nat) (xs : List Byte) : Traced (Buffer N) := do
  ev .clear
  pushBack {} i xs

/-- `m_buffer[pos] = value` (sha2_256.h:115-118) -/
def setAt (b : Buffer N) (pos : Nat) (value : Byte) : Traced (Buffer N) := do
  ev (.put pos)
  b.setAt pos value

/-- reading `m_buffer[pos]` (sha2_256.h:120-123) -/
def getAt (b : Buffer N) (pos : Nat) : Traced Byte := do
  ev (.get pos)
  b.getAt pos

/-- the loops writing the length field (sha2_256.h:347-353) -/
def writeLoop (b : Buffer N) : List (Nat × Byte) → Traced (Buffer N)
  | [] => pure b
  | w :: ws => do
    let b ← setAt b w.1 w.2
    writeLoop b ws

/-- `clear()` (sha2_256.h:148-152) -/
def clear (b : Buffer N) : Traced (Buffer N) := do
  ev .clear
  pure b.clear

end

/-! ## `addData` -/

section
variable {N : Nat} {S : Type}

/-- second half of `addData(Span)` (sha2_256.h:435-448); `i` bytes of the caller's data have been used. -/
def addDataTail (B : Nat) (impl : S → List Byte → Except Fault S) (o : Obj N S) (i : Nat) (data : List Byte) :
    Traced (Obj N S) := do
  let dataSize := data.length
  ev (.test (dataSize < B))
  if dataSize < B then
    let b ← ofRange i data
    return { o with buffer := b }
  else
    let len := dataSize - (dataSize % B)
    let part ← spanFirst data len
    ev (.hashInput i part.length)
    let c ← impl o.chain part
    ev (.test (len < dataSize))
    if len < dataSize then
      let b ← ofRange (i + len) (data.drop len)
      return ⟨b, c⟩
    else
      return { o with chain := c }

/-- `addData(Span)` (sha2_256.h:417-449) -/
def addData (B : Nat) (impl : S → List Byte → Except Fault S) (o : Obj N S) (inData : List Byte) : Traced (Obj N S) := do
  ev (.test (!o.buffer.empty))
  if !o.buffer.empty then
    let len := min (B - o.buffer.size) inData.length
    let b ← pushBack o.buffer 0 (inData.take len)
    ev (.test (b.size < B))
    if b.size < B then
      return { o with buffer := b }
    else
      ev (.hashBuffer b.size)
      let c ← impl o.chain b.contents
      let b ← clear b
      addDataTail B impl ⟨b, c⟩ len (← spanSub inData len)
  else
    addDataTail B impl o 0 inData

/-- last part of BLAKE2's `addData(Span)` (blake2.h:463-473 / blake2s.h:397-407) -/
def addDataTail2 (B : Nat) (impl : S → List Byte → Except Fault S) (o : Obj B S) (i : Nat) (data : List Byte) :
    Traced (Obj B S) := do
  let dataSize := data.length
  ev (.test (dataSize % B ≠ 0))
  let remainder := if dataSize % B ≠ 0 then dataSize % B else B
  let len := dataSize - remainder
  let part ← spanFirst data len
  ev (.hashInput i part.length)
  let s ← impl o.chain part
  let b ← ofRange (i + (dataSize - remainder)) (data.drop (dataSize - remainder))
  return ⟨b, s⟩

/-- BLAKE2's `addData(Span)` (blake2.h:441-474 / blake2s.h:375-408); on the test of `len` see Model/BLAKE2.lean. -/
def addData2 (B : Nat) (impl : S → List Byte → Except Fault S) (o : Obj B S) (i : Nat) (inData : List Byte) :
    Traced (Obj B S) := do
  ev (.test inData.isEmpty)
  if inData.isEmpty then return o
  else
    ev (.test (o.buffer.size = B))
    if o.buffer.size = B then
      ev (.hashBuffer o.buffer.size)
      let s ← impl o.chain o.buffer.contents
      let b ← clear o.buffer
      addDataTail2 B impl ⟨b, s⟩ i inData
    else
      ev (.test (!o.buffer.empty))
      if !o.buffer.empty then
        if _h : min (B - o.buffer.size) inData.length = 0 then throw .bufferOverrun
        else
          let b ← pushBack o.buffer i (inData.take (min (B - o.buffer.size) inData.length))
          addData2 B impl { o with buffer := b } (i + min (B - o.buffer.size) inData.length)
            (inData.drop (min (B - o.buffer.size) inData.length))
      else addDataTail2 B impl o i inData
termination_by inData.length
decreasing_by simp only [List.length_drop]; omega

end

/-! ## `finalize` -/

/-- `finalize()` of the Merkle-Damgård style classes (sha2_256.h:334-359) -/
def mdFinalize {N : Nat} {C H : Type} (B L : Nat) (padByte : Byte) (cntAdd : C → Nat → C) (cntPost : C → C)
    (writes : Nat → C → List (Nat × Byte)) (impl : MDState C H → List Byte → Except Fault (MDState C H))
    (o : Obj N (MDState C H)) : Traced (Obj N (MDState C H)) := do
  let cnt := cntAdd o.chain.sizeCounter o.buffer.size
  let b ← fill o.buffer padByte
  let len := (2 * B - (b.size + L)) % B
  let b ← fill b 0 (len + L)
  let b ← writeLoop b (writes b.size cnt)
  ev (.hashBuffer b.size)
  let c ← impl { o.chain with sizeCounter := cntPost cnt } b.contents
  let b ← clear b
  return ⟨b, c⟩

/-- A Merkle-Damgård style class (sha2_256.h:313-359, 417-449). -/
def mdApi {C H : Type} (B L : Nat) (padByte : Byte) (cnt : Counter C) (comp : H → Block B → H) (iv : H)
    (out : H → Except Fault (List Byte)) : API (Obj (2 * B) (MDState C H) × List Ev) :=
  (Verif.mdApi B L padByte cnt comp iv out).traced (addData B (mdImpl B cnt comp))
    (mdFinalize B L padByte cnt.add cnt.post cnt.writes (mdImpl B cnt comp))

/-- MD2's `finalize()` (md2.h:288-302) -/
def finalizeMD2 (o : Obj (2 * 16) MD2.St) : Traced (Obj (2 * 16) MD2.St) := do
  let len := 16 - o.buffer.size % 16
  let b ← fill o.buffer (BitVec.ofNat 8 len) len
  ev (.hashBuffer b.size)
  let c ← MD2.impl o.chain b.contents
  ev (.hashMember 16)
  let c ← MD2.impl c c.checksum.toList
  let b ← clear b
  return ⟨b, c⟩

/-- `class MD2` (md2.h:188-302) -/
def MD2 : API (Obj (2 * 16) MD2.St × List Ev) := Model.MD2.MD2.traced (addData 16 MD2.impl) finalizeMD2

section
open Model.BLAKE
variable {w B : Nat} {C : Type}

/-- `m_buffer[m_buffer.size() - (L + 1)] |= 1` (blake1_256.h:324 / blake1_512.h:391) -/
def markLast {N : Nat} (L : Nat) (marker : Bool) (b : Buffer N) : Traced (Buffer N) :=
  if marker then do
    let x ← getAt b (b.size - (L + 1))
    setAt b (b.size - (L + 1)) (x ||| 1)
  else pure b

/-- BLAKE's `finalize()` (blake1_256.h:311-337 / blake1_512.h:378-404) -/
def finalizeBLAKE (c : Cfg w B C) (L : Nat) (marker : Bool) (total : C → Nat → C) (writes : Nat → C → List (Nat × Byte))
    (o : Obj (2 * B) (MDState C (Vector (BitVec w) 8))) : Traced (Obj (2 * B) (MDState C (Vector (BitVec w) 8))) := do
  let sizeCounterBits := total o.chain.sizeCounter (o.buffer.size * 8)
  let b ← fill o.buffer 0x80
  let len := (2 * B - (b.size + L)) % B
  let b ← fill b 0 (len + L)
  let b ← markLast L marker b
  let b ← writeLoop b (writes b.size sizeCounterBits)
  ev (.hashBuffer b.size)
  let s ← impl c (len + (L + 1)) o.chain b.contents
  let b ← clear b
  return ⟨b, s⟩

/-- A 32-bit class (blake1_256.h:289-337, 395-427). -/
def blake32 (c : Cfg 32 64 W64) (marker : Bool) (iv : Vector W32 8) (words size : Nat) : API (Obj32 × List Ev) :=
  (api32 c marker iv words size).traced (addData 64 (impl c 0)) (finalizeBLAKE c 8 marker cntAdd64 lenWritesBE64)

/-- A 64-bit class (blake1_512.h:356-404, 462-494). -/
def blake64 (c : Cfg 64 128 Uint128) (marker : Bool) (iv : Vector W64 8) (words size : Nat) : API (Obj64 × List Ev) :=
  (api64 c marker iv words size).traced (addData 128 (impl c 0)) (finalizeBLAKE c 16 marker cntAdd128 lenWritesBE128)

end

section
open Model.BLAKE2
variable {w B : Nat} {C : Type}

/-- BLAKE2's `finalize()` (blake2.h:373-383 / blake2s.h:307-317) -/
def finalizeBLAKE2 (c : Cfg w B C) (o : Obj B (State w C)) : Traced (Obj B (State w C)) := do
  let len := B - o.buffer.size
  let b ← fill o.buffer 0 len
  ev (.hashBuffer b.size)
  let s ← impl c true len o.chain b.contents
  let b ← clear b
  return ⟨b, s⟩

/-- A BLAKE2 class (blake2.h:356-383, 441-474). -/
def blake2 (c : Cfg w B C) (bytesPerWord size : Nat) : API (Obj B (State w C) × List Ev) :=
  (api c bytesPerWord size).traced (fun o d => addData2 B (impl c false 0) o 0 d) (finalizeBLAKE2 c)

end

section
open Model.SHA3

/-- the squeeze loop of `finalize()` (sha3.h:348-357) -/
def squeeze (R : Nat) [hR : RateOK R] (digestLength : Nat) (s : KState) : Traced KState := do
  if _h : R ≤ (stateToVector s.state).length then
    ev (.test ((s.final ++ (stateToVector s.state).take R).length ≥ digestLength))
    if _hf : (s.final ++ (stateToVector s.state).take R).length ≥ digestLength then
      return ⟨s.state, s.final ++ (stateToVector s.state).take R⟩
    else
      ev (.hashMember R)
      let st ← absorb R s.state (List.replicate R 0)
      squeeze R digestLength ⟨st, s.final ++ (stateToVector s.state).take R⟩
  else throw .spanBounds
termination_by digestLength - s.final.length
decreasing_by
  have := hR.pos
  have := stateToVector_length s.state
  simp only [ge_iff_le, Nat.not_le, List.length_append, List.length_take] at *
  omega

/-- `finalize()` (sha3.h:334-361) -/
def finalizeKeccak (R : Nat) [RateOK R] (P : Byte) (digestLength : Nat) (o : Obj R KState) : Traced (Obj R KState) := do
  let b ← fill o.buffer P
  let len := (2 * R - b.size) % R
  let b ← fill b 0 len
  let last ← getAt b (b.size - 1)
  let b ← setAt b (b.size - 1) (last ||| 0x80)
  ev (.hashBuffer b.size)
  let c ← impl R o.chain b.contents
  let b ← clear b
  let c ← squeeze R digestLength c
  let final := c.final.take digestLength ++ List.replicate (digestLength - c.final.length) 0
  return ⟨b, { c with final := final }⟩

/-- `Keccak<R, P>` (sha3.h:309-361, 423-455) -/
def keccak (R : Nat) [RateOK R] (P : Byte) (digestLength : Nat) : API (Obj R KState × List Ev) :=
  (Keccak R P digestLength).traced (addData R (impl R)) (finalizeKeccak R P digestLength)

end

section
open Model.SipHash

/-- `finalize()` (siphash.h:317-336) -/
def finalizeSip (C D : Nat) (o : O) : Traced O := do
  let cnt := o.chain.sizeCounter + BitVec.ofNat 8 o.buffer.size
  let len := 8 - 1 - o.buffer.size
  let b ← fill o.buffer 0 len
  let b ← fill b cnt 1
  ev (.hashBuffer b.size)
  let s ← impl C { o.chain with sizeCounter := cnt } b.contents
  let b ← clear b
  let v := s.state.set 2 (s.state[2] ^^^ 0xff)
  return ⟨b, { s with state := rounds D v }⟩

/-- `SipHash<C, D>` (siphash.h:292-336, 398-430) -/
def sipHash (C D : Nat) (key : Block 16) : API (O × List Ev) :=
  (SipHashCD C D key).traced (addData 8 (impl C)) (finalizeSip C D)

end

/-! ## Reading and comparing digests -/

/-- the loop of `operator==` (siphash.h:230-238, sha2_256.h:238-246 and the like): it returns at the first pair of words
that differ; `i` is the index of the next pair. -/
def equal {w : Nat} : Nat → List (BitVec w) → List (BitVec w) → Traced Bool
  | _, [], _ => pure true
  | _, _, [] => pure true
  | i, x :: xs, y :: ys => do
    ev (.read i)
    ev (.test (x ≠ y))
    if x ≠ y then return false
    equal (i + 1) xs ys

/-- `static_cast<char>((x < 10) ? (x + '0') : (x - 10 + 'a'))` (sha1.h:338, 341) -/
def hexChar (x : Byte) : Traced Char := do
  ev (.test (x < 10))
  return Verif.hexChar x

/-- `*(retPtr++) = c` (sha1.h:338, 341) -/
def writeChar (s : List Char) (p : Nat) (c : Char) : Traced (List Char) := do
  ev (.store p)
  Verif.writeChar s p c

/-- the loop of `toString` (sha1.h:335-342) -/
def hexLoop : List Byte → List Char → Nat → Traced (List Char)
  | [], ret, _ => pure ret
  | c :: cs, ret, p => do
    let upper : Byte := ror 8 c 4
    let ret ← writeChar ret p (← hexChar upper)
    let lower : Byte := c &&& 0xf
    let ret ← writeChar ret (p + 1) (← hexChar lower)
    hexLoop cs ret (p + 2)

/-- `toString` after `toArray` (sha1.h:328-345) -/
def renderHex (digest : List Byte) : Traced (List Char) :=
  let ret := List.replicate (2 * digest.length) (Char.ofNat 0)
  if ret.length = 0 then throw .emptyFront else hexLoop digest ret 0

/-- the loop of `operator T` (sha1.h:380-384) -/
def intLoop (k : Nat) (digest : List Byte) : Nat → Nat → BitVec (8 * k) → Traced (BitVec (8 * k))
  | 0, _, ret => pure ret
  | n + 1, i, ret => do
    ev (.read i)
    match digest[i]? with
    | none => throw .spanBounds
    | some b => intLoop k digest n (i + 1) ((ret <<< 8) ||| b.setWidth (8 * k))

/-- `operator T` after `toArray` (sha1.h:373-386) -/
def convertInt (k : Nat) (digest : List Byte) : Traced (BitVec (8 * k)) :=
  intLoop k digest (min k digest.length) 0 0

end Verif.Model.Around
