import Verif.Core.Misuse
import Verif.Model.BLAKE
import Verif.Model.BLAKE2
import Verif.Model.CShake
import Verif.Model.MD2
import Verif.Model.SipHash

/-!
# The release build

With `NDEBUG` defined `assert` does nothing and `Buffer::fill` makes no check (sha1.h:118-121; the same text in
every header). Everything else is the text of the debug build, so each definition below is the one it is named
after without those two. What the check and the assertions would have caught is then undefined behaviour, a
store or a read outside an array, which is still a fault here.
-/

namespace Verif

namespace Buffer
variable {N : Nat}

/-- `fill(value, count)` without the check (sha1.h:116-128): a store outside the array is undefined behaviour; for
`count = 0` there is no store. -/
def fillR (b : Buffer N) (value : Byte) (count : Nat := 1) : Except Fault (Buffer N) :=
  if count = 0 ∨ b.endIdx + count ≤ N then .ok (fillLoop value count b) else .error .bufferOverrun

/-- `push_back(first, last)` (sha1.h:130-137) -/
def pushBackR (b : Buffer N) : List Byte → Except Fault (Buffer N)
  | [] => .ok b
  | x :: xs => do
    let b' ← b.fillR x
    b'.pushBackR xs

/-- `Buffer(first, last)` (sha1.h:97-104) -/
def ofRangeR (xs : List Byte) : Except Fault (Buffer N) := pushBackR {} xs

end Buffer

/-- second half of `addData(Span)` (sha1.h:403-416) -/
def addDataTailR {N : Nat} {S : Type} (B : Nat) (impl : S → List Byte → Except Fault S)
    (o : Obj N S) (data : List Byte) : Except Fault (Obj N S) := do
  let dataSize := data.length
  if dataSize < B then
    let b ← Buffer.ofRangeR data
    return { o with buffer := b }
  else
    let len := dataSize - (dataSize % B)
    let c ← impl o.chain (← spanFirst data len)
    if len < dataSize then
      let b ← Buffer.ofRangeR (data.drop len)
      return ⟨b, c⟩
    else
      return { o with chain := c }

/-- `addData(Span)` (sha1.h:385-417) -/
def addDataR {N : Nat} {S : Type} (B : Nat) (impl : S → List Byte → Except Fault S)
    (o : Obj N S) (inData : List Byte) : Except Fault (Obj N S) := do
  if !o.buffer.empty then
    let len := min (B - o.buffer.size) inData.length
    let b ← o.buffer.pushBackR (inData.take len)
    if b.size < B then
      return { o with buffer := b }
    else
      let c ← impl o.chain b.contents
      addDataTailR B impl ⟨b.clear, c⟩ (← spanSub inData len)
  else
    addDataTailR B impl o inData

/-- `finalize()` of the Merkle-Damgård style classes (sha2_256.h:334-359) -/
def mdFinalizeR {N : Nat} {C H : Type} (B L : Nat) (padByte : Byte)
    (cntAdd : C → Nat → C) (cntPost : C → C) (writes : Nat → C → List (Nat × Byte))
    (impl : MDState C H → List Byte → Except Fault (MDState C H))
    (o : Obj N (MDState C H)) : Except Fault (Obj N (MDState C H)) := do
  let cnt := cntAdd o.chain.sizeCounter o.buffer.size
  let b ← o.buffer.fillR padByte
  let len := (2 * B - (b.size + L)) % B
  let b ← b.fillR 0 (len + L)
  let b ← writeLoop b (writes b.size cnt)
  let c ← impl { o.chain with sizeCounter := cntPost cnt } b.contents
  return ⟨b.clear, c⟩

/-- `addDataImpl` of the Merkle-Damgård style classes without the assertion (sha2_256.h:475-563) -/
def mdImplR {C H : Type} (B : Nat) (cnt : Counter C) (comp : H → Block B → H) (s : MDState C H)
    (data : List Byte) : Except Fault (MDState C H) := do
  let c := cnt.add s.sizeCounter data.length
  let h ← forBlocks B comp data s.h
  return ⟨c, h⟩

/-- a Merkle-Damgård style class, as in `mdApi` (the classes listed there, e.g. sha2_256.h:201-281) -/
def mdApiR {C H : Type} (B L : Nat) (padByte : Byte) (cnt : Counter C) (comp : H → Block B → H)
    (iv : H) (out : H → Except Fault (List Byte)) : API (Obj (2 * B) (MDState C H)) where
  fresh := ⟨{}, ⟨cnt.zero, iv⟩⟩
  reset := fun o => ⟨o.buffer.clear, ⟨cnt.zero, iv⟩⟩
  addData := addDataR B (mdImplR B cnt comp)
  finalize := mdFinalizeR B L padByte cnt.add cnt.post cnt.writes (mdImplR B cnt comp)
  toArray := fun o => out o.chain.h

/-- a class with its own `finalize`, as in `blockApi` (the classes listed there, e.g. sha3.h:199-273) -/
def blockApiR {N : Nat} {S : Type} (B : Nat) (impl : S → List Byte → Except Fault S) (init : S)
    (fin : Obj N S → Except Fault (Obj N S)) (out : Obj N S → Except Fault (List Byte)) : API (Obj N S) where
  fresh := ⟨{}, init⟩
  reset := fun o => ⟨o.buffer.clear, init⟩
  addData := addDataR B impl
  finalize := fin
  toArray := out

/-- Both builds do the same: whatever calls are made, in whatever order, both succeed with the same object and read
the same digest from it. A property; not in /repo. -/
def API.SameBuild {O : Type} (debug release : API O) : Prop :=
  ∀ ops, AnyOrder ops → ∃ o, debug.run debug.fresh ops = .ok o ∧ release.run release.fresh ops = .ok o ∧
    release.toArray o = debug.toArray o

namespace Model

namespace SHA3

/-- sha3.h:467-583 -/
def implR (R : Nat) [RateOK R] (s : KState) (data : List Byte) : Except Fault KState := do
  let st ← forBlocks R body data s.state
  return { s with state := st }

/-- the squeeze loop (sha3.h:348-357); `fuel` is at least the number of rounds, each of which adds `R` bytes to
`m_final` -/
def squeezeR (R : Nat) [RateOK R] (digestLength : Nat) : (fuel : Nat) → KState → Except Fault KState
  | fuel, s =>
    let state := stateToVector s.state
    if R ≤ state.length then
      let final := s.final ++ state.take R
      if final.length ≥ digestLength then .ok ⟨s.state, final⟩
      else
        match fuel with
        | 0 => .error .assertion
        | fuel + 1 => do
          let c ← implR R ⟨s.state, final⟩ (List.replicate R 0)
          squeezeR R digestLength fuel c
    else .error .spanBounds

/-- `finalize()` (sha3.h:334-361) -/
def finalizeR (R : Nat) [RateOK R] (P : Byte) (digestLength : Nat) (o : Obj R KState) : Except Fault (Obj R KState) := do
  let b ← o.buffer.fillR P
  let len := (2 * R - b.size) % R
  let b ← b.fillR 0 len
  let last ← b.getAt (b.size - 1)
  let b ← b.setAt (b.size - 1) (last ||| 0x80)
  let c ← implR R o.chain b.contents
  let c ← squeezeR R digestLength digestLength c
  let final := c.final.take digestLength ++ List.replicate (digestLength - c.final.length) 0
  return ⟨b.clear, { c with final := final }⟩

/-- `Keccak<R, P>(digestLength)` (sha3.h:199-273) -/
def KeccakR (R : Nat) [RateOK R] (P : Byte) (digestLength : Nat) : API (Obj R KState) :=
  blockApiR R (implR R) init (finalizeR R P digestLength) toVector

end SHA3

namespace MD2

/-- `finalize()` (md2.h:288-302) -/
def finalizeR (o : Obj (2 * 16) St) : Except Fault (Obj (2 * 16) St) := do
  let len := 16 - o.buffer.size % 16
  let b ← o.buffer.fillR (BitVec.ofNat 8 len) len
  let c ← impl o.chain b.contents
  let c ← impl c c.checksum.toList
  return ⟨b.clear, c⟩

/-- `class MD2` (md2.h:188-269) -/
def MD2R : API (Obj (2 * 16) St) := blockApiR 16 impl init finalizeR toArray

end MD2

namespace BLAKE
variable {w B : Nat} {C : Type}

/-- blake1_256.h:453-633 -/
def implR (c : Cfg w B C) (paddingLen : Nat) (s : MDState C (Vector (BitVec w) 8)) (data : List Byte) :
    Except Fault (MDState C (Vector (BitVec w) 8)) := forBlocks B (body c paddingLen) data s

/-- `finalize()` (blake1_256.h:311-337 / blake1_512.h:378-404) -/
def finalizeR (c : Cfg w B C) (L : Nat) (marker : Bool) (total : C → Nat → C)
    (writes : Nat → C → List (Nat × Byte)) (o : Obj (2 * B) (MDState C (Vector (BitVec w) 8))) :
    Except Fault (Obj (2 * B) (MDState C (Vector (BitVec w) 8))) := do
  let sizeCounterBits := total o.chain.sizeCounter (o.buffer.size * 8)
  let b ← o.buffer.fillR 0x80
  let len := (2 * B - (b.size + L)) % B
  let b ← b.fillR 0 (len + L)
  let b ← markLast L marker b
  let b ← writeLoop b (writes b.size sizeCounterBits)
  let s ← implR c (len + (L + 1)) o.chain b.contents
  return ⟨b.clear, s⟩

/-- A 32-bit class. blake1_224.h:192-258, blake1_256.h:192-258. -/
def api32R (c : Cfg 32 64 W64) (marker : Bool) (iv : Vector W32 8) (words size : Nat) : API Obj32 :=
  blockApiR 64 (implR c 0) ⟨0, iv⟩ (finalizeR c 8 marker cntAdd64 lenWritesBE64) (toArray 4 words size)

/-- A 64-bit class. blake1_384.h:255-321, blake1_512.h:255-321. -/
def api64R (c : Cfg 64 128 Uint128) (marker : Bool) (iv : Vector W64 8) (words size : Nat) : API Obj64 :=
  blockApiR 128 (implR c 0) ⟨{}, iv⟩ (finalizeR c 16 marker cntAdd128 lenWritesBE128) (toArray 8 words size)

end BLAKE

namespace BLAKE2
variable {w B : Nat} {C : Type}

/-- blake2.h:500-505 -/
def implR (c : Cfg w B C) (isFinal : Bool) (paddingLen : Nat) (s : State w C) (data : List Byte) :
    Except Fault (State w C) := forBlocks B (body c isFinal paddingLen) data s

/-- blake2.h:463-473 -/
def addDataTailR {S : Type} (B : Nat) (impl : S → List Byte → Except Fault S) (o : Obj B S)
    (data : List Byte) : Except Fault (Obj B S) := do
  let dataSize := data.length
  let remainder := if dataSize % B ≠ 0 then dataSize % B else B
  let len := dataSize - remainder
  let s ← impl o.chain (← spanFirst data len)
  let b ← Buffer.ofRangeR (data.drop (dataSize - remainder))
  return ⟨b, s⟩

/-- blake2.h:441-474; `fuel` is the number of bytes, as in `addDataAt` -/
def addDataR {S : Type} (B : Nat) (impl : S → List Byte → Except Fault S) :
    (fuel : Nat) → Obj B S → List Byte → Except Fault (Obj B S)
  | fuel, o, inData =>
    if inData.isEmpty then .ok o
    else if o.buffer.size = B then do
      let s ← impl o.chain o.buffer.contents
      addDataTailR B impl ⟨o.buffer.clear, s⟩ inData
    else if !o.buffer.empty then
      match fuel with
      | 0 => .error .assertion
      | fuel + 1 => do
        let len := min (B - o.buffer.size) inData.length
        let b ← o.buffer.pushBackR (inData.take len)
        addDataR B impl fuel { o with buffer := b } (← spanSub inData len)
    else addDataTailR B impl o inData

/-- `finalize()` (blake2.h:373-383) -/
def finalizeR (c : Cfg w B C) (o : Obj B (State w C)) : Except Fault (Obj B (State w C)) := do
  let len := B - o.buffer.size
  let b ← o.buffer.fillR 0 len
  let s ← implR c true len o.chain b.contents
  return ⟨b.clear, s⟩

/-- the class (blake2.h:255-320, blake2s.h:192-257) -/
def apiR (c : Cfg w B C) (bytesPerWord size : Nat) : API (Obj B (State w C)) where
  fresh := ⟨{}, init c⟩
  reset := fun o => ⟨o.buffer.clear, init c⟩
  addData := fun o d => addDataR B (implR c false 0) d.length o d
  finalize := finalizeR c
  toArray := toArray bytesPerWord size

end BLAKE2

namespace SipHash

/-- siphash.h:459-474 -/
def implR (C : Nat) (s : State) (data : List Byte) : Except Fault State := do
  let c := s.sizeCounter + BitVec.ofNat 8 data.length
  let v ← forBlocks 8 (body C) data s.state
  return { s with sizeCounter := c, state := v }

/-- `finalize()` (siphash.h:317-336) -/
def finalizeR (C D : Nat) (o : O) : Except Fault O := do
  let cnt := o.chain.sizeCounter + BitVec.ofNat 8 o.buffer.size
  let len := 8 - 1 - o.buffer.size
  let b ← o.buffer.fillR 0 len
  let b ← b.fillR cnt 1
  let s ← implR C { o.chain with sizeCounter := cnt } b.contents
  let v := s.state.set 2 (s.state[2] ^^^ 0xff)
  return ⟨b.clear, { s with state := rounds D v }⟩

/-- `SipHash(key)` without the assertion (siphash.h:292-302): the first 16 bytes at `key.data()` are the key,
whatever the size of the span; with fewer the read goes past its end. -/
def constructR (key : List Byte) : Except Fault O := do return constructKey (← blockAt 16 key 0)

/-- `SipHash<C, D>` objects constructed with the given key (siphash.h:193-255) -/
def SipHashCDR (C D : Nat) (key : Block 16) : API O where
  fresh := constructKey key
  reset := reset
  addData := Verif.addDataR 8 (implR C)
  finalize := finalizeR C D
  toArray := toArray

end SipHash

namespace CShake

/-- cshake.h:138-139 -/
def fillBytesR (value : Nat) : Nat → Buffer 8 → Except Fault (Buffer 8)
  | 0, b => .ok b
  | i + 1, b => do
    let b ← b.fillR (ror 8 (BitVec.ofNat 64 value) (8 * i))
    fillBytesR value i b

/-- `leftEncode` (cshake.h:133-142) -/
def leftEncodeR (nb : Nat → Nat) (value : Nat) : Except Fault (Buffer 8) := do
  let n := byteCount nb value
  let ret ← ({} : Buffer 8).fillR (BitVec.ofNat 8 n)
  fillBytesR value n ret

/-- `rightEncode` (tuple_hash.h:123-133) -/
def rightEncodeR (nb : Nat → Nat) (value : Nat) : Except Fault (Buffer 8) := do
  let n := byteCount nb value
  let ret ← fillBytesR value n {}
  ret.fillR (BitVec.ofNat 8 n)

variable {R : Nat} [SHA3.RateOK R]

/-- a call on the object a pointer owns (cshake.h:236-254) -/
def callKR (op : Op) (P : Byte) (k : KObj R) : Except Fault (KObj R) := do
  return { k with obj := ← (SHA3.KeccakR R P k.digestLength).step k.obj op }

/-- one call (cshake.h:236-254, 289-294, 324-331) -/
def stepR (o : CShake R) (op : Op) : Except Fault (CShake R) := onActive o (callKR op)

/-- a history of calls; not in /repo: the user chooses the calls (cshake.h:71-129) -/
def runR (o : CShake R) : List Op → Except Fault (CShake R)
  | [] => .ok o
  | op :: ops => do runR (← stepR o op) ops

/-- `processString` (cshake.h:161-168) -/
def processStringR (nb : Nat → Nat) (o : CShake R) (str : List Byte) (length : Nat) :
    Except Fault (CShake R × Nat) := do
  let encodedStr ← leftEncodeR nb (str.length * 8 % 2 ^ 64)
  let o ← stepR o (.add encodedStr.contents)
  let length := (length + encodedStr.size) % 2 ^ 64
  let o ← stepR o (.add str)
  return (o, (length + str.length) % 2 ^ 64)

/-- the loop adding zero bytes (cshake.h:183-185) -/
def addZerosR : Nat → CShake R → Except Fault (CShake R)
  | 0, o => .ok o
  | n + 1, o => do addZerosR n (← stepR o (.add [0]))

/-- the constructor (cshake.h:146-186) -/
def constructR (nb : Nat → Nat) (R : Nat) [SHA3.RateOK R] (digestLength : Int) (name customize : List Byte) :
    Except Fault (CShake R) := do
  let customized := !(name.isEmpty && customize.isEmpty)
  if customized = false then
    return ⟨customized, some (← newK R 0x1F digestLength), none⟩
  let o : CShake R := ⟨customized, none, some (← newK R 0x04 digestLength)⟩
  let encodedW ← leftEncodeR nb R
  let o ← stepR o (.add encodedW.contents)
  let length := encodedW.size
  let (o, length) ← processStringR nb o name length
  let (o, length) ← processStringR nb o customize length
  addZerosR ((R - length % R) % R) o

/-- the constructor of `TupleHash` (tuple_hash.h:137-143) -/
def tupleConstructR (nb : Nat → Nat) (R : Nat) [SHA3.RateOK R] (digestLength : Int) (customize : List Byte) :
    Except Fault (TupleHash R) := do
  return ⟨← constructR nb R digestLength tupleHashName customize, digestLength⟩

/-- one call (tuple_hash.h:145-158, 188-196) -/
def tupleStepR (nb : Nat → Nat) (o : TupleHash R) : Op → Except Fault (TupleHash R)
  | .add d => do
    let encoded ← leftEncodeR nb (d.length * 8 % 2 ^ 64)
    let c ← stepR o.cshake (.add encoded.contents)
    let c ← stepR c (.add d)
    return { o with cshake := c }
  | .reset => do return { o with cshake := ← stepR o.cshake .reset }
  | .finalize => do
    let v := o.digestLength * 8
    if ¬(-2 ^ 31 ≤ v ∧ v < 2 ^ 31) then throw .signedOverflow
    let encoded ← rightEncodeR nb (BitVec.ofInt 64 v).toNat
    let c ← stepR o.cshake (.add encoded.contents)
    let c ← stepR c .finalize
    return { o with cshake := c }

/-- a history of calls; not in /repo: the user chooses the calls (tuple_hash.h:70-119) -/
def tupleRunR (nb : Nat → Nat) (o : TupleHash R) : List Op → Except Fault (TupleHash R)
  | [] => .ok o
  | op :: ops => do tupleRunR nb (← tupleStepR nb o op) ops

end CShake
end Model
end Verif
