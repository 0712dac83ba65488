import Verif.Core.Misuse
import Verif.Model.BLAKE
import Verif.Model.BLAKE2
import Verif.Model.CRC32
import Verif.Model.CShake
import Verif.Model.MD2
import Verif.Model.SipHash
import Verif.Model.Whirlpool

/-!
# Machines on which `size_t` does not have 64 bits

The other models compute lengths and indices with natural numbers, or modulo 2^64 where the code can exceed that.
Here `size_t` has `m` bits and the result of every operation on it wraps at `2 ^ m`, subtraction included. Only the
functions that calculate with `size_t` are repeated; each cites the lines where it does. The counters are
`uint64_t` or `Uint128` on every machine, and so is what `data.size()` is converted to when it is added to them.
What a container or span says its size is needs no reduction: a span on the machine has a length that fits
(`Fitting`).
-/

namespace Verif

/-- `a + b` in `size_t`; not in /repo: C++ arithmetic -/
def szAdd (m a b : Nat) : Nat := (a + b) % 2 ^ m
/-- `a - b` in `size_t`; not in /repo: C++ arithmetic -/
def szSub (m a b : Nat) : Nat := (a + (2 ^ m - b % 2 ^ m)) % 2 ^ m
/-- `a * b` in `size_t`; not in /repo: C++ arithmetic -/
def szMul (m a b : Nat) : Nat := (a * b) % 2 ^ m

/-- the loop over blocks: `data.data() + (i * BLOCK_SIZE)` (sha2_256.h:481-483) -/
def forBlocksM {S : Type} (m B : Nat) (body : S → Block B → S) (data : List Byte) (s : S) : Except Fault S :=
  (List.range (data.length / B)).foldlM (fun s i => do
    let x ← blockAt B data (szMul m i B)
    pure (body s x)) s

/-- second half of `addData(Span)` (sha2_256.h:435-448) -/
def addDataTailM {N : Nat} {S : Type} (m B : Nat) (impl : S → List Byte → Except Fault S)
    (o : Obj N S) (data : List Byte) : Except Fault (Obj N S) := do
  let dataSize := data.length
  if dataSize < B then
    let b ← Buffer.ofRange data
    return { o with buffer := b }
  else
    let len := szSub m dataSize (dataSize % B)
    let c ← impl o.chain (← spanFirst data len)
    if len < dataSize then
      let b ← Buffer.ofRange (data.drop len)
      return ⟨b, c⟩
    else
      return { o with chain := c }

/-- `addData(Span)` (sha2_256.h:417-449) -/
def addDataM {N : Nat} {S : Type} (m B : Nat) (impl : S → List Byte → Except Fault S)
    (o : Obj N S) (inData : List Byte) : Except Fault (Obj N S) := do
  if !o.buffer.empty then
    let len := min (szSub m B o.buffer.size) inData.length
    let b ← o.buffer.pushBack (inData.take len)
    if b.size < B then
      return { o with buffer := b }
    else
      let c ← impl o.chain b.contents
      addDataTailM m B impl ⟨b.clear, c⟩ (← spanSub inData len)
  else
    addDataTailM m B impl o inData

/-- the stores of the length field: `m_buffer[m_buffer.size() - 8 + i]` (sha2_256.h:345-353) -/
def lenWritesBE64M (m size : Nat) (bits : W64) : List (Nat × Byte) :=
  (List.range 4).flatMap fun i =>
    [(szAdd m (szSub m size 8) i, ror 8 (ror 32 bits 32) (8 * (3 - i))),
     (szAdd m (szSub m size 4) i, ror 8 (ror 32 bits 0) (8 * (3 - i)))]

/-- tiger.h:468-476 -/
def lenWritesLE64M (m size : Nat) (bits : W64) : List (Nat × Byte) :=
  (List.range 4).flatMap fun i =>
    [(szAdd m (szSub m size 8) i, ror 8 (ror 32 bits 0) (8 * i)),
     (szAdd m (szSub m size 4) i, ror 8 (ror 32 bits 32) (8 * i))]

/-- sha2_512.h:416-424 -/
def lenWritesBE128M (m size : Nat) (bits : Uint128) : List (Nat × Byte) :=
  (List.range 8).flatMap fun i =>
    [(szAdd m (szSub m size 16) i, ror 8 bits.hi (8 * (7 - i))),
     (szAdd m (szSub m size 8) i, ror 8 bits.lo (8 * (7 - i)))]

/-- sha2_256.h:336, 345-353 -/
def counterBE64M (m : Nat) : Counter W64 where
  zero := 0
  add := cntAdd64
  post := id
  writes := fun size c => lenWritesBE64M m size (c * 8)

/-- tiger.h:459, 468-476 -/
def counterLE64M (m : Nat) : Counter W64 where
  zero := 0
  add := cntAdd64
  post := id
  writes := fun size c => lenWritesLE64M m size (c * 8)

/-- sha2_512.h:407, 416-424 -/
def counterBE128M (m : Nat) : Counter Uint128 where
  zero := {}
  add := cntAdd128
  post := Uint128.mul8
  writes := fun size c => lenWritesBE128M m size c.mul8

/-- `finalize()` of the Merkle-Damgård style classes: `((2 * BLOCK_SIZE) - (m_buffer.size() + L)) % BLOCK_SIZE`
(sha2_256.h:334-359) -/
def mdFinalizeM {N : Nat} {C H : Type} (m B L : Nat) (padByte : Byte)
    (cntAdd : C → Nat → C) (cntPost : C → C) (writes : Nat → C → List (Nat × Byte))
    (impl : MDState C H → List Byte → Except Fault (MDState C H))
    (o : Obj N (MDState C H)) : Except Fault (Obj N (MDState C H)) := do
  let cnt := cntAdd o.chain.sizeCounter o.buffer.size
  let b ← o.buffer.fill padByte
  let len := szSub m (2 * B) (szAdd m b.size L) % B
  let b ← b.fill 0 (len + L)
  let b ← writeLoop b (writes b.size cnt)
  let c ← impl { o.chain with sizeCounter := cntPost cnt } b.contents
  return ⟨b.clear, c⟩

/-- `addDataImpl` of the Merkle-Damgård style classes (sha2_256.h:475-563) -/
def mdImplM {C H : Type} (m B : Nat) (cnt : Counter C) (comp : H → Block B → H) (s : MDState C H)
    (data : List Byte) : Except Fault (MDState C H) := do
  if data.length % B ≠ 0 then throw .assertion
  let c := cnt.add s.sizeCounter data.length
  let h ← forBlocksM m B comp data s.h
  return ⟨c, h⟩

/-- a Merkle-Damgård style class, as in `mdApi` (the classes listed there, e.g. sha2_256.h:201-281) -/
def mdApiM {C H : Type} (m B L : Nat) (padByte : Byte) (cnt : Counter C) (comp : H → Block B → H)
    (iv : H) (out : H → Except Fault (List Byte)) : API (Obj (2 * B) (MDState C H)) where
  fresh := ⟨{}, ⟨cnt.zero, iv⟩⟩
  reset := fun o => ⟨o.buffer.clear, ⟨cnt.zero, iv⟩⟩
  addData := addDataM m B (mdImplM m B cnt comp)
  finalize := mdFinalizeM m B L padByte cnt.add cnt.post cnt.writes (mdImplM m B cnt comp)
  toArray := fun o => out o.chain.h

/-- a class with its own `finalize`, as in `blockApi` (the classes listed there, e.g. sha3.h:199-273) -/
def blockApiM {N : Nat} {S : Type} (m B : Nat) (impl : S → List Byte → Except Fault S) (init : S)
    (fin : Obj N S → Except Fault (Obj N S)) (out : Obj N S → Except Fault (List Byte)) : API (Obj N S) where
  fresh := ⟨{}, init⟩
  reset := fun o => ⟨o.buffer.clear, init⟩
  addData := addDataM m B impl
  finalize := fin
  toArray := out

/-- Calls in any order whose spans have lengths that fit in a `size_t` of `m` bits. Not in /repo: a description of
the user's program. -/
def Fitting (m : Nat) (ops : List Op) : Prop := ∀ d, Op.add d ∈ ops → d.length < 2 ^ m

/-- On a machine with an `m`-bit `size_t` (`small`) the class does what it does on a 64-bit machine (`A`): whatever
calls are made, in whatever order, both succeed, hold the same object, and read the same digest from it. A property;
not in /repo. -/
def API.SameMachine {O : Type} (m : Nat) (A small : API O) : Prop :=
  ∀ ops, Fitting m ops → ∃ o, A.run A.fresh ops = .ok o ∧ small.run small.fresh ops = .ok o ∧
    small.toArray o = A.toArray o

namespace Model

namespace SHA3

/-- `addDataImpl` (sha3.h:467-583) -/
def implM (m R : Nat) [RateOK R] (s : KState) (data : List Byte) : Except Fault KState := do
  if data.length % R ≠ 0 then throw .assertion
  let st ← forBlocksM m R body data s.state
  return { s with state := st }

/-- the squeeze loop (sha3.h:348-357), with `fuel` at least the number of rounds -/
def squeezeM (m R : Nat) [RateOK R] (digestLength : Nat) : (fuel : Nat) → KState → Except Fault KState
  | fuel, s =>
    let state := stateToVector s.state
    if R ≤ state.length then
      let final := s.final ++ state.take R
      if final.length ≥ digestLength then .ok ⟨s.state, final⟩
      else
        match fuel with
        | 0 => .error .assertion
        | fuel + 1 => do
          let c ← implM m R ⟨s.state, final⟩ (List.replicate R 0)
          squeezeM m R digestLength fuel c
    else .error .spanBounds

/-- `finalize()`: `((2 * R) - m_buffer.size()) % R`, `m_buffer.size() - 1` (sha3.h:334-361) -/
def finalizeM (m R : Nat) [RateOK R] (P : Byte) (digestLength : Nat) (o : Obj R KState) : Except Fault (Obj R KState) := do
  let b ← o.buffer.fill P
  let len := szSub m (2 * R) b.size % R
  let b ← b.fill 0 len
  let last ← b.getAt (szSub m b.size 1)
  let b ← b.setAt (szSub m b.size 1) (last ||| 0x80)
  let c ← implM m R o.chain b.contents
  let c ← squeezeM m R digestLength digestLength c
  let final := c.final.take digestLength ++ List.replicate (digestLength - c.final.length) 0
  return ⟨b.clear, { c with final := final }⟩

/-- `Keccak<R, P>(digestLength)` (sha3.h:199-273) -/
def KeccakM (m R : Nat) [RateOK R] (P : Byte) (digestLength : Nat) : API (Obj R KState) :=
  blockApiM m R (implM m R) init (finalizeM m R P digestLength) toVector

end SHA3

namespace MD2

/-- `addDataImpl` (md2.h:406-440) -/
def implM (m : Nat) (s : St) (data : List Byte) : Except Fault St := forBlocksM m 16 body data s

/-- `finalize()`: `BLOCK_SIZE - (m_buffer.size() % BLOCK_SIZE)` (md2.h:288-302) -/
def finalizeM (m : Nat) (o : Obj (2 * 16) St) : Except Fault (Obj (2 * 16) St) := do
  let len := szSub m 16 (o.buffer.size % 16)
  let b ← o.buffer.fill (BitVec.ofNat 8 len) len
  let c ← implM m o.chain b.contents
  let c ← implM m c c.checksum.toList
  return ⟨b.clear, c⟩

/-- `class MD2` (md2.h:188-269) -/
def MD2M (m : Nat) : API (Obj (2 * 16) St) := blockApiM m 16 (implM m) init (finalizeM m) toArray

end MD2

namespace BLAKE
variable {w B : Nat} {C : Type}

/-- blake1_256.h:453-633 -/
def implM (m : Nat) (c : Cfg w B C) (paddingLen : Nat) (s : MDState C (Vector (BitVec w) 8)) (data : List Byte) :
    Except Fault (MDState C (Vector (BitVec w) 8)) := do
  if data.length % B ≠ 0 then throw .assertion
  forBlocksM m B (body c paddingLen) data s

/-- `m_buffer[m_buffer.size() - 9] |= 1` (blake1_256.h:324) -/
def markLastM {N : Nat} (m L : Nat) (marker : Bool) (b : Buffer N) : Except Fault (Buffer N) :=
  if marker then do
    let x ← b.getAt (szSub m b.size (L + 1))
    b.setAt (szSub m b.size (L + 1)) (x ||| 1)
  else .ok b

/-- `finalize()`: also `m_buffer.size() * 8` (blake1_256.h:311-337 / blake1_512.h:378-404) -/
def finalizeM (m : Nat) (c : Cfg w B C) (L : Nat) (marker : Bool) (total : C → Nat → C)
    (writes : Nat → C → List (Nat × Byte)) (o : Obj (2 * B) (MDState C (Vector (BitVec w) 8))) :
    Except Fault (Obj (2 * B) (MDState C (Vector (BitVec w) 8))) := do
  let sizeCounterBits := total o.chain.sizeCounter (szMul m o.buffer.size 8)
  let b ← o.buffer.fill 0x80
  let len := szSub m (2 * B) (szAdd m b.size L) % B
  let b ← b.fill 0 (len + L)
  let b ← markLastM m L marker b
  let b ← writeLoop b (writes b.size sizeCounterBits)
  let s ← implM m c (len + (L + 1)) o.chain b.contents
  return ⟨b.clear, s⟩

/-- A 32-bit class. blake1_224.h:192-258, blake1_256.h:192-258. -/
def api32M (m : Nat) (c : Cfg 32 64 W64) (marker : Bool) (iv : Vector W32 8) (words size : Nat) : API Obj32 :=
  blockApiM m 64 (implM m c 0) ⟨0, iv⟩ (finalizeM m c 8 marker cntAdd64 (lenWritesBE64M m)) (toArray 4 words size)

/-- A 64-bit class. blake1_384.h:255-321, blake1_512.h:255-321. -/
def api64M (m : Nat) (c : Cfg 64 128 Uint128) (marker : Bool) (iv : Vector W64 8) (words size : Nat) : API Obj64 :=
  blockApiM m 128 (implM m c 0) ⟨{}, iv⟩ (finalizeM m c 16 marker cntAdd128 (lenWritesBE128M m)) (toArray 8 words size)

end BLAKE

namespace BLAKE2
variable {w B : Nat} {C : Type}

/-- blake2.h:500-505 -/
def implM (m : Nat) (c : Cfg w B C) (isFinal : Bool) (paddingLen : Nat) (s : State w C) (data : List Byte) :
    Except Fault (State w C) := do
  if data.length % B ≠ 0 then throw .assertion
  forBlocksM m B (body c isFinal paddingLen) data s

/-- blake2.h:463-473 -/
def addDataTailM {S : Type} (m B : Nat) (impl : S → List Byte → Except Fault S) (o : Obj B S)
    (data : List Byte) : Except Fault (Obj B S) := do
  let dataSize := data.length
  let remainder := if dataSize % B ≠ 0 then dataSize % B else B
  let len := szSub m dataSize remainder
  let s ← impl o.chain (← spanFirst data len)
  let b ← Buffer.ofRange (data.drop (szSub m dataSize remainder))
  return ⟨b, s⟩

/-- blake2.h:441-474; `fuel` is the number of bytes: the recursion is on a shorter span -/
def addDataM {S : Type} (m B : Nat) (impl : S → List Byte → Except Fault S) :
    (fuel : Nat) → Obj B S → List Byte → Except Fault (Obj B S)
  | fuel, o, inData =>
    if inData.isEmpty then .ok o
    else if o.buffer.size = B then do
      let s ← impl o.chain o.buffer.contents
      addDataTailM m B impl ⟨o.buffer.clear, s⟩ inData
    else if !o.buffer.empty then
      match fuel with
      | 0 => .error .assertion
      | fuel + 1 => do
        let len := min (szSub m B o.buffer.size) inData.length
        let b ← o.buffer.pushBack (inData.take len)
        addDataM m B impl fuel { o with buffer := b } (← spanSub inData len)
    else addDataTailM m B impl o inData

/-- `finalize()`: `BLOCK_SIZE - m_buffer.size()` (blake2.h:373-383) -/
def finalizeM (m : Nat) (c : Cfg w B C) (o : Obj B (State w C)) : Except Fault (Obj B (State w C)) := do
  let len := szSub m B o.buffer.size
  let b ← o.buffer.fill 0 len
  let s ← implM m c true len o.chain b.contents
  return ⟨b.clear, s⟩

/-- the class (blake2.h:255-320, blake2s.h:192-257) -/
def apiM (m : Nat) (c : Cfg w B C) (bytesPerWord size : Nat) : API (Obj B (State w C)) where
  fresh := ⟨{}, init c⟩
  reset := fun o => ⟨o.buffer.clear, init c⟩
  addData := fun o d => addDataM m B (implM m c false 0) d.length o d
  finalize := finalizeM m c
  toArray := toArray bytesPerWord size

end BLAKE2

namespace SipHash

/-- siphash.h:459-474 -/
def implM (m C : Nat) (s : State) (data : List Byte) : Except Fault State := do
  if data.length % 8 ≠ 0 then throw .assertion
  let c := s.sizeCounter + BitVec.ofNat 8 data.length
  let v ← forBlocksM m 8 (body C) data s.state
  return { s with sizeCounter := c, state := v }

/-- `finalize()`: `BLOCK_SIZE - 1 - m_buffer.size()`, whose first subtraction is one of `int`
(siphash.h:317-336) -/
def finalizeM (m C D : Nat) (o : O) : Except Fault O := do
  let cnt := o.chain.sizeCounter + BitVec.ofNat 8 o.buffer.size
  let len := szSub m 7 o.buffer.size
  let b ← o.buffer.fill 0 len
  let b ← b.fill cnt 1
  let s ← implM m C { o.chain with sizeCounter := cnt } b.contents
  let v := s.state.set 2 (s.state[2] ^^^ 0xff)
  return ⟨b.clear, { s with state := rounds D v }⟩

/-- `SipHash<C, D>` objects constructed with the given key (siphash.h:193-255) -/
def SipHashCDM (m C D : Nat) (key : Block 16) : API O where
  fresh := constructKey key
  reset := reset
  addData := Verif.addDataM m 8 (implM m C)
  finalize := finalizeM m C D
  toArray := toArray

end SipHash

namespace CRC32

/-- the loop over the remaining bytes: `++processed` (crc_32.h:877-885); `fuel` is at least the number of
iterations -/
def tailLoopM (m : Nat) (data : List Byte) : (fuel processed : Nat) → W32 → Except Fault W32
  | 0, processed, h => if processed < data.length then .error .assertion else .ok h
  | fuel + 1, processed, h =>
    if processed < data.length then
      match data[processed]? with
      | some x => tailLoopM m data fuel (szAdd m processed 1) (tailByte h x)
      | none => .error .spanBounds
    else .ok h

/-- `addDataImpl`: `(data.size() / BLOCK_SIZE) * BLOCK_SIZE` (crc_32.h:824-886) -/
def addDataM (m : Nat) (h : W32) (data : List Byte) : Except Fault W32 := do
  let h ← forBlocksM m 16 body data h
  tailLoopM m data data.length (szMul m (data.length / 16) 16) h

/-- `class CRC_32` (crc_32.h:92-692) -/
def CRC_32M (m : Nat) : API W32 where
  fresh := reset 0
  reset := reset
  addData := addDataM m
  finalize := fun h => .ok (~~~ h)
  toArray := fun h => resultArray 4 (storeBE 4 h)

end CRC32

namespace CShake
variable {R : Nat} [SHA3.RateOK R]

/-- a call on the object a pointer owns (cshake.h:236-254) -/
def callKM (m : Nat) (op : Op) (P : Byte) (k : KObj R) : Except Fault (KObj R) := do
  return { k with obj := ← (SHA3.KeccakM m R P k.digestLength).step k.obj op }

/-- one call (cshake.h:236-254, 289-294, 324-331) -/
def stepM (m : Nat) (o : CShake R) (op : Op) : Except Fault (CShake R) := onActive o (callKM m op)

/-- a history of calls; not in /repo: the user chooses the calls (cshake.h:71-129) -/
def runM (m : Nat) (o : CShake R) : List Op → Except Fault (CShake R)
  | [] => .ok o
  | op :: ops => do runM m (← stepM m o op) ops

/-- `processString`: `str.size() * 8`, `length += ..` (cshake.h:161-168) -/
def processStringM (m : Nat) (nb : Nat → Nat) (o : CShake R) (str : List Byte) (length : Nat) :
    Except Fault (CShake R × Nat) := do
  let encodedStr ← leftEncode nb (szMul m str.length 8)
  let o ← stepM m o (.add encodedStr.contents)
  let length := szAdd m length encodedStr.size
  let o ← stepM m o (.add str)
  return (o, szAdd m length str.length)

/-- the loop adding zero bytes (cshake.h:183-185) -/
def addZerosM (m : Nat) : Nat → CShake R → Except Fault (CShake R)
  | 0, o => .ok o
  | n + 1, o => do addZerosM m n (← stepM m o (.add [0]))

/-- the constructor: `(target - (length % target)) % target` (cshake.h:146-186) -/
def constructM (m : Nat) (nb : Nat → Nat) (R : Nat) [SHA3.RateOK R] (digestLength : Int) (name customize : List Byte) :
    Except Fault (CShake R) := do
  let customized := !(name.isEmpty && customize.isEmpty)
  if customized = false then
    return ⟨customized, some (← newK R 0x1F digestLength), none⟩
  let o : CShake R := ⟨customized, none, some (← newK R 0x04 digestLength)⟩
  let encodedW ← leftEncode nb R
  let o ← stepM m o (.add encodedW.contents)
  let length := encodedW.size
  let (o, length) ← processStringM m nb o name length
  let (o, length) ← processStringM m nb o customize length
  addZerosM m (szSub m R (length % R) % R) o

/-- the constructor of `TupleHash` (tuple_hash.h:137-143) -/
def tupleConstructM (m : Nat) (nb : Nat → Nat) (R : Nat) [SHA3.RateOK R] (digestLength : Int) (customize : List Byte) :
    Except Fault (TupleHash R) := do
  return ⟨← constructM m nb R digestLength tupleHashName customize, digestLength⟩

/-- one call: `inData.size() * 8` (tuple_hash.h:145-158, 188-196); `m_digestLength * 8` is an `int` -/
def tupleStepM (m : Nat) (nb : Nat → Nat) (o : TupleHash R) : Op → Except Fault (TupleHash R)
  | .add d => do
    let encoded ← leftEncode nb (szMul m d.length 8)
    let c ← stepM m o.cshake (.add encoded.contents)
    let c ← stepM m c (.add d)
    return { o with cshake := c }
  | .reset => do return { o with cshake := ← stepM m o.cshake .reset }
  | .finalize => do
    let v := o.digestLength * 8
    if ¬(-2 ^ 31 ≤ v ∧ v < 2 ^ 31) then throw .signedOverflow
    let encoded ← rightEncode nb (BitVec.ofInt 64 v).toNat
    let c ← stepM m o.cshake (.add encoded.contents)
    let c ← stepM m c .finalize
    return { o with cshake := c }

/-- a history of calls; not in /repo: the user chooses the calls (tuple_hash.h:70-119) -/
def tupleRunM (m : Nat) (nb : Nat → Nat) (o : TupleHash R) : List Op → Except Fault (TupleHash R)
  | [] => .ok o
  | op :: ops => do tupleRunM m nb (← tupleStepM m nb o op) ops

end CShake
end Model
end Verif
