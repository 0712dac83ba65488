import Verif.Core.Stream

/-! # siphash.h -/

namespace Verif.Model.SipHash

/-- The members `m_sizeCounter`, `m_key`, `m_state` (siphash.h:251-254). -/
structure State where
  sizeCounter : Byte := 0
  key : Vector W64 2 := #v[0, 0]
  state : Vector W64 4 := #v[0, 0, 0, 0]
  deriving DecidableEq

/-- `class SipHash`: the buffer has `BLOCK_SIZE * 2 = 16` bytes (siphash.h:248-250). -/
abbrev O := Obj 16 State

/-- `sipRound()` (siphash.h:477-493): fourteen assignments to `m_state`. -/
def sipRound (v : Vector W64 4) : Vector W64 4 :=
  let v := v.set 0 (v[0] + v[1])
  let v := v.set 2 (v[2] + v[3])
  let v := v.set 1 (rotl v[1] 13)
  let v := v.set 3 (rotl v[3] 16)
  let v := v.set 1 (v[1] ^^^ v[0])
  let v := v.set 3 (v[3] ^^^ v[2])
  let v := v.set 0 (rotl v[0] 32)
  let v := v.set 2 (v[2] + v[1])
  let v := v.set 0 (v[0] + v[3])
  let v := v.set 1 (rotl v[1] 17)
  let v := v.set 3 (rotl v[3] 21)
  let v := v.set 1 (v[1] ^^^ v[2])
  let v := v.set 3 (v[3] ^^^ v[0])
  v.set 2 (rotl v[2] 32)

/-- `for (c = 0; c < n; ++c) sipRound();` (siphash.h:332-333, 470-471). The template parameters are
`int`; a negative one gives no rounds, as 0 does. -/
def rounds (n : Nat) (v : Vector W64 4) : Vector W64 4 := (List.range n).foldl (fun v _ => sipRound v) v

/-- body of the loop of `addDataImpl` (siphash.h:467-472) -/
def body (C : Nat) (v : Vector W64 4) (m : Block 8) : Vector W64 4 :=
  let v := v.set 3 (v[3] ^^^ loadLE64 m 0)
  let v := rounds C v
  v.set 0 (v[0] ^^^ loadLE64 m 0)

/-- `addDataImpl` (siphash.h:459-474) -/
def impl (C : Nat) (s : State) (data : List Byte) : Except Fault State := do
  if data.length % 8 ≠ 0 then throw .assertion
  let c := s.sizeCounter + BitVec.ofNat 8 data.length
  let v ← forBlocks 8 (body C) data s.state
  return { s with sizeCounter := c, state := v }

/-- what `reset()` does with the members other than the buffer (siphash.h:308-313) -/
def resetState (s : State) : State :=
  { s with
    sizeCounter := 0
    state := #v[s.key[0] ^^^ 0x736f6d6570736575, s.key[1] ^^^ 0x646f72616e646f6d,
      s.key[0] ^^^ 0x6c7967656e657261, s.key[1] ^^^ 0x7465646279746573] }

/-- `reset()` (siphash.h:305-314) -/
def reset (o : O) : O := ⟨o.buffer.clear, resetState o.chain⟩

/-- `finalize()` (siphash.h:317-336). At most 7 bytes are buffered, so `BLOCK_SIZE - 1 - size()`
does not wrap. -/
def finalize (C D : Nat) (o : O) : Except Fault O := do
  let cnt := o.chain.sizeCounter + BitVec.ofNat 8 o.buffer.size
  let len := 8 - 1 - o.buffer.size
  let b ← o.buffer.fill 0 len
  let b ← b.fill cnt 1
  let s ← impl C { o.chain with sizeCounter := cnt } b.contents
  let v := s.state.set 2 (s.state[2] ^^^ 0xff)
  return ⟨b.clear, { s with state := rounds D v }⟩

/-- `toArray()` (siphash.h:366-377) -/
def toArray (o : O) : Except Fault (List Byte) :=
  let v := o.chain.state
  resultArray 8 (storeBE 8 (v[0] ^^^ v[1] ^^^ v[2] ^^^ v[3]))

/-- the constructor after its assertion (siphash.h:297-301) -/
def constructKey (key : Block 16) : O :=
  reset ⟨{}, { key := #v[loadLE64 key 0, loadLE64 key 1] }⟩

/-- `SipHash(key)` (siphash.h:292-302): anything but 16 bytes fails the assertion (in a release
build a shorter key would be read past its end). -/
def construct (key : List Byte) : Except Fault O :=
  if h : key.length = 16 then .ok (constructKey ⟨key.toArray, h⟩) else .error .assertion

/-- `SipHash<C, D>` objects constructed with the given key. siphash.h:193-255. -/
def SipHashCD (C D : Nat) (key : Block 16) : API O where
  fresh := constructKey key
  reset := reset
  addData := addData 8 (impl C)
  finalize := finalize C D
  toArray := toArray

/-- `using SipHash = SipHash<2, 4>` (siphash.h:497) -/
def SipHash (key : Block 16) : API O := SipHashCD 2 4 key

/-- `operator==` (siphash.h:230-238): compares the four words of `m_state` and nothing else. -/
def eq (l r : O) : Bool := l.chain.state == r.chain.state

end Verif.Model.SipHash
