import Verif.Model.HASVVector

/-!
# HAS_V_320 with the memory behind its `std::vector`

`Model/HASVVector.lean` keeps the bytes that are in the vector, and how much memory it has. Here the memory itself is kept:
`clear()` sets the number of bytes to 0 and touches none of them. Allocations do not fail here. Memory that is given back
is out of sight, with all it holds.
-/

namespace Verif.Model.HASV

/-- `std::vector<Byte>` (has_v_320.h:53): the memory it owns, and how many bytes of it are elements. A byte of new memory
that nothing was stored in yet is 0 here. -/
structure RVec where
  mem : List Byte
  size : Nat
  deriving DecidableEq

/-- the elements; not in /repo -/
def RVec.data (v : RVec) : List Byte := v.mem.take v.size

/-- `insert(end(), ..)` and `emplace_back` (has_v_320.cpp:95, 99, 165): in place if there is room, otherwise in new memory
as large as the rule `g` says, to which the elements are copied. -/
def RVec.insert (g : SHA3.Growth) (v : RVec) (xs : List Byte) : RVec :=
  let need := v.size + xs.length
  if need ≤ v.mem.length then ⟨v.data ++ xs ++ v.mem.drop need, need⟩
  else ⟨v.data ++ xs ++ List.replicate (g.grow v.mem.length need - need) 0, need⟩

/-- `m_buffer = {first, last}` (has_v_320.cpp:179, 187): the memory of the temporary vector -/
def RVec.assign (_ : RVec) (xs : List Byte) : RVec := ⟨xs, xs.length⟩

/-- `clear()` (has_v_320.cpp:75, 115, 171) -/
def RVec.clear (v : RVec) : RVec := { v with size := 0 }

/-- `m_buffer[pos] = value` (has_v_320.cpp:102, 110-111); outside the elements it is undefined behaviour -/
def RVec.setAt (v : RVec) (pos : Nat) (value : Byte) : Except Fault RVec :=
  if pos < v.size then .ok { v with mem := v.mem.set pos value } else .error .bufferOverrun

/-- the stores into the last nine bytes (has_v_320.cpp:101-112) -/
def RVec.writeLoop (v : RVec) (ws : List (Nat × Byte)) : Except Fault RVec := ws.foldlM (fun v w => v.setAt w.1 w.2) v

/-- the members (has_v_320.h:53-56) -/
structure RObj where
  buffer : RVec
  chain : MDState W64 (Vector W32 10)
  deriving DecidableEq

/-- the constructor (has_v_320.cpp:67-71) -/
def freshR : RObj := ⟨⟨List.replicate (2 * 128) 0, 0⟩, ⟨0, iv⟩⟩

/-- `reset()` (has_v_320.cpp:73-88) -/
def resetR (o : RObj) : RObj := ⟨o.buffer.clear, ⟨0, iv⟩⟩

/-- the second half of `addData(Span)` (has_v_320.cpp:176-189) -/
def addDataTailR (o : RObj) (data : List Byte) : Except Fault RObj := do
  let dataSize := data.length
  if dataSize < 128 then return { o with buffer := o.buffer.assign data }
  else
    let len := dataSize - (dataSize % 128)
    let c ← implV o.chain (← spanFirst data len)
    if len < dataSize then return ⟨o.buffer.assign (data.drop len), c⟩
    else return { o with chain := c }

/-- `addData(Span)` (has_v_320.cpp:158-190) -/
def addDataR (g : SHA3.Growth) (o : RObj) (inData : List Byte) : Except Fault RObj := do
  if o.buffer.size ≠ 0 then
    let len := min (subSize 128 o.buffer.size) inData.length
    let b := o.buffer.insert g (inData.take len)
    if b.size < 128 then return { o with buffer := b }
    else
      let c ← implV o.chain b.data
      addDataTailR ⟨b.clear, c⟩ (← spanSub inData len)
  else
    addDataTailR o inData

/-- `finalize()` (has_v_320.cpp:90-118) -/
def finalizeR (g : SHA3.Growth) (o : RObj) : Except Fault RObj := do
  let s := { o.chain with sizeCounter := cntAdd64 o.chain.sizeCounter o.buffer.size }
  let b := o.buffer.insert g [1 <<< 7]
  let len := subSize (2 * 128) (b.size + 9) % 128
  let b := b.insert g (List.replicate (len + 9) 0)
  let b ← b.writeLoop (counter.writes b.size s.sizeCounter)
  let c ← implV s b.data
  return ⟨b.clear, c⟩

end Verif.Model.HASV
