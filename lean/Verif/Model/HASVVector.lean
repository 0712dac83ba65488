import Verif.Core.Alloc
import Verif.Model.HASV
import Verif.Model.Vectors

/-!
# HAS_V_320 with its buffer as it is: a `std::vector`

`Model/HASV.lean` gives the class the fixed buffer of the other classes. The class itself keeps the carried-over bytes
in a `std::vector<Byte>` (has_v_320.h:53), which allocates memory in `addData()` and `finalize()`; the allocations may
throw `std::bad_alloc`.
-/

namespace Verif.Model.HASV

/-- `std::vector<Byte>`: the bytes, and the number of bytes for which it has memory (has_v_320.h:53) -/
structure Vec where
  data : List Byte
  cap : Nat
  deriving DecidableEq

/-- `insert(end(), ..)` and `emplace_back` (has_v_320.cpp:95, 99, 165): memory is allocated if there is not enough, as
much as the library's rule `g` says; `fails` says what becomes of that allocation. If it fails the vector is as before. -/
def Vec.insert (g : SHA3.Growth) (fails : Bool) (v : Vec) (xs : List Byte) : Outcome Vec :=
  let need := v.data.length + xs.length
  if need ≤ v.cap then .done ⟨v.data ++ xs, v.cap⟩
  else if fails then .threw v
  else .done ⟨v.data ++ xs, g.grow v.cap need⟩

/-- `m_buffer = {first, last}` (has_v_320.cpp:179, 187): a temporary vector with memory for exactly these bytes (none if
there are none), which the assignment then moves into the member, memory included. -/
def Vec.assign (fails : Bool) (v : Vec) (xs : List Byte) : Outcome Vec :=
  if xs ≠ [] ∧ fails then .threw v else .done ⟨xs, xs.length⟩

/-- `clear()` (has_v_320.cpp:75, 115, 171): the memory is kept -/
def Vec.clear (v : Vec) : Vec := ⟨[], v.cap⟩

/-- `m_buffer[pos] = value` (has_v_320.cpp:102, 110-111); outside the vector it is undefined behaviour -/
def Vec.setAt (v : Vec) (pos : Nat) (value : Byte) : Except Fault Vec :=
  if pos < v.data.length then .ok ⟨v.data.set pos value, v.cap⟩ else .error .bufferOverrun

/-- the stores into the last nine bytes (has_v_320.cpp:101-112) -/
def Vec.writeLoop (v : Vec) (ws : List (Nat × Byte)) : Except Fault Vec := ws.foldlM (fun v w => v.setAt w.1 w.2) v

/-- the members (has_v_320.h:53-56) -/
structure VObj where
  buffer : Vec
  chain : MDState W64 (Vector W32 10)
  deriving DecidableEq

/-- the constructor (has_v_320.cpp:67-71), when `reserve` gets the memory it asks for: 256 bytes. It may get more in
principle; the model takes what the libraries do. -/
def freshV : VObj := ⟨⟨[], 2 * 128⟩, ⟨0, iv⟩⟩

/-- `reset()` (has_v_320.cpp:73-88) -/
def resetV (o : VObj) : VObj := ⟨o.buffer.clear, ⟨0, iv⟩⟩

/-- `addDataImpl()` (has_v_320.cpp:196-807) -/
def implV (s : MDState W64 (Vector W32 10)) (data : List Byte) : Except Fault (MDState W64 (Vector W32 10)) :=
  mdImpl 128 counter compress s data

/-- a difference in `size_t`; `m_buffer` may hold more than a block after a `finalize()` that threw (has_v_320.cpp:98, 164) -/
def subSize (a b : Nat) : Nat := (2 ^ 64 + a - b) % 2 ^ 64

/-- the second half of `addData(Span)` (has_v_320.cpp:176-189); the vector is assigned to once at most -/
def addDataTailV (f : Supply) (o : VObj) (data : List Byte) : Except Fault (Outcome VObj) := do
  let dataSize := data.length
  if dataSize < 128 then
    match o.buffer.assign (f.fails 1) data with
    | .threw b => return .threw { o with buffer := b }
    | .done b => return .done { o with buffer := b }
  else
    let len := dataSize - (dataSize % 128)
    let c ← implV o.chain (← spanFirst data len)
    if len < dataSize then
      match o.buffer.assign (f.fails 1) (data.drop len) with
      | .threw b => return .threw ⟨b, c⟩
      | .done b => return .done ⟨b, c⟩
    else
      return .done { o with chain := c }

/-- `addData(Span)` (has_v_320.cpp:158-190) -/
def addDataV (g : SHA3.Growth) (f : Supply) (o : VObj) (inData : List Byte) : Except Fault (Outcome VObj) := do
  if o.buffer.data ≠ [] then
    let len := min (subSize 128 o.buffer.data.length) inData.length
    match o.buffer.insert g (f.fails 0) (inData.take len) with
    | .threw b => return .threw { o with buffer := b }
    | .done b =>
      if b.data.length < 128 then return .done { o with buffer := b }
      else
        let c ← implV o.chain b.data
        addDataTailV f ⟨b.clear, c⟩ (← spanSub inData len)
  else
    addDataTailV f o inData

/-- `finalize()` (has_v_320.cpp:90-118). The number of bytes is counted before the vector is made longer. -/
def finalizeV (g : SHA3.Growth) (f : Supply) (o : VObj) : Except Fault (Outcome VObj) := do
  let s := { o.chain with sizeCounter := cntAdd64 o.chain.sizeCounter o.buffer.data.length }
  match o.buffer.insert g (f.fails 0) [1 <<< 7] with
  | .threw b => return .threw ⟨b, s⟩
  | .done b =>
    let len := subSize (2 * 128) (b.data.length + 9) % 128
    match b.insert g (f.fails 1) (List.replicate (len + 9) 0) with
    | .threw b => return .threw ⟨b, s⟩
    | .done b =>
      let b ← b.writeLoop (counter.writes b.data.length s.sizeCounter)
      let c ← implV s b.data
      return .done ⟨b.clear, c⟩

/-- One call, given which of its allocations fail. has_v_320.h:36-46. -/
def stepV (g : SHA3.Growth) (o : VObj) : Op × Supply → Except Fault (Outcome VObj)
  | (.add d, f) => addDataV g f o d
  | (.finalize, f) => finalizeV g f o
  | (.reset, _) => .ok (.done (resetV o))

/-- did the call return, rather than throw? Not in /repo. -/
def returned {O : Type} : Outcome O → Bool
  | .done _ => true
  | .threw _ => false

/-- A history of calls by a caller who catches `std::bad_alloc` and goes on with the next call: the object it leaves,
and which of the calls returned. Not in /repo. -/
def runV (g : SHA3.Growth) (o : VObj) : List (Op × Supply) → Except Fault (VObj × List Bool)
  | [] => .ok (o, [])
  | c :: cs => do
    let r ← stepV g o c
    let (o', bs) ← runV g r.left cs
    return (o', returned r :: bs)

/-- `toArray()` (has_v_320.cpp:141-156) -/
def toArrayV (o : VObj) : Except Fault (List Byte) := toArray o.chain.h

end Verif.Model.HASV
