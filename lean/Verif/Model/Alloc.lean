import Verif.Core.Alloc
import Verif.Model.CShakeHeap

/-!
# sha3.h and cshake.h when memory runs out

Where the code allocates: the constructor of `Keccak` (`m_final.reserve`, sha3.h:318), `finalize()` (sha3.h:351-352),
copies of the member `m_final` (the implicit copy constructor and copy assignment of `Keccak`, and the functions that
return vectors or strings, which change no object), and `std::make_unique` in cshake.h. No other hash class has a
member that owns memory, and no other function of these classes allocates.
-/

namespace Verif.Model.SHA3

/-- `finalize()` up to the squeeze loop (sha3.h:337-345), which allocates nothing -/
def close (R : Nat) [RateOK R] (P : Byte) (o : Obj R KState) : Except Fault (Obj R KState) := do
  let b ← o.buffer.fill P
  let len := (2 * R - b.size) % R
  let b ← b.fill 0 len
  let last ← b.getAt (b.size - 1)
  let b ← b.setAt (b.size - 1) (last ||| 0x80)
  let c ← impl R o.chain b.contents
  return ⟨b.clear, c⟩

/-- The squeeze loop (sha3.h:348-357). In round `i` the allocation `2 i` is the one of `stateToVector` (sha3.h:592)
and `2 i + 1` the one of `m_final.insert`, which leaves the vector as it was if it throws (insertion at the end). -/
def squeezeA (R : Nat) [hR : RateOK R] (digestLength : Nat) (f : Supply) (i : Nat) (s : KState) :
    Except Fault (Outcome KState) :=
  if f.fails (2 * i) then .ok (.threw s)
  else
    let state := stateToVector s.state
    if _h : R ≤ state.length then
      if f.fails (2 * i + 1) then .ok (.threw s)
      else
        let final := s.final ++ state.take R
        if _hf : final.length ≥ digestLength then .ok (.done ⟨s.state, final⟩)
        else
          match absorb R s.state (List.replicate R 0) with
          | .error e => .error e
          | .ok st => squeezeA R digestLength f (i + 1) ⟨st, final⟩
    else .error .spanBounds
termination_by digestLength - s.final.length
decreasing_by
  have := hR.pos
  have := hR.le
  have := stateToVector_length s.state
  simp only [ge_iff_le, Nat.not_le, final, List.length_append, List.length_take, state] at *
  omega

/-- `finalize()` (sha3.h:334-361). `m_final.resize` never makes the vector longer, so it allocates nothing. -/
def finalizeA (R : Nat) [RateOK R] (P : Byte) (digestLength : Nat) (f : Supply) (o : Obj R KState) :
    Except Fault (Outcome (Obj R KState)) := do
  let o ← close R P o
  match ← squeezeA R digestLength f 0 o.chain with
  | .threw c => return .threw ⟨o.buffer, c⟩
  | .done c =>
    let final := c.final.take digestLength ++ List.replicate (digestLength - c.final.length) 0
    return .done ⟨o.buffer, { c with final := final }⟩

/-- `Keccak<R, P>(digestLength)` (sha3.h:309-361) -/
def KeccakA (R : Nat) [RateOK R] (P : Byte) (digestLength : Nat) : AllocAPI (Obj R KState) :=
  { Keccak R P digestLength with finalizeA := finalizeA R P digestLength }

/-! sha3.h:614-617, 629-630 -/
/-- `SHA3_224` (sha3.h:614) where allocations can fail -/
def SHA3_224A : AllocAPI (Obj 144 KState) := KeccakA 144 0x06 28
/-- `SHA3_256` (sha3.h:615) where allocations can fail -/
def SHA3_256A : AllocAPI (Obj 136 KState) := KeccakA 136 0x06 32
/-- `SHA3_384` (sha3.h:616) where allocations can fail -/
def SHA3_384A : AllocAPI (Obj 104 KState) := KeccakA 104 0x06 48
/-- `SHA3_512` (sha3.h:617) where allocations can fail -/
def SHA3_512A : AllocAPI (Obj 72 KState) := KeccakA 72 0x06 64
/-- `SHAKE_128` (sha3.h:629) where allocations can fail -/
def SHAKE_128A (d : Nat) : AllocAPI (Obj 168 KState) := KeccakA 168 0x1F d
/-- `SHAKE_256` (sha3.h:630) where allocations can fail -/
def SHAKE_256A (d : Nat) : AllocAPI (Obj 136 KState) := KeccakA 136 0x1F d

end Verif.Model.SHA3

namespace Verif.Model.CShake
open SHA3

variable {R : Nat} [RateOK R]

/-- The implicit copy assignment of `Keccak`: the members in the order of their declaration (sha3.h:262-268),
`m_digestLength`, `m_buffer`, `m_final`, `m_state`. Only `m_final` allocates. -/
def assignA (f : Supply) (dst src : KObj R) : Outcome (KObj R) :=
  if f.fails 0 then .threw ⟨src.digestLength, ⟨src.obj.buffer, ⟨dst.obj.chain.state, f.left⟩⟩⟩
  else .done src

/-- a call on the object a pointer owns (cshake.h:236-254) -/
def callA (f : Supply) (op : Op) (P : Byte) (k : KObj R) : Except Fault (Outcome (KObj R)) := do
  match ← (KeccakA R P k.digestLength).stepA k.obj (op, f) with
  | .done x => return .done { k with obj := x }
  | .threw x => return .threw { k with obj := x }

/-- `*p = r` for the outcome `r` of a call or an assignment (cshake.h:189-234, 236-254) -/
def Mem.storeA (m : Mem R) (i : Nat) (b : Bool) : Outcome (KObj R) → Except HeapFault (Outcome (Mem R))
  | .done k => do return .done (← m.store i b k)
  | .threw k => do return .threw (← m.store i b k)

/-- One statement when memory may run out; without failing allocations this is `Mem.step`.
Constructors: allocation 0 is the cell, allocation 1 is `m_final` of the object in the cell (sha3.h:318 or a copy);
`std::make_unique` gives the cell back when the latter throws, and then there is no object.
Copy assignment: `m_customized` is assigned first (cshake.h:213-217). -/
def Mem.stepA (nb : Nat → Nat) (f : Supply) (m : Mem R) : CStmt → Except HeapFault (Outcome (Mem R))
  | .create j d name customize => do
    m.vacant j
    if f.fails 0 || f.fails 1 then return .threw m
    let v ← lift (construct nb R d name customize)
    return .done (m.place j v)
  | .call i op => do
    let c ← m.flag i
    let k ← m.load i c
    let r ← lift (callA f op (padding c) k)
    m.storeA i c r
  | .copyNew i j => do
    m.vacant j
    let c ← m.flag i
    let k ← m.load i c
    if f.fails 0 || f.fails 1 then return .threw m
    return .done ((m.setFlag j (some c)).alloc j c k)
  | .copyAssign i j => do
    let c ← m.flag i
    let _ ← m.flag j
    if i = j then return .done m
    let m := m.setFlag j (some c)
    let k ← m.load i c
    let k' ← m.load j c
    m.storeA j c (assignA f k' k)
  | st => do return .done (← m.step nb st)

/-- A program that catches `std::bad_alloc` and goes on with the next statement. Not in /repo: the user's program. -/
def Mem.execA (nb : Nat → Nat) (m : Mem R) : List (CStmt × Supply) → Except HeapFault (Mem R)
  | [] => .ok m
  | (s, f) :: P => do
    let r ← m.stepA nb f s
    r.left.execA nb P

end Verif.Model.CShake
