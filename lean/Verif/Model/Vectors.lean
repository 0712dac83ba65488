import Verif.Model.Alloc

/-!
# How much memory the vectors of sha3.h take

`m_final` and the vector that `stateToVector()` returns are the only memory a SHA-3 or SHAKE object asks for. A
`std::vector` has a capacity; it asks for a new piece of memory when more is to be stored than fits, copies, and gives
the old piece back. `clear()` and `resize()` to a smaller size keep the capacity.
-/

namespace Verif.Model.SHA3

/-- How a `std::vector<Byte>` chooses its new capacity when `need` bytes do not fit into the present one. The C++
standard only asks for enough room; the usual libraries take what is needed or a multiple (1.5 or 2) of what they had,
and `reserve` takes what is needed. Not in /repo: the standard library. -/
structure Growth where
  grow : Nat → Nat → Nat
  enough : ∀ cap need, need ≤ grow cap need
  bounded : ∀ cap need, grow cap need ≤ max need (2 * cap)

/-- The memory of one object: the capacity of `m_final`, and the most bytes that were allocated at one moment so far,
temporary vectors included (`m_final`: sha3.h:270). -/
structure Heap where
  cap : Nat
  peak : Nat
  deriving DecidableEq

/-- `stateToVector()` (sha3.h:585-600): a temporary vector of 200 bytes besides `m_final` -/
def Heap.temporary (h : Heap) : Heap := { h with peak := max h.peak (h.cap + 200) }

/-- `m_final.insert(end, ..)` (sha3.h:352) that makes the size `need`: while the old contents are copied both pieces
of memory are there, and the temporary vector. -/
def Heap.insert (g : Growth) (h : Heap) (need : Nat) : Heap :=
  if need ≤ h.cap then h
  else ⟨g.grow h.cap need, max h.peak (h.cap + g.grow h.cap need + 200)⟩

/-- the squeeze loop of `finalize()` (sha3.h:348-357) -/
def squeezeH (R : Nat) [hR : RateOK R] (g : Growth) (digestLength : Nat) (s : KState) (h : Heap) :
    Except Fault (KState × Heap) :=
  let h := h.temporary
  let state := stateToVector s.state
  if _h : R ≤ state.length then
    let final := s.final ++ state.take R
    let h := h.insert g final.length
    if _hf : final.length ≥ digestLength then .ok (⟨s.state, final⟩, h)
    else
      match absorb R s.state (List.replicate R 0) with
      | .error e => .error e
      | .ok st => squeezeH R g digestLength ⟨st, final⟩ h
  else .error .spanBounds
termination_by digestLength - s.final.length
decreasing_by
  have := hR.pos
  have := hR.le
  have := stateToVector_length s.state
  simp only [ge_iff_le, Nat.not_le, final, List.length_append, List.length_take, state] at *
  omega

/-- `finalize()` (sha3.h:334-361); `m_final.resize` makes the vector shorter or leaves it, so it allocates nothing. -/
def finalizeH (R : Nat) [RateOK R] (P : Byte) (g : Growth) (digestLength : Nat) (o : Obj R KState) (h : Heap) :
    Except Fault (Obj R KState × Heap) := do
  let o ← close R P o
  let (c, h) ← squeezeH R g digestLength o.chain h
  let final := c.final.take digestLength ++ List.replicate (digestLength - c.final.length) 0
  return (⟨o.buffer, { c with final := final }⟩, h)

/-- One call. `addData()` (sha3.h:390-465) allocates nothing, and `reset()` (sha3.h:322-331) clears `m_final`, which
keeps its capacity. -/
def stepH (R : Nat) [RateOK R] (P : Byte) (g : Growth) (digestLength : Nat) (o : Obj R KState) (h : Heap) :
    Op → Except Fault (Obj R KState × Heap)
  | .add d => do return (← (Keccak R P digestLength).addData o d, h)
  | .reset => return ((Keccak R P digestLength).reset o, h)
  | .finalize => finalizeH R P g digestLength o h

/-- a history of calls; not in /repo: the user chooses the calls (sha3.h:199-273) -/
def runH (R : Nat) [RateOK R] (P : Byte) (g : Growth) (digestLength : Nat) (o : Obj R KState) (h : Heap) :
    List Op → Except Fault (Obj R KState × Heap)
  | [] => .ok (o, h)
  | op :: ops => do
    let (o, h) ← stepH R P g digestLength o h op
    runH R P g digestLength o h ops

/-- The constructor (sha3.h:309-320): `m_final.reserve(m_digestLength)`. -/
def heapNew (g : Growth) (digestLength : Nat) : Heap :=
  if digestLength = 0 then ⟨0, 0⟩ else ⟨g.grow 0 digestLength, g.grow 0 digestLength⟩

end Verif.Model.SHA3
