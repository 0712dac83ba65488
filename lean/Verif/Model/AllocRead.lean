import Verif.Model.Alloc

/-!
# Reading digests, cSHAKE and TupleHash when memory runs out

The functions that read a digest are `const`: they return a value and leave the object alone. `toVector` and
`toString` allocate what they return. `operator T` and `std::hash` are `noexcept`; in sha3.h, cshake.h and
tuple_hash.h they call `toVector`.
-/

namespace Verif

/-- What a call that reads can do: return a value, throw `std::bad_alloc`, or end the program by
`std::terminate`. Not in /repo: the ways out of a C++ function. -/
inductive Reading (α : Type) where
  | value (a : α)
  | threw
  | terminated
  deriving DecidableEq

/-- leaving a `noexcept` function with an exception calls `std::terminate` (`noexcept`: sha3.h:223, cshake.h:100) -/
def Reading.noexcept {α : Type} : Reading α → Reading α
  | .threw => .terminated
  | r => r

namespace API
variable {O : Type} (A : API O)

/-- `toVector` of the classes with `toArray` (sha1.h:347-351): the vector returned is the only allocation. -/
def toVectorA (f : Supply) (o : O) : Except Fault (Reading (List Byte)) := do
  let digest ← A.toArray o
  if f.fails 0 then return .threw
  return .value digest

/-- `toString` of these classes (sha1.h:328-345): `ret.resize` is the only allocation. -/
def toStringA (f : Supply) (o : O) : Except Fault (Reading (List Char)) := do
  let digest ← A.toArray o
  if f.fails 0 then return .threw
  return .value (← renderHex digest)

/-- `operator T` of these classes (sha1.h:371-386): no allocation; `noexcept`. -/
def toUIntA (_ : Supply) (k : Nat) (o : O) : Except Fault (Reading (BitVec (8 * k))) := do
  return (Reading.value (← convertInt k (← A.toArray o))).noexcept

end API

namespace Model.SHA3
variable {R : Nat}

/-- `Keccak::toVector` (sha3.h:382-386): the copy of `m_final` is the allocation 0. -/
def toVectorA (f : Supply) (o : Obj R KState) : Except Fault (Reading (List Byte)) :=
  if f.fails 0 then .ok .threw else do return .value (← toVector o)

/-- `Keccak::toString` (sha3.h:363-380): allocation 0 is the one of `toVector`, 1 the one of `ret.resize`. -/
def toStringA (f : Supply) (o : Obj R KState) : Except Fault (Reading (List Char)) := do
  match ← toVectorA f o with
  | .threw => return .threw
  | .terminated => return .terminated
  | .value v => if f.fails 1 then return .threw else return .value (← renderHex v)

/-- `Keccak::operator T`, which is `noexcept` (sha3.h:388-402), and `std::hash` (sha3.h:637-) -/
def toUIntA (f : Supply) (k : Nat) (o : Obj R KState) : Except Fault (Reading (BitVec (8 * k))) := do
  match ← toVectorA f o with
  | .threw => return Reading.threw.noexcept
  | .terminated => return .terminated
  | .value v => return (Reading.value (← convertInt k v)).noexcept

end Model.SHA3

namespace Model.CShake
open SHA3
variable {R : Nat}

/-- a read from the object a pointer owns (cshake.h:255-271) -/
def readActive {α : Type} (o : CShake R) (g : Obj R KState → Except Fault α) : Except Fault α :=
  if o.customized = false then
    match o.shake with
    | none => .error .nullDeref
    | some k => g k.obj
  else
    match o.keccak with
    | none => .error .nullDeref
    | some k => g k.obj

/-- `CShake::toVector` (cshake.h:264-271), `TupleHash::toVector` (tuple_hash.h:166-170) -/
def toVectorA (f : Supply) (o : CShake R) : Except Fault (Reading (List Byte)) := readActive o (SHA3.toVectorA f)

/-- `CShake::toString` (cshake.h:255-262), `TupleHash::toString` (tuple_hash.h:160-164) -/
def toStringA (f : Supply) (o : CShake R) : Except Fault (Reading (List Char)) := readActive o (SHA3.toStringA f)

/-- `CShake::operator T` (cshake.h:273-287), `TupleHash::operator T` (tuple_hash.h:172-186), both `noexcept` -/
def toUIntA (f : Supply) (k : Nat) (o : CShake R) : Except Fault (Reading (BitVec (8 * k))) := do
  match ← toVectorA f o with
  | .threw => return Reading.threw.noexcept
  | .terminated => return .terminated
  | .value v => return (Reading.value (← convertInt k v)).noexcept

variable [RateOK R]

/-- `if (!m_customized) m_shake->f(..) else m_keccak->f(..)` (cshake.h:236-254, 324-331); a call that throws leaves
the object the pointer owns as it left it -/
def onActiveA (o : CShake R) (g : Byte → KObj R → Except Fault (Outcome (KObj R))) : Except Fault (Outcome (CShake R)) :=
  if o.customized = false then
    match o.shake with
    | none => .error .nullDeref
    | some k => do
      match ← g 0x1F k with
      | .done k => return .done { o with shake := some k }
      | .threw k => return .threw { o with shake := some k }
  else
    match o.keccak with
    | none => .error .nullDeref
    | some k => do
      match ← g 0x04 k with
      | .done k => return .done { o with keccak := some k }
      | .threw k => return .threw { o with keccak := some k }

/-- one call on a cSHAKE object (cshake.h:236-253, 289-331) -/
def stepA (o : CShake R) (c : Op × Supply) : Except Fault (Outcome (CShake R)) := onActiveA o (callA c.2 c.1)

/-- a history of calls by a caller who catches `std::bad_alloc`; the calls are those of cshake.h:71-129, their order
is the user's -/
def runA (o : CShake R) : List (Op × Supply) → Except Fault (CShake R)
  | [] => .ok o
  | c :: cs => do
    let r ← stepA o c
    runA r.left cs

/-- `TupleHash::finalize` (tuple_hash.h:151-158): the length is added to the cSHAKE object before its `finalize()`
allocates. -/
def tupleFinalizeA (nb : Nat → Nat) (f : Supply) (o : TupleHash R) : Except Fault (Outcome (TupleHash R)) := do
  let v := o.digestLength * 8
  if ¬(-2 ^ 31 ≤ v ∧ v < 2 ^ 31) then throw .signedOverflow
  let encoded ← rightEncode nb (BitVec.ofInt 64 v).toNat
  let c ← addData o.cshake encoded.contents
  match ← stepA c (.finalize, f) with
  | .done c => return .done { o with cshake := c }
  | .threw c => return .threw { o with cshake := c }

/-- one call on a TupleHash object; `.add` is `nextData` (tuple_hash.h:70-119) -/
def tupleStepA (nb : Nat → Nat) (o : TupleHash R) : Op × Supply → Except Fault (Outcome (TupleHash R))
  | (.finalize, f) => tupleFinalizeA nb f o
  | (op, _) => do return .done (← tupleStep nb o op)

/-- a history of calls by a caller who catches `std::bad_alloc`; the calls are those of tuple_hash.h:70-119, their
order is the user's -/
def tupleRunA (nb : Nat → Nat) (o : TupleHash R) : List (Op × Supply) → Except Fault (TupleHash R)
  | [] => .ok o
  | c :: cs => do
    let r ← tupleStepA nb o c
    tupleRunA nb r.left cs

end Model.CShake
end Verif
