import Verif.Model.Ops
import Verif.Model.CShake

/-!
# cSHAKE and TupleHash on objects with a log

As Model/CShake.lean; the objects owned by `m_shake` and `m_keccak` are those of Model/Ops.lean. The encodings of the
lengths (`leftEncode`, `rightEncode`) do not read any data, only their results do: they are not in the log.
-/

namespace Verif.Model.CShake
open SHA3

/-- a heap object owned by `m_shake` or `m_keccak`, with its log (sha3.h:251-269) -/
structure KObjO (R : Nat) where
  digestLength : Nat
  obj : Obj R (KState × List Instr)

/-- the object without the log; not in /repo -/
def KObjO.unlogged {R : Nat} (k : KObjO R) : KObj R := ⟨k.digestLength, k.obj.unlogged⟩

/-- `class CShake<S, K, R>` (cshake.h:71-129) -/
structure CShakeO (R : Nat) where
  customized : Bool
  shake : Option (KObjO R)
  keccak : Option (KObjO R)

/-- the object without the logs; not in /repo -/
def CShakeO.unlogged {R : Nat} (o : CShakeO R) : CShake R :=
  ⟨o.customized, o.shake.map KObjO.unlogged, o.keccak.map KObjO.unlogged⟩

/-- the log of an object, nothing for a null pointer; not in /repo -/
def logOf {R : Nat} : Option (KObjO R) → List Instr
  | none => []
  | some k => k.obj.chain.2

/-- the logs of the two objects that a cSHAKE object may own; not in /repo -/
def CShakeO.log {R : Nat} (o : CShakeO R) : List Instr × List Instr := (logOf o.shake, logOf o.keccak)

section
variable {R : Nat} [RateOK R]

/-- cshake.h:236-254, 324-331 -/
def onActiveO (o : CShakeO R) (f : Byte → KObjO R → Except Fault (KObjO R)) : Except Fault (CShakeO R) :=
  if o.customized = false then
    match o.shake with
    | none => .error .nullDeref
    | some k => do return { o with shake := some (← f 0x1F k) }
  else
    match o.keccak with
    | none => .error .nullDeref
    | some k => do return { o with keccak := some (← f 0x04 k) }

/-- a call on the object a pointer owns (cshake.h:236-254) -/
def callKO (op : Op) (P : Byte) (k : KObjO R) : Except Fault (KObjO R) := do
  return { k with obj := ← (KeccakO R P k.digestLength).step k.obj op }

/-- `addData`, `reset` and `finalize` (cshake.h:236-253, 289-294, 324-331) -/
def stepO (o : CShakeO R) (op : Op) : Except Fault (CShakeO R) := onActiveO o (callKO op)

/-- a history of calls; not in /repo: the user chooses the calls (cshake.h:71-129) -/
def runO (o : CShakeO R) : List Op → Except Fault (CShakeO R)
  | [] => .ok o
  | op :: ops => do runO (← stepO o op) ops

/-- `processString` (cshake.h:161-168) -/
def processStringO (nb : Nat → Nat) (o : CShakeO R) (str : List Byte) (length : Nat) : Except Fault (CShakeO R × Nat) := do
  let encodedStr ← leftEncode nb (str.length * 8 % 2 ^ 64)
  let o ← stepO o (.add encodedStr.contents)
  let length := (length + encodedStr.size) % 2 ^ 64
  let o ← stepO o (.add str)
  return (o, (length + str.length) % 2 ^ 64)

/-- cshake.h:183-185 -/
def addZerosO : Nat → CShakeO R → Except Fault (CShakeO R)
  | 0, o => .ok o
  | n + 1, o => do addZerosO n (← stepO o (.add [0]))

/-- a new `Keccak<R, P>(digestLength)` (sha3.h:309-320) -/
def newKO (R : Nat) [RateOK R] (P : Byte) (digestLength : Int) : Except Fault (KObjO R) :=
  if digestLength < 0 then .error .badLength else .ok ⟨digestLength.toNat, (KeccakO R P digestLength.toNat).fresh⟩

/-- the constructor (cshake.h:146-186) -/
def constructO (nb : Nat → Nat) (R : Nat) [RateOK R] (digestLength : Int) (name customize : List Byte) :
    Except Fault (CShakeO R) := do
  let customized := !(name.isEmpty && customize.isEmpty)
  if customized = false then
    return ⟨customized, some (← newKO R 0x1F digestLength), none⟩
  let o : CShakeO R := ⟨customized, none, some (← newKO R 0x04 digestLength)⟩
  let encodedW ← leftEncode nb R
  let o ← stepO o (.add encodedW.contents)
  let length := encodedW.size
  let (o, length) ← processStringO nb o name length
  let (o, length) ← processStringO nb o customize length
  addZerosO ((R - length % R) % R) o

/-- `class TupleHash<CSHAKE>` (tuple_hash.h:70-119) -/
structure TupleHashO (R : Nat) where
  cshake : CShakeO R
  digestLength : Int

/-- the object without the logs; not in /repo -/
def TupleHashO.unlogged {R : Nat} (o : TupleHashO R) : TupleHash R := ⟨o.cshake.unlogged, o.digestLength⟩

/-- the constructor (tuple_hash.h:137-143) -/
def tupleConstructO (nb : Nat → Nat) (R : Nat) [RateOK R] (digestLength : Int) (customize : List Byte) :
    Except Fault (TupleHashO R) := do
  return ⟨← constructO nb R digestLength tupleHashName customize, digestLength⟩

/-- `nextData`, `reset` and `finalize` (tuple_hash.h:145-158, 188-196) -/
def tupleStepO (nb : Nat → Nat) (o : TupleHashO R) : Op → Except Fault (TupleHashO R)
  | .add data => do
    let encoded ← leftEncode nb (data.length * 8 % 2 ^ 64)
    let c ← stepO o.cshake (.add encoded.contents)
    let c ← stepO c (.add data)
    return { o with cshake := c }
  | .reset => do return { o with cshake := ← stepO o.cshake .reset }
  | .finalize => do
    let v := o.digestLength * 8
    if ¬(-2 ^ 31 ≤ v ∧ v < 2 ^ 31) then throw .signedOverflow
    let encoded ← rightEncode nb (BitVec.ofInt 64 v).toNat
    let c ← stepO o.cshake (.add encoded.contents)
    let c ← stepO c .finalize
    return { o with cshake := c }

/-- a history of calls; not in /repo: the user chooses the calls (tuple_hash.h:70-119) -/
def tupleRunO (nb : Nat → Nat) (o : TupleHashO R) : List Op → Except Fault (TupleHashO R)
  | [] => .ok o
  | op :: ops => do tupleRunO nb (← tupleStepO nb o op) ops

end

end Verif.Model.CShake
