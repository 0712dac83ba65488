import Verif.Model.SHA3
import Verif.Core.Render

/-!
# cshake.h and tuple_hash.h

`std::log2` and `std::lround` on `double` are not modelled here: the byte count
`lround(log2(value) / 8 + 0.5)` is a parameter `nb` of the model, and the theorems say what they need
of it (`ExactLog`, Spec/SP800185.lean). Props/FloatLog.lean derives that from the rounding of doubles.
-/

namespace Verif.Model.CShake
open SHA3

/-- the loop `for (i = n - 1; i >= 0; --i) ret.fill(ror<uint8_t>(value, 8 * i))` (cshake.h:138-139,
tuple_hash.h:128-129). For `n > 8` the C++ also shifts by 64 or more; the model then runs into the end
of the buffer like the C++ would for `n = 8`. -/
def fillBytes (value : Nat) : Nat → Buffer 8 → Except Fault (Buffer 8)
  | 0, b => .ok b
  | i + 1, b => do
    let b ← b.fill (ror 8 (BitVec.ofNat 64 value) (8 * i))
    fillBytes value i b

/-- `n` (cshake.h:135, tuple_hash.h:125), a `uint8_t` -/
def byteCount (nb : Nat → Nat) (value : Nat) : Nat := if value = 0 then 1 else nb value % 256

/-- `leftEncode` (cshake.h:133-142) -/
def leftEncode (nb : Nat → Nat) (value : Nat) : Except Fault (Buffer 8) := do
  let n := byteCount nb value
  let ret ← ({} : Buffer 8).fill (BitVec.ofNat 8 n)
  fillBytes value n ret

/-- `rightEncode` (tuple_hash.h:123-133) -/
def rightEncode (nb : Nat → Nat) (value : Nat) : Except Fault (Buffer 8) := do
  let n := byteCount nb value
  let ret ← fillBytes value n {}
  ret.fill (BitVec.ofNat 8 n)

deriving instance DecidableEq for Obj

/-- A heap object owned by `m_shake` or `m_keccak`: the digest length and the rest of a
`Keccak<R, P>` (sha3.h:251-269). -/
structure KObj (R : Nat) where
  digestLength : Nat
  obj : Obj R KState
  deriving DecidableEq

/-- `class CShake<S, K, R>` (cshake.h:71-129). A `unique_ptr` is the only owner of what it points to,
so the pointers are modelled by their targets; `none` is the null pointer. -/
structure CShake (R : Nat) where
  customized : Bool
  shake : Option (KObj R)
  keccak : Option (KObj R)
  deriving DecidableEq

section
variable {R : Nat} [RateOK R]

/-- `if (!m_customized) m_shake->f(..) else m_keccak->f(..)` (cshake.h:236-254, 324-331); the padding
byte says which of the two classes is called. -/
def onActive (o : CShake R) (f : Byte → KObj R → Except Fault (KObj R)) : Except Fault (CShake R) :=
  if o.customized = false then
    match o.shake with
    | none => .error .nullDeref
    | some k => do return { o with shake := some (← f 0x1F k) }
  else
    match o.keccak with
    | none => .error .nullDeref
    | some k => do return { o with keccak := some (← f 0x04 k) }

/-- a call on the object a pointer owns (cshake.h:236-254) -/
def callK (op : Op) (P : Byte) (k : KObj R) : Except Fault (KObj R) := do
  return { k with obj := ← (Keccak R P k.digestLength).step k.obj op }

/-- `addData` (cshake.h:289-294, 324-331) -/
def addData (o : CShake R) (data : List Byte) : Except Fault (CShake R) := onActive o (callK (.add data))

/-- `reset` (cshake.h:236-243) -/
def reset (o : CShake R) : Except Fault (CShake R) := onActive o (callK .reset)

/-- `finalize` (cshake.h:245-253) -/
def finalize (o : CShake R) : Except Fault (CShake R) := onActive o (callK .finalize)

/-- `toVector` (cshake.h:264-271) -/
def toVector (o : CShake R) : Except Fault (List Byte) :=
  if o.customized = false then
    match o.shake with
    | none => .error .nullDeref
    | some k => SHA3.toVector k.obj
  else
    match o.keccak with
    | none => .error .nullDeref
    | some k => SHA3.toVector k.obj

/-- `toString` (cshake.h:255-262): the `toString` of the object in use (sha3.h:363-380) -/
def toString (o : CShake R) : Except Fault (List Char) :=
  if o.customized = false then
    match o.shake with
    | none => .error .nullDeref
    | some k => do renderHex (← SHA3.toVector k.obj)
  else
    match o.keccak with
    | none => .error .nullDeref
    | some k => do renderHex (← SHA3.toVector k.obj)

/-- `operator T` for an unsigned `T` of `k` bytes (cshake.h:273-287) -/
def toUInt (k : Nat) (o : CShake R) : Except Fault (BitVec (8 * k)) := do convertInt k (← toVector o)

/-- `operator==` (cshake.h:111-116) -/
def eq (l r : CShake R) : Except Fault Bool :=
  if l.customized ≠ r.customized then .ok false
  else if l.customized then
    match l.keccak, r.keccak with
    | some a, some b => .ok (SHA3.eq a.obj b.obj)
    | _, _ => .error .nullDeref
  else
    match l.shake, r.shake with
    | some a, some b => .ok (SHA3.eq a.obj b.obj)
    | _, _ => .error .nullDeref

/-- one call; not in /repo: the user chooses the calls (cshake.h:71-129) -/
def step (o : CShake R) : Op → Except Fault (CShake R)
  | .add d => addData o d
  | .reset => reset o
  | .finalize => finalize o

/-- a history of calls; not in /repo: the user chooses the calls (cshake.h:71-129) -/
def run (o : CShake R) : List Op → Except Fault (CShake R)
  | [] => .ok o
  | op :: ops => do run (← step o op) ops

/-- `processString` (cshake.h:161-168); `str.size() * 8` and `length` are `size_t` -/
def processString (nb : Nat → Nat) (o : CShake R) (str : List Byte) (length : Nat) :
    Except Fault (CShake R × Nat) := do
  let encodedStr ← leftEncode nb (str.length * 8 % 2 ^ 64)
  let o ← addData o encodedStr.contents
  let length := (length + encodedStr.size) % 2 ^ 64
  let o ← addData o str
  return (o, (length + str.length) % 2 ^ 64)

/-- the loop adding one zero byte at a time (cshake.h:183-185) -/
def addZeros : Nat → CShake R → Except Fault (CShake R)
  | 0, o => .ok o
  | n + 1, o => do addZeros n (← addData o [0])

/-- a new `Keccak<R, P>(digestLength)` (sha3.h:309-320) -/
def newK (R : Nat) [RateOK R] (P : Byte) (digestLength : Int) : Except Fault (KObj R) := do
  let A ← SHA3.construct R P digestLength
  return ⟨digestLength.toNat, A.fresh⟩

/-- the constructor (cshake.h:146-186) -/
def construct (nb : Nat → Nat) (R : Nat) [RateOK R] (digestLength : Int) (name customize : List Byte) :
    Except Fault (CShake R) := do
  let customized := !(name.isEmpty && customize.isEmpty)
  if customized = false then
    return ⟨customized, some (← newK R 0x1F digestLength), none⟩
  let o : CShake R := ⟨customized, none, some (← newK R 0x04 digestLength)⟩
  let encodedW ← leftEncode nb R
  let o ← addData o encodedW.contents
  let length := encodedW.size
  let (o, length) ← processString nb o name length
  let (o, length) ← processString nb o customize length
  addZeros ((R - length % R) % R) o

/-! copies and moves -/

/-- copy constructor (cshake.h:188-196) -/
def copy (other : CShake R) : Except Fault (CShake R) :=
  if other.customized = false then
    match other.shake with
    | none => .error .nullDeref
    | some k => .ok ⟨other.customized, some k, none⟩
  else
    match other.keccak with
    | none => .error .nullDeref
    | some k => .ok ⟨other.customized, none, some k⟩

/-- copy assignment to another object (cshake.h:208-220), which is `*this` afterwards -/
def copyAssign (this other : CShake R) : Except Fault (CShake R) :=
  if other.customized = false then
    match this.shake, other.shake with
    | some _, some k => .ok { this with customized := other.customized, shake := some k }
    | _, _ => .error .nullDeref
  else
    match this.keccak, other.keccak with
    | some _, some k => .ok { this with customized := other.customized, keccak := some k }
    | _, _ => .error .nullDeref

/-- the swaps shared by move construction and move assignment (cshake.h:198-206, 222-234):
(`*this`, `other`) afterwards -/
def moveSwap (this other : CShake R) : CShake R × CShake R :=
  if other.customized = false then
    (⟨other.customized, other.shake, this.keccak⟩, ⟨this.customized, this.shake, other.keccak⟩)
  else
    (⟨other.customized, this.shake, other.keccak⟩, ⟨this.customized, other.shake, this.keccak⟩)

/-- move construction: from the default member initialisers (cshake.h:125-128, 198-206) -/
def moveConstruct (other : CShake R) : CShake R × CShake R := moveSwap ⟨false, none, none⟩ other

end

/-! ## tuple_hash.h -/

/-- `class TupleHash<CSHAKE>` (tuple_hash.h:70-119) -/
structure TupleHash (R : Nat) where
  cshake : CShake R
  digestLength : Int
  deriving DecidableEq

section
variable {R : Nat} [RateOK R]

/-- the `const char *` argument of tuple_hash.h:139 -/
def tupleHashName : List Byte := "TupleHash".toUTF8.toList.map fun b => BitVec.ofNat 8 b.toNat

/-- the constructor (tuple_hash.h:137-143) -/
def tupleConstruct (nb : Nat → Nat) (R : Nat) [RateOK R] (digestLength : Int) (customize : List Byte) :
    Except Fault (TupleHash R) := do
  return ⟨← construct nb R digestLength tupleHashName customize, digestLength⟩

/-- `nextData` (tuple_hash.h:188-196) -/
def nextData (nb : Nat → Nat) (o : TupleHash R) (data : List Byte) : Except Fault (TupleHash R) := do
  let encoded ← leftEncode nb (data.length * 8 % 2 ^ 64)
  let c ← addData o.cshake encoded.contents
  let c ← addData c data
  return { o with cshake := c }

/-- `reset` (tuple_hash.h:145-149) -/
def tupleReset (o : TupleHash R) : Except Fault (TupleHash R) := do
  return { o with cshake := ← reset o.cshake }

/-- `finalize` (tuple_hash.h:151-158): `m_digestLength * 8` is computed in `int` and converted to
`uint64_t`. -/
def tupleFinalize (nb : Nat → Nat) (o : TupleHash R) : Except Fault (TupleHash R) := do
  let v := o.digestLength * 8
  if ¬(-2 ^ 31 ≤ v ∧ v < 2 ^ 31) then throw .signedOverflow
  let encoded ← rightEncode nb (BitVec.ofInt 64 v).toNat
  let c ← addData o.cshake encoded.contents
  let c ← finalize c
  return { o with cshake := c }

/-- `toVector` (tuple_hash.h:166-170) -/
def tupleToVector (o : TupleHash R) : Except Fault (List Byte) := toVector o.cshake

/-- `toString` (tuple_hash.h:160-164) -/
def tupleToString (o : TupleHash R) : Except Fault (List Char) := toString o.cshake

/-- `operator T` for an unsigned `T` of `k` bytes (tuple_hash.h:172-186) -/
def tupleToUInt (k : Nat) (o : TupleHash R) : Except Fault (BitVec (8 * k)) := do convertInt k (← tupleToVector o)

/-- `operator==` (tuple_hash.h:105-108) -/
def tupleEq (l r : TupleHash R) : Except Fault Bool := eq l.cshake r.cshake

/-- one call; `.add` is `nextData`; not in /repo: the user chooses the calls (tuple_hash.h:70-119) -/
def tupleStep (nb : Nat → Nat) (o : TupleHash R) : Op → Except Fault (TupleHash R)
  | .add d => nextData nb o d
  | .reset => tupleReset o
  | .finalize => tupleFinalize nb o

/-- a history of calls; not in /repo: the user chooses the calls (tuple_hash.h:70-119) -/
def tupleRun (nb : Nat → Nat) (o : TupleHash R) : List Op → Except Fault (TupleHash R)
  | [] => .ok o
  | op :: ops => do tupleRun nb (← tupleStep nb o op) ops

end

end Verif.Model.CShake
