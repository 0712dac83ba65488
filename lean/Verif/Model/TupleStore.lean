import Verif.Core.Store
import Verif.Model.CShake

/-!
# Several `TupleHash` objects, copied and moved

`TupleHash` (tuple_hash.h:69-119) declares no copy or move member, so both go memberwise: `m_cshake` with the copy
and move members of `CShake` (cshake.h:188-234), `m_digestLength` as an `int`. Ownership of the heap objects behind
`m_cshake` is the subject of Model/CShakeHeap.lean; here objects are values.
-/

namespace Verif.Model.TupleStore
open Verif.Model.CShake
open Verif.Model.SHA3 (RateOK)

/-- One statement of a program that uses `TupleHash` objects in numbered slots (variables). Not in /repo: the user's
program; the members are those of tuple_hash.h:70-119. -/
inductive TStmt where
  /-- construct an object in slot `j` -/
  | create (j : Nat) (digestLength : Int) (customize : List Byte)
  /-- call a member function of the object in slot `i`; `.add` is `nextData` -/
  | call (i : Nat) (op : Op)
  /-- construct the object in slot `j` as a copy of the one in slot `i` -/
  | copyNew (i j : Nat)
  /-- `slot j = slot i` -/
  | copyAssign (i j : Nat)
  /-- construct the object in slot `j` from `std::move(slot i)` -/
  | moveNew (i j : Nat)
  /-- `slot j = std::move(slot i)` -/
  | moveAssign (i j : Nat)
  /-- end of the life of the object in slot `i` -/
  | destroy (i : Nat)

/-- What is in a slot. Not in /repo: a description of the user's program. -/
inductive TContent where
  | vacant
  /-- an object whose contents have been moved elsewhere -/
  | movedFrom
  /-- an object: the arguments of a constructor and the calls made since, on this object or on the ones its contents
  come from -/
  | holds (digestLength : Int) (customize : List Byte) (calls : List Op)

/-- a slot after a call; not in /repo: a description of the user's program -/
def TContent.after (op : Op) : TContent → TContent
  | .holds d c calls => .holds d c (calls ++ [op])
  | x => x

/-- What is in each slot after one statement. Not in /repo: a description of the user's program. -/
def afterStmt (K : Nat → TContent) : TStmt → Nat → TContent
  | .create j d c => fun k => if k = j then .holds d c [] else K k
  | .call i op => fun k => if k = i then (K i).after op else K k
  | .copyNew i j | .copyAssign i j => fun k => if k = j then K i else K k
  | .moveNew i j | .moveAssign i j => fun k => if k = j then K i else if k = i then .movedFrom else K k
  | .destroy i => fun k => if k = i then .vacant else K k

/-- what is in each slot after a program, given what was there before; not in /repo: a description of the user's program -/
def tcontentsFrom (K : Nat → TContent) : List TStmt → Nat → TContent
  | [] => K
  | s :: P => tcontentsFrom (afterStmt K s) P

/-- What is in each slot after a program. Not in /repo: a description of the user's program. -/
def tcontents (P : List TStmt) : Nat → TContent := tcontentsFrom (fun _ => .vacant) P

/-- The programs that use only objects that exist and have not been moved from, call member functions in the
documented order and do not assign a copy to an object that has been moved from. Outputs are shorter than 2^28 bytes,
customization strings and tuple elements shorter than 2^53 - 256 bytes. Not in /repo: a description of the user's program. -/
def legalTuplesFrom (K : Nat → TContent) : List TStmt → Prop
  | [] => True
  | s :: P =>
    (match s with
      | .create j d c => K j = .vacant ∧ 0 ≤ d ∧ d < 2 ^ 28 ∧ c.length < 2 ^ 53 - 256
      | .call i op => (∃ d c calls, K i = .holds d c calls ∧ Legal (calls ++ [op])) ∧
          ∀ x, op = .add x → x.length < 2 ^ 53 - 256
      | .copyNew i j => (∃ d c calls, K i = .holds d c calls) ∧ K j = .vacant
      | .copyAssign i j => (∃ d c calls, K i = .holds d c calls) ∧ ∃ d c calls, K j = .holds d c calls
      | .moveNew i j => (∃ d c calls, K i = .holds d c calls) ∧ K j = .vacant
      | .moveAssign i j => (∃ d c calls, K i = .holds d c calls) ∧ K j ≠ .vacant
      | .destroy i => K i ≠ .vacant) ∧
    legalTuplesFrom (afterStmt K s) P

/-- `legalTuplesFrom` at the start, when there are no objects; not in /repo -/
def LegalTuples (P : List TStmt) : Prop := legalTuplesFrom (fun _ => .vacant) P

section
variable {R : Nat} [RateOK R]

/-- implicit copy constructor: cshake.h:188-196 for `m_cshake` -/
def tupleCopy (other : TupleHash R) : Except Fault (TupleHash R) := do
  return ⟨← copy other.cshake, other.digestLength⟩

/-- implicit copy assignment to another object: cshake.h:208-220 for `m_cshake` -/
def tupleCopyAssign (this other : TupleHash R) : Except Fault (TupleHash R) := do
  return ⟨← copyAssign this.cshake other.cshake, other.digestLength⟩

/-- implicit move construction: cshake.h:198-206 for `m_cshake`; (the new object, the source afterwards) -/
def tupleMoveConstruct (other : TupleHash R) : TupleHash R × TupleHash R :=
  let (n, o) := moveConstruct other.cshake
  (⟨n, other.digestLength⟩, ⟨o, other.digestLength⟩)

/-- implicit move assignment to another object: cshake.h:222-234 for `m_cshake`; (target, source) afterwards -/
def tupleMoveAssign (this other : TupleHash R) : TupleHash R × TupleHash R :=
  let (t, o) := moveSwap this.cshake other.cshake
  (⟨t, other.digestLength⟩, ⟨o, other.digestLength⟩)

/-- Execute one statement. A use of a slot without an object is a fault. Assigning an object to itself does nothing
(cshake.h:211, 225). -/
def execStmt (nb : Nat → Nat) (R : Nat) [RateOK R] (s : Nat → Option (TupleHash R)) :
    TStmt → Except Fault (Nat → Option (TupleHash R))
  | .create j d c => do
    let o ← tupleConstruct nb R d c
    return fun k => if k = j then some o else s k
  | .call i op =>
    match s i with
    | none => .error .nullDeref
    | some o => do
      let o' ← tupleStep nb o op
      return fun k => if k = i then some o' else s k
  | .copyNew i j =>
    match s i with
    | none => .error .nullDeref
    | some o => do
      let o' ← tupleCopy o
      return fun k => if k = j then some o' else s k
  | .copyAssign i j =>
    match s i, s j with
    | some o, some t => if i = j then .ok s else do
      let t' ← tupleCopyAssign t o
      return fun k => if k = j then some t' else s k
    | _, _ => .error .nullDeref
  | .moveNew i j =>
    match s i with
    | none => .error .nullDeref
    | some o =>
      let (n, o') := tupleMoveConstruct o
      .ok fun k => if k = j then some n else if k = i then some o' else s k
  | .moveAssign i j =>
    match s i, s j with
    | some o, some t => if i = j then .ok s else
      let (t', o') := tupleMoveAssign t o
      .ok fun k => if k = j then some t' else if k = i then some o' else s k
    | _, _ => .error .nullDeref
  | .destroy i =>
    match s i with
    | none => .error .nullDeref
    | some _ => .ok fun k => if k = i then none else s k

/-- Execute a program. Not in /repo: the user's program. -/
def execT (nb : Nat → Nat) (R : Nat) [RateOK R] (s : Nat → Option (TupleHash R)) :
    List TStmt → Except Fault (Nat → Option (TupleHash R))
  | [] => .ok s
  | st :: P => do execT nb R (← execStmt nb R s st) P

end
end Verif.Model.TupleStore
