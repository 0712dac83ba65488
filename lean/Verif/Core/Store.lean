import Verif.Core.API

/-!
# Several objects of one class

Objects live in numbered slots. The classes other than `CSHAKE_*` and `TupleHash_*` declare no copy or move
member (e.g. sha2_256.h:194-250), so copying is memberwise; their data members are integers, `std::array`s and
`Buffer`s, and `Buffer` (sha2_256.h:95-163) holds an array and an index, no pointer. They have no mutable static
data. So a copy puts the value of the source into the target slot. (`Blake2` and `Blake2s` have a `const`
member: for them the target of a copy is always a new object.)
-/

namespace Verif

/-- One statement of a program that uses objects of one class. Not in /repo. -/
inductive Stmt where
  /-- construct an object in slot `j` -/
  | new (j : Nat)
  /-- call a member function of the object in slot `i` -/
  | call (i : Nat) (op : Op)
  /-- copy-construct or copy-assign the object in slot `j` from the one in slot `i` -/
  | copy (i j : Nat)
  deriving DecidableEq

/-- The history of a slot's object: the calls made on it, and before the copy on the object it was copied
from. Not in /repo. -/
def histories (H : Nat → Option (List Op)) : List Stmt → Nat → Option (List Op)
  | [] => H
  | .new j :: P => histories (fun k => if k = j then some [] else H k) P
  | .call i op :: P => histories (fun k => if k = i then (H i).map (· ++ [op]) else H k) P
  | .copy i j :: P => histories (fun k => if k = j then H i else H k) P

/-- Every object that a statement uses exists, and every call continues the history of its object to a legal
one. Not in /repo. -/
def legalProgramFrom (H : Nat → Option (List Op)) : List Stmt → Prop
  | [] => True
  | .new j :: P => legalProgramFrom (fun k => if k = j then some [] else H k) P
  | .call i op :: P => (∃ ops, H i = some ops ∧ Legal (ops ++ [op])) ∧
      legalProgramFrom (fun k => if k = i then (H i).map (· ++ [op]) else H k) P
  | .copy i j :: P => (H i).isSome ∧ legalProgramFrom (fun k => if k = j then H i else H k) P

/-- `legalProgramFrom` at the start, when there are no objects; not in /repo -/
def LegalProgram (P : List Stmt) : Prop := legalProgramFrom (fun _ => none) P

/-- the calls made on each slot by a program that starts without objects; not in /repo -/
def history (P : List Stmt) : Nat → Option (List Op) := histories (fun _ => none) P

namespace API
variable {O : Type} (A : API O)

/-- Execute a program. A use of a slot without an object is a fault. Not in /repo. -/
def exec (s : Nat → Option O) : List Stmt → Except Fault (Nat → Option O)
  | [] => .ok s
  | .new j :: P => exec (fun k => if k = j then some A.fresh else s k) P
  | .call i op :: P =>
    match s i with
    | none => .error .nullDeref
    | some o =>
      match A.step o op with
      | .error e => .error e
      | .ok o' => exec (fun k => if k = i then some o' else s k) P
  | .copy i j :: P =>
    match s i with
    | none => .error .nullDeref
    | some o => exec (fun k => if k = j then some o else s k) P

/-- After any legal program with any number of objects, copied at any moments, every object is in the state
that its own history gives to an object used alone. Not in /repo. -/
def CopiesIndependent : Prop :=
  ∀ P, LegalProgram P → ∃ s, A.exec (fun _ => none) P = .ok s ∧
    ∀ i, match history P i with
      | none => s i = none
      | some ops => ∃ o, s i = some o ∧ A.run A.fresh ops = .ok o

end API
end Verif
