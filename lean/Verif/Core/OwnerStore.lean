import Verif.Core.API

/-!
# Several `CSHAKE` objects: programs and histories
-/

namespace Verif

/-- One statement of a program that uses `CSHAKE` objects in numbered slots (variables). Not in /repo. -/
inductive CStmt where
  /-- construct an object in slot `j` -/
  | create (j : Nat) (digestLength : Int) (name customize : List Byte)
  /-- call a member function of the object in slot `i` -/
  | call (i : Nat) (op : Op)
  /-- construct the object in slot `j` as a copy of the one in slot `i` -/
  | copyNew (i j : Nat)
  /-- `slot j = slot i` -/
  | copyAssign (i j : Nat)
  /-- construct the object in slot `j` from `std::move(slot i)` -/
  | moveNew (i j : Nat)
  /-- `slot j = std::move(slot i)` -/
  | moveAssign (i j : Nat)
  /-- end of the life of the object in slot `i` -/
  | destroy (i : Nat)

/-- What an object goes back to: the arguments of a constructor and the calls made since, on this object or on
the ones its contents were copied or moved from. Not in /repo. -/
structure Origin where
  digestLength : Int
  name : List Byte
  customize : List Byte
  calls : List Op

/-- What is in a slot. Not in /repo. -/
inductive Content where
  /-- no object -/
  | vacant
  /-- an object whose contents have been moved elsewhere -/
  | movedFrom
  | holds (t : Origin)

/-- the same, with one more call; not in /repo -/
def Content.after (op : Op) : Content → Content
  | .holds t => .holds { t with calls := t.calls ++ [op] }
  | c => c

/-- What is in each slot after a program, given what was there before. Not in /repo. -/
def contents (K : Nat → Content) : List CStmt → Nat → Content
  | [] => K
  | .create j d n c :: P => contents (fun k => if k = j then .holds ⟨d, n, c, []⟩ else K k) P
  | .call i op :: P => contents (fun k => if k = i then (K i).after op else K k) P
  | .copyNew i j :: P => contents (fun k => if k = j then K i else K k) P
  | .copyAssign i j :: P => contents (fun k => if k = j then K i else K k) P
  | .moveNew i j :: P => contents (fun k => if k = j then K i else if k = i then .movedFrom else K k) P
  | .moveAssign i j :: P => contents (fun k => if k = j then K i else if k = i then .movedFrom else K k) P
  | .destroy i :: P => contents (fun k => if k = i then .vacant else K k) P

/-- constructed with a function name or a customization string; not in /repo -/
def Origin.customized (t : Origin) : Prop := t.name ≠ [] ∨ t.customize ≠ []

/-- The programs that use only objects that exist and have not been moved from, call member functions in the
documented order, and assign (by copy) customised objects to customised ones and plain ones to plain ones only.
Digest lengths are not negative, strings shorter than 2^53 - 256 bytes. Not in /repo. -/
def legalOwnersFrom (K : Nat → Content) : List CStmt → Prop
  | [] => True
  | s :: P =>
    (match s with
      | .create j d n c => K j = .vacant ∧ 0 ≤ d ∧ n.length < 2 ^ 53 - 256 ∧ c.length < 2 ^ 53 - 256
      | .call i op => ∃ t, K i = .holds t ∧ Legal (t.calls ++ [op])
      | .copyNew i j => (∃ t, K i = .holds t) ∧ K j = .vacant
      | .copyAssign i j => ∃ t t', K i = .holds t ∧ K j = .holds t' ∧ (t.customized ↔ t'.customized)
      | .moveNew i j => (∃ t, K i = .holds t) ∧ K j = .vacant
      | .moveAssign i j => (∃ t, K i = .holds t) ∧ K j ≠ .vacant
      | .destroy i => K i ≠ .vacant) ∧
    legalOwnersFrom (contents K [s]) P

/-- `legalOwnersFrom` at the start, when there are no objects; not in /repo -/
def LegalOwners (P : List CStmt) : Prop := legalOwnersFrom (fun _ => .vacant) P

end Verif
