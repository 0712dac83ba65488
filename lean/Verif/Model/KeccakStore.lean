import Verif.Core.Store
import Verif.Model.SHA3

/-!
# Several `Keccak` objects, copied and moved

`Keccak` (sha3.h:186-272) declares no copy or move member, so both are memberwise. Its members are integers, a
`Buffer`, an array and one `std::vector`, `m_final`. Copying or moving takes `m_digestLength` (sha3.h:267) along,
so it can change the digest length of an existing object. Moving leaves every member of the source as it was but
the vector (sha3.h:270), which has unspecified contents afterwards.
-/

namespace Verif.Model.KeccakStore
open Verif.Model.SHA3

/-- One statement of a program that uses objects of one `Keccak<R, P>` in numbered slots (variables). Not in /repo:
the user's program; the members are those of sha3.h:199-273. -/
inductive KStmt where
  /-- construct an object in slot `j` -/
  | create (j digestLength : Nat)
  /-- call a member function of the object in slot `i` -/
  | call (i : Nat) (op : Op)
  /-- copy-construct or copy-assign the object in slot `j` from the one in slot `i` -/
  | copy (i j : Nat)
  /-- construct or assign the object in slot `j` from `std::move(slot i)`; `left` is what the standard library
  happens to leave in the vector of the source -/
  | move (i j : Nat) (left : List Byte)

/-- What is in a slot. Not in /repo: a description of the user's program. -/
inductive Slot where
  | vacant
  /-- an object whose contents have been moved elsewhere; its digest length -/
  | movedFrom (digestLength : Nat)
  /-- an object: its digest length, and the calls made on it and on the objects its contents come from -/
  | holds (digestLength : Nat) (calls : List Op)
  deriving DecidableEq

/-- `reset()` makes a moved-from object a new one. Not in /repo: a description of the user's program. -/
def Slot.after (op : Op) : Slot → Slot
  | .holds d calls => .holds d (calls ++ [op])
  | .movedFrom d => if op = .reset then .holds d [] else .movedFrom d
  | .vacant => .vacant

/-- a slot after a move from it; not in /repo: a description of the user's program -/
def Slot.moved : Slot → Slot
  | .holds d _ => .movedFrom d
  | s => s

/-- What is in each slot after one statement. Not in /repo: a description of the user's program. -/
def afterStmt (K : Nat → Slot) : KStmt → Nat → Slot
  | .create j d => fun k => if k = j then .holds d [] else K k
  | .call i op => fun k => if k = i then (K i).after op else K k
  | .copy i j => fun k => if k = j then K i else K k
  | .move i j _ => fun k => if k = i then (K i).moved else if k = j then K i else K k

/-- What is in each slot after a program, given what was there before. Not in /repo: a description of the user's program. -/
def slotsAfter (K : Nat → Slot) : List KStmt → Nat → Slot
  | [] => K
  | s :: P => slotsAfter (afterStmt K s) P

/-- Objects exist when they are used; member functions are called in the documented order; and with an object
that has been moved from, nothing is done before `reset()` but giving it a new value. Not in /repo: a description of
the user's program. -/
def legalMovesFrom (K : Nat → Slot) : List KStmt → Prop
  | [] => True
  | s :: P =>
    (match s with
      | .create _ _ => True
      | .call i op => (∃ d calls, K i = .holds d calls ∧ Legal (calls ++ [op])) ∨ ∃ d, K i = .movedFrom d ∧ op = .reset
      | .copy i _ | .move i _ _ => ∃ d calls, K i = .holds d calls) ∧
    legalMovesFrom (afterStmt K s) P

/-- `legalMovesFrom` at the start, when there are no objects; not in /repo -/
def LegalMoves (P : List KStmt) : Prop := legalMovesFrom (fun _ => .vacant) P

/-- What is in each slot at the end of a program. Not in /repo: a description of the user's program. -/
def slots (P : List KStmt) : Nat → Slot := slotsAfter (fun _ => .vacant) P

/-- A `Keccak` object with its digest length `m_digestLength` (sha3.h:267-272). -/
structure KObj (R : Nat) where
  digestLength : Nat
  obj : Obj R KState

/-- the member functions, which read the digest length of the object they are called on (sha3.h:322-361) -/
def stepK (R : Nat) [RateOK R] (P : Byte) (o : KObj R) (op : Op) : Except Fault (KObj R) := do
  let o' ← (Keccak R P o.digestLength).step o.obj op
  return ⟨o.digestLength, o'⟩

/-- the implicit move: the target takes every member, the vector of the source is left with `left` (the class
declares no copy or move: sha3.h:199-273) -/
def leave {R : Nat} (o : KObj R) (left : List Byte) : KObj R :=
  ⟨o.digestLength, ⟨o.obj.buffer, { o.obj.chain with final := left }⟩⟩

/-- Execute a program. A use of a slot without an object is a fault. Not in /repo: the user's program; copies and
moves are the implicit ones of sha3.h:199-273. -/
def exec (R : Nat) [RateOK R] (P : Byte) (s : Nat → Option (KObj R)) : List KStmt → Except Fault (Nat → Option (KObj R))
  | [] => .ok s
  | .create j d :: rest => exec R P (fun k => if k = j then some ⟨d, (Keccak R P d).fresh⟩ else s k) rest
  | .call i op :: rest =>
    match s i with
    | none => .error .nullDeref
    | some o =>
      match stepK R P o op with
      | .error e => .error e
      | .ok o' => exec R P (fun k => if k = i then some o' else s k) rest
  | .copy i j :: rest =>
    match s i with
    | none => .error .nullDeref
    | some o => exec R P (fun k => if k = j then some o else s k) rest
  | .move i j left :: rest =>
    match s i with
    | none => .error .nullDeref
    | some o => exec R P (fun k => if k = i then some (leave o left) else if k = j then some o else s k) rest

/-- After any legal program, every object that has not been moved from is in the state that its digest length and
its own history give to an object used alone. A property; not in /repo. -/
def MovesIndependent (R : Nat) [RateOK R] (P : Byte) : Prop :=
  ∀ prog, LegalMoves prog → ∃ s, exec R P (fun _ => none) prog = .ok s ∧
    ∀ i, match slots prog i with
      | .vacant => s i = none
      | .movedFrom d => ∃ o, s i = some o ∧ o.digestLength = d
      | .holds d calls => ∃ o, s i = some ⟨d, o⟩ ∧ (Keccak R P d).run (Keccak R P d).fresh calls = .ok o

end Verif.Model.KeccakStore
