import Verif.Core.Threads

/-!
# Which addresses are accessed

Somebody who watches the memory bus or the cache while a thread hashes sees the addresses, not the bytes. Here is
what they see of the caller's memory, and what it means that it gives nothing away.
-/

namespace Verif

/-- one access to memory, without the byte; not in /repo -/
inductive Access where
  | read (a : Nat)
  | write (a : Nat)
  deriving DecidableEq

namespace Act
variable {α : Type}

/-- The accesses of a thread that runs alone, in their order. It ends where an address must not be read. Not in /repo. -/
def trace : Act α → Mem → List Access
  | ret _, _ => []
  | fault _, _ => []
  | read a k, m => .read a :: match m a with
    | some x => (k x).trace m
    | none => []
  | write a x k, m => .write a :: k.trace fun b => if b = a then x else m b

/-- It comes to its end without a fault. Not in /repo. -/
def Succeeds (p : Act α) (m : Mem) : Prop := ∃ r, p.alone m = .ok r

end Act

/-- the same addresses may be read, whatever is there; not in /repo -/
def SameLayout (m m' : Mem) : Prop := ∀ a, m a = none ↔ m' a = none

/-- Two threads look the same from outside: in memories with the same layout they make the same accesses in the same
order, and if one comes to its end without a fault so does the other. Not in /repo. -/
def LookAlike {α β : Type} (p : Act α) (q : Act β) : Prop :=
  ∀ m m', SameLayout m m' → p.trace m = q.trace m' ∧ (p.Succeeds m ↔ q.Succeeds m')

/-- The commands are the same except for the bytes that are stored. Not in /repo. -/
def Cmd.SameBut : List Cmd → List Cmd → Prop
  | [], [] => True
  | .store a _ :: cs, .store a' _ :: cs' => a = a' ∧ SameBut cs cs'
  | .add ptr length :: cs, .add ptr' length' :: cs' => ptr = ptr' ∧ length = length' ∧ SameBut cs cs'
  | .reset :: cs, .reset :: cs' => SameBut cs cs'
  | .finalize :: cs, .finalize :: cs' => SameBut cs cs'
  | _, _ => False

/-- The body of the loop over blocks reads its block in an order that depends neither on the chaining value nor on
the bytes of the block. It holds for a body that is written without branches on data. Not in /repo. -/
def Straight {S : Type} (bodyAct : S → Nat → Act S) : Prop := ∀ s s' a, LookAlike (bodyAct s a) (bodyAct s' a)

/-- Two objects, with keys of their own if the class has keys, get the same calls with bytes of their own at the
same addresses: nobody can tell them apart by the addresses. Not in /repo. -/
def API.SameAccesses {O : Type} (A A' : API O) (addAct : O → GSpan → Act O) : Prop :=
  ∀ cmds cmds', Cmd.SameBut cmds cmds' → LookAlike (A.thread addAct cmds) (A'.thread addAct cmds')

end Verif
