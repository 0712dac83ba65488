import Verif.Core.Ops

/-!
# What happens around the block functions

Code that writes down, besides computing, what it does with the caller's data and with the buffer: which byte is read,
which element of the buffer is read or written, how each condition comes out, and which bytes the block function gets. The
bytes themselves are not written down.
-/

namespace Verif

/-- one event; not in /repo -/
inductive Ev where
  /-- a condition of an `if` or a `?:`, and its outcome -/
  | test (outcome : Bool)
  /-- this byte of the data given to `addData` is read for the buffer -/
  | input (i : Nat)
  /-- an element of the buffer is assigned -/
  | put (i : Nat)
  /-- an element of the buffer is read -/
  | get (i : Nat)
  /-- all elements of the buffer are assigned zero -/
  | clear
  /-- so many bytes of the caller's data, from this byte on, are given to `addDataImpl` -/
  | hashInput (i n : Nat)
  /-- the first bytes of the buffer are given to `addDataImpl` -/
  | hashBuffer (n : Nat)
  /-- other bytes of the object are given to `addDataImpl` -/
  | hashMember (n : Nat)
  /-- an element of an array other than the buffer is read -/
  | read (i : Nat)
  /-- an element of the result is assigned -/
  | store (i : Nat)
  deriving DecidableEq, Repr

/-- Not in /repo: code that may fail and that writes events down. -/
abbrev Traced (α : Type) := StateT (List Ev) (Except Fault) α

/-- Not in /repo: one event. -/
def ev (e : Ev) : Traced Unit := fun l => .ok ((), l ++ [e])

/-- `A`, and the same class with the events written down; not in /repo. `reset()` of every class clears the buffer. -/
def API.traced {O : Type} (A : API O) (add : O → List Byte → Traced O) (fin : O → Traced O) : API (O × List Ev) where
  fresh := (A.fresh, [])
  reset := fun p => (A.reset p.1, p.2 ++ [.clear])
  addData := fun p d => add p.1 d p.2
  finalize := fun p => fin p.1 p.2
  toArray := fun p => A.toArray p.1

/-- `T` and `T'` do what `A` and `A'` do, and two programs that make the same calls with data of the same lengths, in any
order, legal or not, one on an object of `T`, one on an object of `T'`, have the same events in the same order, up to the
same failure if there is one. Not in /repo. -/
structure API.Blind {O : Type} (A A' : API O) (T T' : API (O × List Ev)) : Prop where
  left : A.SameBut T Prod.fst
  right : A'.SameBut T' Prod.fst
  same : ∀ ops ops', ops.map Op.shape = ops'.map Op.shape →
    Both (fun p p' => p.2 = p'.2) (T.run T.fresh ops) (T'.run T'.fresh ops')

end Verif
