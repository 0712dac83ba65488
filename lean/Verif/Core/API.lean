import Verif.Core.Basic

/-!
# The public interface of a hash class and histories of calls on one object
-/

namespace Verif

/-- The operations of a hash class that properties talk about.  `O` is the object type. Not in /repo. -/
structure API (O : Type) where
  fresh : O
  reset : O → O
  addData : O → List Byte → Except Fault O
  finalize : O → Except Fault O
  toArray : O → Except Fault (List Byte)

/-- One mutating call. Not in /repo. -/
inductive Op where
  | add (data : List Byte)
  | reset
  | finalize
  deriving DecidableEq

/-- The documented protocol ("after this, only `operator T()`, `reset()`, `toArray()`,
`toString()`, `toVector()` are available", sha2_256.h:221): after `finalize` the next mutating
call must be `reset`. The Boolean says whether the object is finalised. A span passed to
`addData` has a length that fits in `size_t` (64 bits). -/
def legalFrom : Bool → List Op → Prop
  | _, [] => True
  | fin, .add d :: ops => fin = false ∧ d.length < 2 ^ 64 ∧ legalFrom false ops
  | fin, .finalize :: ops => fin = false ∧ legalFrom true ops
  | _, .reset :: ops => legalFrom false ops

instance decLegalFrom : (fin : Bool) → (ops : List Op) → Decidable (legalFrom fin ops)
  | _, [] => isTrue trivial
  | fin, .add d :: ops =>
    have := decLegalFrom false ops
    inferInstanceAs (Decidable (fin = false ∧ d.length < 2 ^ 64 ∧ legalFrom false ops))
  | fin, .finalize :: ops =>
    have := decLegalFrom true ops
    inferInstanceAs (Decidable (fin = false ∧ legalFrom true ops))
  | _, .reset :: ops =>
    have := decLegalFrom false ops
    inferInstanceAs (Decidable (legalFrom false ops))

/-- A history that is legal on a fresh object. Not in /repo. -/
def Legal (ops : List Op) : Prop := legalFrom false ops

instance (ops : List Op) : Decidable (Legal ops) := inferInstanceAs (Decidable (legalFrom false ops))

/-- The message: all bytes passed to `addData` since the last `reset`, starting with `acc`. Not in /repo. -/
def messageFrom : List Byte → List Op → List Byte
  | acc, [] => acc
  | acc, .add d :: ops => messageFrom (acc ++ d) ops
  | _, .reset :: ops => messageFrom [] ops
  | acc, .finalize :: ops => messageFrom acc ops

/-- All bytes passed to `addData` since construction or the last `reset`. Not in /repo. -/
def message (ops : List Op) : List Byte := messageFrom [] ops

namespace API

variable {O : Type} (A : API O)

/-- Execute one call. Not in /repo. -/
def step (o : O) : Op → Except Fault O
  | .add d => A.addData o d
  | .reset => .ok (A.reset o)
  | .finalize => A.finalize o

/-- Execute a history on a given object. Not in /repo. -/
def run (o : O) : List Op → Except Fault O
  | [] => .ok o
  | op :: ops => do
    let o' ← A.step o op
    run o' ops

/-- `Hash().addData(p1).addData(p2)....finalize().toArray()`; not in /repo -/
def digest (pieces : List (List Byte)) : Except Fault (List Byte) := do
  A.toArray (← A.run A.fresh (pieces.map .add ++ [.finalize]))

/-- No legal history on a fresh object ends in a fault. Not in /repo. -/
def Safe : Prop := ∀ ops, Legal ops → ∃ o, A.run A.fresh ops = .ok o

/-- After any legal history whose last call is `finalize`, reading the digest succeeds and gives
`spec` of the bytes added since the last reset — provided that message satisfies `dom`. Not in /repo. -/
def ComputesOn (dom : List Byte → Prop) (spec : List Byte → List Byte) : Prop :=
  ∀ ops, Legal (ops ++ [.finalize]) → dom (message ops) →
    ∃ o, A.run A.fresh (ops ++ [.finalize]) = .ok o ∧ A.toArray o = .ok (spec (message ops))

/-- `ComputesOn` for every message. Not in /repo. -/
def Computes (spec : List Byte → List Byte) : Prop := A.ComputesOn (fun _ => True) spec

/-- However a message is cut into pieces (of lengths that fit in `size_t`), reading the digest
succeeds and the result is the same. Not in /repo. -/
def ChunkingIrrelevant : Prop :=
  ∀ ps qs : List (List Byte), (∀ p ∈ ps, p.length < 2 ^ 64) → (∀ q ∈ qs, q.length < 2 ^ 64) →
    ps.flatten = qs.flatten → ∃ d, A.digest ps = .ok d ∧ A.digest qs = .ok d

/-- `reset()` after any legal history leaves the object indistinguishable from a fresh one: every
continuation gives the same result, object or fault. Not in /repo. -/
def ResetIsFresh : Prop :=
  ∀ before after : List Op, Legal before →
    A.run A.fresh (before ++ .reset :: after) = A.run A.fresh after

/-- Every digest can be read and has `n` bytes. Not in /repo. -/
def DigestSize (n : Nat) : Prop :=
  ∀ ops, Legal (ops ++ [.finalize]) →
    ∃ o d, A.run A.fresh (ops ++ [.finalize]) = .ok o ∧ A.toArray o = .ok d ∧ d.length = n

end API

end Verif
