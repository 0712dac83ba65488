import Verif.Core.API

/-!
# Many collisions out of a few

Vocabulary for C72 (A. Joux, Multicollisions in iterated hash functions, 2004).
-/

namespace Verif
namespace API
variable {O : Type} (A : API O)

/-- However two objects are given the messages `m` and `m'`, they are the `same` after `finalize()`. Not in /repo. -/
def Meet (same : O → O → Prop) (m m' : List Byte) : Prop :=
  ∀ ops ops', Legal (ops ++ [.finalize]) → Legal (ops' ++ [.finalize]) → message ops = m → message ops' = m' →
    ∃ o o', A.run A.fresh (ops ++ [.finalize]) = .ok o ∧ A.run A.fresh (ops' ++ [.finalize]) = .ok o' ∧ same o o'

/-- The same digest, whichever way the messages are given. Not in /repo. -/
def SameDigest : List Byte → List Byte → Prop := A.Meet fun o o' => A.toArray o = A.toArray o'

/-- A collision after `m`, a collision after the first message of that with its padding, and so on: as many collisions
as there are pairs, each of two strings of one length, found one after the other. Not in /repo. -/
def Collisions (same : O → O → Prop) (pad : List Byte → List Byte) : List Byte → List (List Byte × List Byte) → Prop
  | _, [] => True
  | m, (a, b) :: ps => a ≠ b ∧ a.length = b.length ∧ A.Meet same (m ++ a) (m ++ b) ∧ Collisions same pad (pad (m ++ a)) ps

end API

/-- The messages that have, at each place, one or the other of the pair, with the padding in between. Not in /repo. -/
def combinations (pad : List Byte → List Byte) : List Byte → List (List Byte × List Byte) → List (List Byte)
  | m, [] => [m]
  | m, (a, b) :: ps => combinations pad (pad (m ++ a)) ps ++ combinations pad (pad (m ++ b)) ps

namespace API
variable {O : Type} (A : API O)

/-- C72: `k` collisions make `2 ^ k` different messages of one length that all collide, whatever is appended to them.
`S` restricts the messages. Not in /repo. -/
def Multicollides (same : O → O → Prop) (pad : List Byte → List Byte) (S : List Byte → Prop) : Prop :=
  ∀ ps, A.Collisions same pad [] ps →
    (combinations pad [] ps).length = 2 ^ ps.length ∧ (combinations pad [] ps).Nodup ∧
    ∀ m ∈ combinations pad [] ps, ∀ m' ∈ combinations pad [] ps, m.length = m'.length ∧
      ∀ x, S (m ++ x) → A.Meet same (m ++ x) (m' ++ x)

/-- C72: a digest of another class beside it, whatever the class, does not prevent collisions: with more collisions of
`A` than the other digest has bits there are two messages that collide in both classes. Not in /repo. -/
def BesideOther (same : O → O → Prop) (pad : List Byte → List Byte) (S : List Byte → Prop) : Prop :=
  ∀ (P : Type) (C : API P) (f : List Byte → List Byte) (n : Nat), C.Computes f → C.DigestSize n →
    ∀ ps, A.Collisions same pad [] ps → 8 * n < ps.length →
      ∃ m m', m ≠ m' ∧ m.length = m'.length ∧ C.SameDigest m m' ∧ (S m → A.Meet same m m')

end API
end Verif
