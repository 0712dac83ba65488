import Verif.Core.API
import Verif.Spec.Bytes

/-!
# What C27 and C28 say

`GoodPadding` is about the padding rule of a specification alone; `CollisionIn` about folding any function over
two sequences of inputs; `CollisionReduces` connects them with the objects of a class.
-/

namespace Verif
open Spec

/-- C27: `pad` extends every message to whole blocks of `B` bytes, adds at least the `tail` bytes the
specification wants and no block more than needed for them, and the blocks determine the message. Not in /repo. -/
structure GoodPadding (B tail : Nat) (pad : List Byte → List Byte) : Prop where
  whole : ∀ m, (pad m).length % B = 0
  keeps : ∀ m, m <+: pad m
  room : ∀ m, m.length + tail ≤ (pad m).length
  least : ∀ m, (pad m).length < m.length + tail + B
  injective : ∀ m m', blocks B (pad m) = blocks B (pad m') → m = m'

/-- Folding `f` from `iv` over `A` and over `A'` meets two different pairs of a chaining value and an input that
`f` maps to the same value. Not in /repo. -/
def CollisionIn {H X : Type} (f : H → X → H) (iv : H) (A A' : List X) : Prop :=
  ∃ pre b post pre' b' post', A = pre ++ b :: post ∧ A' = pre' ++ b' :: post' ∧
    (pre.foldl f iv, b) ≠ (pre'.foldl f iv, b') ∧ f (pre.foldl f iv) b = f (pre'.foldl f iv) b'

/-- C28: two objects of the class, finalised after any histories with different messages of fewer than `limit`
bytes, that compare equal, exhibit a collision of `f` among the inputs `inputs m`, `inputs m'` it was applied to. Not
in /repo. -/
def API.CollisionReduces {O H X : Type} (A : API O) (eq : O → O → Bool) (limit : Nat) (f : H → X → H) (iv : H)
    (inputs : List Byte → List X) : Prop :=
  ∀ ops ops', Legal (ops ++ [.finalize]) → Legal (ops' ++ [.finalize]) → message ops ≠ message ops' →
    (message ops).length < limit → (message ops').length < limit →
    ∃ o o', A.run A.fresh (ops ++ [.finalize]) = .ok o ∧ A.run A.fresh (ops' ++ [.finalize]) = .ok o' ∧
      (eq o o' = true → CollisionIn f iv (inputs (message ops)) (inputs (message ops')))

end Verif
