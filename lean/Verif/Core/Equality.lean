import Verif.Core.Render

/-!
# What C06 says of a class and its `operator==`
-/

namespace Verif.API

variable {O : Type} (A : API O) (eq : O → O → Bool)

/-- Objects finalised after any two histories with the same message compare equal, and objects that
compare equal have the same digest. Not in /repo. -/
def EqSound : Prop :=
  ∀ ops ops', Legal (ops ++ [.finalize]) → Legal (ops' ++ [.finalize]) →
    ∃ o o', A.run A.fresh (ops ++ [.finalize]) = .ok o ∧ A.run A.fresh (ops' ++ [.finalize]) = .ok o' ∧
      (message ops = message ops' → eq o o' = true) ∧ (eq o o' = true → A.toArray o = A.toArray o')

/-- Objects finalised after any two histories compare equal exactly when their digests are equal. Not in /repo. -/
def EqExact : Prop :=
  ∀ ops ops', Legal (ops ++ [.finalize]) → Legal (ops' ++ [.finalize]) →
    ∃ o o', A.run A.fresh (ops ++ [.finalize]) = .ok o ∧ A.run A.fresh (ops' ++ [.finalize]) = .ok o' ∧
      (eq o o' = true ↔ A.toArray o = A.toArray o')

/-- Fresh objects that have been given fewer than `B` bytes each compare equal, whatever the bytes are. Not in /repo. -/
def EqBlind (B : Nat) : Prop :=
  ∀ d d' : List Byte, d.length < B → d'.length < B →
    ∃ o o', A.addData A.fresh d = .ok o ∧ A.addData A.fresh d' = .ok o' ∧ eq o o' = true

/-- What `std::unordered_set` and the like need of a class and its `==` and `std::hash` (C43), for objects in any
state whatever, finalised or not: `==` is an equivalence, and equal objects have the same digest and hash. Not in /repo. -/
structure KeyLike : Prop where
  refl : ∀ o, eq o o = true
  symm : ∀ o o', eq o o' = true → eq o' o = true
  trans : ∀ o o' o'', eq o o' = true → eq o' o'' = true → eq o o'' = true
  digest : ∀ o o', eq o o' = true → A.toArray o = A.toArray o'
  hash : ∀ o o', eq o o' = true → A.stdHash o = A.stdHash o'

/-- The same for the objects that come from legal histories ending in `finalize` (C43). Not in /repo. -/
structure KeyLikeFinal : Prop where
  refl : ∀ o, eq o o = true
  symm : ∀ o o', eq o o' = true → eq o' o = true
  trans : ∀ o o' o'', eq o o' = true → eq o' o'' = true → eq o o'' = true
  hash : ∀ ops ops' o o', Legal (ops ++ [.finalize]) → Legal (ops' ++ [.finalize]) →
    A.run A.fresh (ops ++ [.finalize]) = .ok o → A.run A.fresh (ops' ++ [.finalize]) = .ok o' →
    eq o o' = true → A.toArray o = A.toArray o' ∧ A.stdHash o = A.stdHash o'

end Verif.API
