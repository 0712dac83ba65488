import Verif.Core.Work

/-!
# What C57 says

An object is compared member by member here, not with `operator==`: whoever has the object, a copy of it, or its bytes
cannot tell how it was fed.
-/

namespace Verif.API

variable {O : Type} (A : API O) (eq : O → O → Bool)

/-- Two legal histories with the same message, both finalised or both not, end with the same object. Not in /repo. -/
def NoTrace : Prop :=
  ∀ ops ops', Legal ops → Legal ops' → (finished ops ↔ finished ops') → message ops = message ops' →
    ∃ o, A.run A.fresh ops = .ok o ∧ A.run A.fresh ops' = .ok o

/-- Two objects, not yet finalised, whose messages are equally long and end with the same `r`, where `r` is what is left
after whole blocks of `B` bytes and is as long as `kept` allows: if `==` holds they are the same object, so that no later
call distinguishes them. Not in /repo. -/
def Interchangeable (B : Nat) (kept : Nat → Prop) : Prop :=
  ∀ ops ops', Legal (ops ++ [.finalize]) → Legal (ops' ++ [.finalize]) →
    ∀ a a' r : List Byte, message ops = a ++ r → message ops' = a' ++ r → a.length = a'.length → B ∣ a.length →
      kept r.length →
      ∃ o o', A.run A.fresh ops = .ok o ∧ A.run A.fresh ops' = .ok o' ∧ (eq o o' = true → o = o')

end Verif.API
