import Verif.Core.API

/-!
# What C62 says

A digest that is the state after the last block can be carried on (C45) when the inputs of the compression function
for one message are the first inputs for another. `PrefixFree` excludes that; `Iterates` says that the inputs are
those of the class.
-/

namespace Verif

/-- No message of fewer than `limit` bytes has inputs that another begins with. Not in /repo. -/
def PrefixFree {X : Type} (limit : Nat) (inputs : List Byte → List X) : Prop :=
  ∀ m m', m.length < limit → m'.length < limit → inputs m <+: inputs m' → m = m'

/-- After every history that ends with `finalize`, the `chain`ing value of the object is what folding `f` over the
inputs for its message gives. Not in /repo. -/
def API.Iterates {O H X : Type} (A : API O) (chain : O → H) (f : H → X → H) (iv : H) (inputs : List Byte → List X) :
    Prop :=
  ∀ ops, Legal (ops ++ [.finalize]) → ∃ o, A.run A.fresh (ops ++ [.finalize]) = .ok o ∧
    chain o = (inputs (message ops)).foldl f iv

end Verif
