import Verif.Core.Stream

/-!
# How much is computed

The block function (the body of the loop of `addDataImpl`) is where the time goes. Here is what it means to count its
runs: the object carries a number along, which every run increases by one, and is otherwise the object it was.
-/

namespace Verif

/-- a loop body that counts its runs; not in /repo -/
def tick {S T : Type} (body : S → T → S) (s : S × Nat) (m : T) : S × Nat := (body s.1 m, s.2 + 1)

/-- the object without the count; not in /repo -/
def Obj.real {N : Nat} {S : Type} (o : Obj N (S × Nat)) : Obj N S := ⟨o.buffer, o.chain.1⟩

/-- The last call was `finalize()`. Not in /repo. -/
def finished (ops : List Op) : Prop := ops.getLast? = some .finalize

instance (ops : List Op) : Decidable (finished ops) := inferInstanceAs (Decidable (ops.getLast? = some .finalize))

/-- `W` is the class `A` with a count: any history, legal or not, leaves the same object, or the same fault. Not in /repo. -/
def API.SameBut {O O' : Type} (A : API O) (W : API O') (real : O' → O) : Prop :=
  ∀ ops, A.run A.fresh ops = (W.run W.fresh ops).map real

/-- After any legal history the count, which `reset()` sets back to 0, is `adding n`, or `final n` if the object is
finalised, for the number `n` of bytes added since then; it depends neither on the bytes nor on how they were cut
into pieces. Not in /repo. -/
def API.Counts {O' : Type} (W : API O') (count : O' → Nat) (adding final : Nat → Nat) : Prop :=
  ∀ ops, Legal ops → ∃ o, W.run W.fresh ops = .ok o ∧
    count o = if finished ops then final (message ops).length else adding (message ops).length

/-- C55 for the class `A`; not in /repo -/
def API.Work {O O' : Type} (A : API O) (W : API O') (real : O' → O) (count : O' → Nat) (adding final : Nat → Nat) :
    Prop := A.SameBut W real ∧ W.Counts count adding final

end Verif
