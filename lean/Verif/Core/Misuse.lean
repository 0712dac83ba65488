import Verif.Core.API

/-!
# Histories that ignore the protocol

The headers document that after `finalize()` only `reset()` and the readouts may be called. Nothing in the
code checks it. Here the calls come in any order.
-/

namespace Verif

/-- Any sequence of calls at all: `addData` after `finalize`, several `finalize` in a row, and so on. The only
requirement is that a span has a length, i.e. one that fits in `size_t`. Not in /repo. -/
def AnyOrder (ops : List Op) : Prop := ∀ d, Op.add d ∈ ops → d.length < 2 ^ 64

namespace API
variable {O : Type} (A : API O)

/-- No call in whatever order faults, and the digest can be read at every moment, finalised or not. Not in /repo. -/
def NeverFaults : Prop :=
  ∀ ops, AnyOrder ops → ∃ o d, A.run A.fresh ops = .ok o ∧ A.toArray o = .ok d

/-- `reset()` makes the object as good as new whatever was done to it before. Not in /repo. -/
def ResetRepairs : Prop :=
  ∀ before after, AnyOrder before → A.run A.fresh (before ++ .reset :: after) = A.run A.fresh after

end API

end Verif
