import Verif.Core.Alloc

/-!
# What an object took when calls may throw

For a class whose `addData` may throw after it has used some of the bytes.
-/

namespace Verif

/-- The last argument is the history as the object took it: of a piece added some of the first bytes, and all of them if the
call returned (second argument: which calls returned); `reset()` and `finalize()` returned. Not in /repo. -/
inductive Taken : List (Op × Supply) → List Bool → List Op → Prop
  | nil : Taken [] [] []
  | add {cs bs ops f b} (d t : List Byte) (ht : t <+: d) (hb : b = true → t = d) (h : Taken cs bs ops) :
      Taken ((.add d, f) :: cs) (b :: bs) (.add t :: ops)
  | reset {cs bs ops f} (h : Taken cs bs ops) : Taken ((.reset, f) :: cs) (true :: bs) (.reset :: ops)
  | finalize {cs bs ops f} (h : Taken cs bs ops) : Taken ((.finalize, f) :: cs) (true :: bs) (.finalize :: ops)

end Verif
