import Verif.Core.Work

/-!
# What C73 says

Whoever reads the memory of an object, for instance in a dump or after the object has gone, sees its members. This is
about `m_buffer`, the only member that holds bytes of the message as they are.
-/

namespace Verif.API

variable {N : Nat} {S : Type} (A : API (Obj N S))

/-- After any legal history, all `N` bytes of the array are known: while the object is not finalised they are the last
`kept n` of the `n` bytes of the message and zeros, and afterwards zeros. Not in /repo. -/
def KeepsLast (kept : Nat → Nat) : Prop :=
  ∀ ops, Legal ops → ∃ o, A.run A.fresh ops = .ok o ∧
    o.buffer.arr.toList =
      if finished ops then List.replicate N 0
      else (message ops).drop ((message ops).length - kept (message ops).length) ++
        List.replicate (N - kept (message ops).length) 0

/-- Whatever calls came before, in whatever order: if `finalize()` comes to its end, no byte of the message or of its
padding is left in the array; and the same after `reset()`. Not in /repo. -/
def Wipes : Prop :=
  ∀ o, (∀ o', A.finalize o = .ok o' → o'.buffer.arr.toList = List.replicate N 0) ∧
    (A.reset o).buffer.arr.toList = List.replicate N 0

end Verif.API

namespace Verif

/-- the bytes that wait for their block to be complete (sha2_256.h:379-411) -/
def untilBlock (B n : Nat) : Nat := n % B

/-- BLAKE2 waits for the byte after the block: the last block stays (blake2.h:445-483) -/
def lastBlock (B n : Nat) : Nat := if n = 0 then 0 else (n - 1) % B + 1

end Verif
