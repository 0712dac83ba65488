import Verif.Proof.BLAKE2

/-!
# C19: BLAKE2b and BLAKE2s

`Spec/BLAKE2.lean` is RFC 7693; `Computes` (Core/API.lean) says: after every legal history ending in
`finalize`, the digest is that of the bytes added since the last `reset`.
-/

namespace Verif.Props
open Model Spec

theorem C19_Blake2 : BLAKE2.Blake2.Computes Spec.BLAKE2.blake2b := Proof.BLAKE2.refines2.computes
theorem C19_Blake2s : BLAKE2.Blake2s.Computes Spec.BLAKE2.blake2s := Proof.BLAKE2.refines2s.computes

/-- A history that meets the hypotheses, with a full buffer in the middle. -/
example : Legal ([.add (List.replicate 128 7), .add [], .add [1, 2], .reset, .add (List.replicate 300 1),
    .add (List.replicate 84 9)] ++ [.finalize]) := by decide +kernel

/-- The constants of both classes are those of SHA-2, which are derived from the square roots of
the primes (C40 for SHA-2). -/
theorem C40_BLAKE2_IV :
    BLAKE2.cfg2.iv = Spec.BLAKE.iv SHA2.H512 ∧ BLAKE2.cfg2s.iv = Spec.BLAKE.iv SHA2.H256 :=
  ⟨Proof.BLAKE2.cfg2_ok.iv, Proof.BLAKE2.cfg2s_ok.iv⟩

end Verif.Props
