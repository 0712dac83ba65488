import Verif.Proof.SHA2

/-!
# SHA-2: C08, C09 and the constants (C40)

`Computes spec` (Core/API.lean): after every legal history ending in `finalize`, `toArray` succeeds
and returns `spec` of the bytes added since the last reset. The specification is Spec/SHA2.lean.
-/

namespace Verif.Props
open Model.SHA2 Spec

/-- C08. -/
theorem C08_SHA2_224 : SHA2_224.Computes SHA2.sha224 := Proof.SHA2.r224.computes
theorem C08_SHA2_256 : SHA2_256.Computes SHA2.sha256 := Proof.SHA2.r256.computes

/-- C09. -/
theorem C09_SHA2_384 : SHA2_384.Computes SHA2.sha384 := Proof.SHA2.r384.computes
theorem C09_SHA2_512 : SHA2_512.Computes SHA2.sha512 := Proof.SHA2.r512.computes
theorem C09_SHA2_512_224 : SHA2_512_224.Computes SHA2.sha512_224 := Proof.SHA2.r512_224.computes
theorem C09_SHA2_512_256 : SHA2_512_256.Computes SHA2.sha512_256 := Proof.SHA2.r512_256.computes

/-- C40 for SHA-2: the round constants are the first 32 (64) bits of the fractional parts of the
cube roots of the first 64 (80) primes, the initial values those of the square roots, and the
SHA-512/t initial values come from the SHA-512/t generation function. -/
theorem C40_SHA2_K32 : ∀ t : Fin 64, kTable32[t] = fracRoot 3 32 (SHA2.prime t) :=
  Proof.SHA2.kTable32_ok
theorem C40_SHA2_K64 : ∀ t : Fin 80, kTable64[t] = fracRoot 3 64 (SHA2.prime t) :=
  Proof.SHA2.kTable64_ok
theorem C40_SHA2_IV :
    (⟨iv256[0], iv256[1], iv256[2], iv256[3], iv256[4], iv256[5], iv256[6], iv256[7]⟩ : SHA2.State 32) = SHA2.H256 ∧
    (⟨iv224[0], iv224[1], iv224[2], iv224[3], iv224[4], iv224[5], iv224[6], iv224[7]⟩ : SHA2.State 32) = SHA2.H224 ∧
    (⟨iv512[0], iv512[1], iv512[2], iv512[3], iv512[4], iv512[5], iv512[6], iv512[7]⟩ : SHA2.State 64) = SHA2.H512 ∧
    (⟨iv384[0], iv384[1], iv384[2], iv384[3], iv384[4], iv384[5], iv384[6], iv384[7]⟩ : SHA2.State 64) = SHA2.H384 ∧
    (⟨iv512_224[0], iv512_224[1], iv512_224[2], iv512_224[3], iv512_224[4], iv512_224[5], iv512_224[6], iv512_224[7]⟩ : SHA2.State 64) = SHA2.H512t SHA2.name224 ∧
    (⟨iv512_256[0], iv512_256[1], iv512_256[2], iv512_256[3], iv512_256[4], iv512_256[5], iv512_256[6], iv512_256[7]⟩ : SHA2.State 64) = SHA2.H512t SHA2.name256 :=
  ⟨Proof.SHA2.iv256_ok, Proof.SHA2.iv224_ok, Proof.SHA2.iv512_ok, Proof.SHA2.iv384_ok,
    Proof.SHA2.iv512_224_ok, Proof.SHA2.iv512_256_ok⟩

/-! A history that meets the hypotheses: data in several pieces, a reset after a finalisation. -/
example : Legal ([.add [1, 2], .finalize, .reset, .add [], .add (List.replicate 200 7)] ++ [.finalize]) := by
  decide +kernel
example : message [.add [1, 2], .finalize, .reset, .add [], .add [3], .add [4, 5]] = [3, 4, 5] := rfl

end Verif.Props
