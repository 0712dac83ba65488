import Verif.Proof.Roots
import Verif.Proof.SHA2
import Verif.Props.SHA2
import Verif.Spec.SHA1
import Verif.Spec.RIPEMD
import Verif.Spec.HAS160
import Verif.Spec.MD4
import Verif.Spec.SipHash
import Verif.Model.SHA1
import Verif.Model.MD4
import Verif.Model.MD5
import Verif.Model.RIPEMD
import Verif.Model.HAS160
import Mathlib.Data.Nat.Prime.Nth

/-!
# C40: constants that come from roots of primes, and the remaining constants that follow a rule

`root k p` is a real number, `rootFraction k w p` the first `w` bits of its fractional part, `root30 k p` the
integer part of 2^30 times it (Spec/RealConstants.lean).
-/

namespace Verif.Props
open Spec

/-- The list from which the specification of SHA-2 takes primes is the sequence of primes. -/
theorem C40_primes (t : Nat) (ht : t < 80) : SHA2.prime t = Nat.nth Nat.Prime t := by
  have e : ∀ t : Fin 80, isPrime (SHA2.prime t) = true ∧ ((List.range (SHA2.prime t)).filter isPrime).length = t := by
    decide +kernel
  obtain ⟨hp, hc⟩ := e ⟨t, ht⟩
  have hp' := (Proof.Roots.isPrime_iff _).1 hp
  have hcount : Nat.count Nat.Prime (SHA2.prime t) = t := by
    unfold Nat.count
    rw [List.countP_congr (q := isPrime) (fun x _ => by
      rw [decide_eq_true_iff]; exact (Proof.Roots.isPrime_iff x).symm), List.countP_eq_length_filter]
    exact hc
  have := Nat.nth_count hp'
  rw [show Nat.count Nat.Prime (SHA2.prime (⟨t, ht⟩ : Fin 80).val) = t from hcount] at this
  exact this.symm

theorem prime_small (t : Nat) (ht : t < 80) : SHA2.prime t < 2 ^ (16 * 2) ∧ SHA2.prime t < 2 ^ (16 * 3) := by
  have e : ∀ t : Fin 80, SHA2.prime t < 2 ^ (16 * 2) ∧ SHA2.prime t < 2 ^ (16 * 3) := by decide +kernel
  exact e ⟨t, ht⟩

/-- C40: the round constants of SHA-224 and SHA-256 in the code. -/
theorem C40_SHA2_K32_real (t : Fin 64) :
    ((Model.SHA2.kTable32[t] : W32).toNat : Int) = rootFraction 3 32 (Nat.nth Nat.Prime t) := by
  rw [C40_SHA2_K32, Proof.Roots.fracRoot_eq 3 32 _ (by decide) (prime_small t (by omega)).2, C40_primes t (by omega)]

/-- C40: the round constants of SHA-384 and SHA-512 in the code. -/
theorem C40_SHA2_K64_real (t : Fin 80) :
    ((Model.SHA2.kTable64[t] : W64).toNat : Int) = rootFraction 3 64 (Nat.nth Nat.Prime t) := by
  rw [C40_SHA2_K64, Proof.Roots.fracRoot_eq 3 64 _ (by decide) (prime_small t (by omega)).2, C40_primes t (by omega)]

/-- C40: the initial values of SHA-256, SHA-512, SHA-384 in the code. -/
theorem C40_SHA2_IV_real (i : Fin 8) :
    ((Model.SHA2.iv256[i] : W32).toNat : Int) = rootFraction 2 32 (Nat.nth Nat.Prime i) ∧
    ((Model.SHA2.iv512[i] : W64).toNat : Int) = rootFraction 2 64 (Nat.nth Nat.Prime i) ∧
    ((Model.SHA2.iv384[i] : W64).toNat : Int) = rootFraction 2 64 (Nat.nth Nat.Prime (8 + i)) := by
  have e : ∀ i : Fin 8, Model.SHA2.iv256[i] = fracRoot 2 32 (SHA2.prime i) ∧
      Model.SHA2.iv512[i] = fracRoot 2 64 (SHA2.prime i) ∧
      Model.SHA2.iv384[i] = fracRoot 2 64 (SHA2.prime (8 + i)) := by decide +kernel
  obtain ⟨h1, h2, h3⟩ := e i
  rw [h1, h2, h3, Proof.Roots.fracRoot_eq 2 32 _ (by decide) (prime_small i (by omega)).1,
    Proof.Roots.fracRoot_eq 2 64 _ (by decide) (prime_small i (by omega)).1,
    Proof.Roots.fracRoot_eq 2 64 _ (by decide) (prime_small (8 + i) (by omega)).1,
    C40_primes i (by omega), C40_primes (8 + i) (by omega)]
  exact ⟨rfl, rfl, rfl⟩

/-- C40: the initial values of SHA-224 are the second 32 bits of the same fractions as those of SHA-384. -/
theorem C40_SHA2_IV224_real (i : Fin 8) :
    ((Model.SHA2.iv224[i] : W32).toNat : Int) = rootFraction 2 64 (Nat.nth Nat.Prime (8 + i)) % 2 ^ 32 := by
  have e : ∀ i : Fin 8, Model.SHA2.iv224[i].toNat = (fracRoot 2 64 (SHA2.prime (8 + i))).toNat % 2 ^ 32 := by
    decide +kernel
  rw [e i, Int.natCast_emod, Proof.Roots.fracRoot_eq 2 64 _ (by decide) (prime_small (8 + i) (by omega)).1,
    C40_primes (8 + i) (by omega)]
  rfl

theorem root30_eq (k p N : Nat) (hk : 0 < k) (lo : N ^ k ≤ p * 2 ^ (k * 30)) (hi : p * 2 ^ (k * 30) < (N + 1) ^ k) :
    (N : Int) = root30 k p := (Proof.Roots.floor_root k p 30 N hk lo hi).symm

/-- C40: the added constants of SHA-1: 2^30 times the square roots of 2, 3, 5, 10. -/
theorem C40_SHA1_K : ((Model.SHA1.konst .r1).toNat : Int) = root30 2 2 ∧
    ((Model.SHA1.konst .r1a).toNat : Int) = root30 2 2 ∧
    ((Model.SHA1.konst .r2).toNat : Int) = root30 2 3 ∧
    ((Model.SHA1.konst .r2a).toNat : Int) = root30 2 3 ∧
    ((Model.SHA1.konst .r3).toNat : Int) = root30 2 5 ∧
    ((Model.SHA1.konst .r4).toNat : Int) = root30 2 10 := by
  refine ⟨?_, ?_, ?_, ?_, ?_, ?_⟩ <;> exact root30_eq _ _ _ (by decide) (by decide +kernel) (by decide +kernel)

/-- C40: the added constants of HAS-160: 0 and 2^30 times the square roots of 2, 3, 5. -/
theorem C40_HAS160_K : Model.HAS160.konst .r1 = 0 ∧
    ((Model.HAS160.konst .r2).toNat : Int) = root30 2 2 ∧
    ((Model.HAS160.konst .r3).toNat : Int) = root30 2 3 ∧
    ((Model.HAS160.konst .r4).toNat : Int) = root30 2 5 := by
  refine ⟨rfl, ?_, ?_, ?_⟩ <;> exact root30_eq _ _ _ (by decide) (by decide +kernel) (by decide +kernel)

/-- C40: the added constants of MD4 (C11_MD4: the code computes `Spec.MD4.md4`): 0 and 2^30 times the square
roots of 2 and 3. -/
theorem C40_MD4_K (t : Nat) :
    (t < 16 → MD4.K t = 0) ∧ (16 ≤ t → t < 32 → ((MD4.K t).toNat : Int) = root30 2 2) ∧
    (32 ≤ t → ((MD4.K t).toNat : Int) = root30 2 3) := by
  refine ⟨fun h => ?_, fun h1 h2 => ?_, fun h => ?_⟩
  · rw [MD4.K, if_pos h]
  · rw [MD4.K, if_neg (by omega), if_pos h2]
    exact root30_eq 2 2 _ (by decide) (by decide +kernel) (by decide +kernel)
  · rw [MD4.K, if_neg (by omega), if_neg (by omega)]
    exact root30_eq 2 3 _ (by decide) (by decide +kernel) (by decide +kernel)

/-- C40: the added constants of the RIPEMD family, round by round (C13: the code computes the digests that
Spec/RIPEMD.lean defines with them): in the left line 0 and 2^30 times the square roots of 2, 3, 5, 7, in the
right line the cube roots of 2, 3, 5, 7 and then 0, of 2, 3, 5 and then 0 in the versions of four rounds. -/
theorem C40_RIPEMD_K :
    (RIPEMD.K 0 = 0 ∧ ((RIPEMD.K 1).toNat : Int) = root30 2 2 ∧ ((RIPEMD.K 2).toNat : Int) = root30 2 3 ∧
      ((RIPEMD.K 3).toNat : Int) = root30 2 5 ∧ ((RIPEMD.K 4).toNat : Int) = root30 2 7) ∧
    (((RIPEMD.K' 0).toNat : Int) = root30 3 2 ∧ ((RIPEMD.K' 1).toNat : Int) = root30 3 3 ∧
      ((RIPEMD.K' 2).toNat : Int) = root30 3 5 ∧ ((RIPEMD.K' 3).toNat : Int) = root30 3 7 ∧ RIPEMD.K' 4 = 0) ∧
    (((RIPEMD.K4' 0).toNat : Int) = root30 3 2 ∧ ((RIPEMD.K4' 1).toNat : Int) = root30 3 3 ∧
      ((RIPEMD.K4' 2).toNat : Int) = root30 3 5 ∧ RIPEMD.K4' 3 = 0) := by
  refine ⟨⟨rfl, ?_, ?_, ?_, ?_⟩, ⟨?_, ?_, ?_, ?_, rfl⟩, ⟨?_, ?_, ?_, rfl⟩⟩ <;>
    exact root30_eq _ _ _ (by decide) (by decide +kernel) (by decide +kernel)

/-- C40: the 32 bytes mixed into the key of SipHash are the text the authors chose. -/
theorem C40_SipHash_init (key : List Byte) :
    let text := "somepseudorandomlygeneratedbytes".toList.map fun c => BitVec.ofNat 8 c.toNat
    Spec.SipHash.init key = ⟨wordLE 64 key 0 ^^^ wordBE 64 text 0, wordLE 64 key 1 ^^^ wordBE 64 text 1,
      wordLE 64 key 0 ^^^ wordBE 64 text 2, wordLE 64 key 1 ^^^ wordBE 64 text 3⟩ := by
  intro text
  have e : wordBE 64 text 0 = 0x736f6d6570736575 ∧ wordBE 64 text 1 = 0x646f72616e646f6d ∧
      wordBE 64 text 2 = 0x6c7967656e657261 ∧ wordBE 64 text 3 = 0x7465646279746573 := by decide +kernel
  rw [e.1, e.2.1, e.2.2.1, e.2.2.2]
  rfl

/-- The bytes that count up 01 23 45 .. ef, down fe dc .. 10, and then f0 e1 d2 c3. -/
def countingByte (j : Nat) : Byte :=
  if j < 8 then BitVec.ofNat 8 (0x01 + 0x22 * j)
  else if j < 16 then BitVec.ofNat 8 (0xfe - 0x22 * (j - 8))
  else BitVec.ofNat 8 (0xf0 - 0x0f * (j - 16))

/-- The two hexadecimal digits of a byte exchanged. -/
def swapDigits (b : Byte) : Byte := b.rotateLeft 4

/-- C40: the initial values of the MD4 family in the code are those bytes, as little-endian words; the second
halves of those of RIPEMD-256 and RIPEMD-320 are the same bytes with their hexadecimal digits exchanged. -/
theorem C40_MD_IV :
    (∀ i : Fin 4, Model.MD4.iv[i] = wordLE 32 ((List.range 16).map countingByte) i ∧
      Model.MD5.iv[i] = wordLE 32 ((List.range 16).map countingByte) i ∧
      Model.RIPEMD.iv128[i] = wordLE 32 ((List.range 16).map countingByte) i) ∧
    (∀ i : Fin 5, Model.SHA1.iv[i] = wordLE 32 ((List.range 20).map countingByte) i ∧
      Model.HAS160.iv[i] = wordLE 32 ((List.range 20).map countingByte) i ∧
      Model.RIPEMD.iv160[i] = wordLE 32 ((List.range 20).map countingByte) i) ∧
    (∀ i : Fin 8, Model.RIPEMD.iv256[i] =
      wordLE 32 ((List.range 16).map countingByte ++ (List.range 16).map (swapDigits ∘ countingByte)) i) ∧
    (∀ i : Fin 10, Model.RIPEMD.iv320[i] =
      wordLE 32 ((List.range 20).map countingByte ++ (List.range 20).map (swapDigits ∘ countingByte)) i) := by
  decide +kernel

end Verif.Props
