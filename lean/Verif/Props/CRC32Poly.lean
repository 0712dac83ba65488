import Verif.Proof.CRC32
import Verif.Props.CRC32
import Mathlib.Algebra.Polynomial.Div
import Mathlib.Algebra.Polynomial.Degree.Lemmas
import Mathlib.Data.ZMod.Basic
import Mathlib.Algebra.CharP.Two
import Mathlib.Algebra.CharP.Algebra
import Mathlib.Tactic.ComputeDegree
import Mathlib.Tactic.Ring

/-!
# C24: CRC-32 as division of polynomials over the field of two elements

The wording of ITU-T V.42, 8.1.1.6.2: the check sequence is the ones complement of the sum of the
remainders of the divisions (modulo 2) by the generator polynomial of (a) x^k (x^31 + ... + 1), k
being the number of bits, and (b) x^32 times the polynomial of the message.
-/

namespace Verif.Props
open Polynomial Finset

noncomputable section

/-- the generator polynomial -/
def crcG : (ZMod 2)[X] :=
  X ^ 32 + X ^ 26 + X ^ 23 + X ^ 22 + X ^ 16 + X ^ 12 + X ^ 11 + X ^ 10 + X ^ 8 + X ^ 7 + X ^ 5 + X ^ 4
    + X ^ 2 + X + 1

/-- The polynomial of a 32-bit register kept in reflected order: bit `i` is the coefficient of
`X^(31-i)`. -/
def regPoly (h : BitVec 32) : (ZMod 2)[X] := ∑ i ∈ range 32, if h.getLsbD i then X ^ (31 - i) else 0

/-- The polynomial of a bit string, first bit highest. -/
def msgPoly (bs : List Bool) : (ZMod 2)[X] := bs.foldl (fun p b => X * p + if b then 1 else 0) 0

theorem two_zero (p : (ZMod 2)[X]) : p + p = 0 := CharTwo.add_self_eq_zero p

theorem regPoly_xor (a b : BitVec 32) : regPoly (a ^^^ b) = regPoly a + regPoly b := by
  unfold regPoly
  rw [← sum_add_distrib]
  apply sum_congr rfl
  intro i _
  rw [BitVec.getLsbD_xor]
  cases a.getLsbD i <;> cases b.getLsbD i <;> simp [two_zero]

theorem regPoly_zero : regPoly 0 = 0 := by
  unfold regPoly
  apply sum_eq_zero
  intro i _
  rw [if_neg]
  show ¬ (0#32).getLsbD i = true
  simp

theorem regPoly_one : regPoly 1 = X ^ 31 := by
  unfold regPoly
  rw [sum_eq_single 0]
  · simp
  · intro i _ h
    rw [if_neg]
    show ¬ (1#32).getLsbD i = true
    rw [BitVec.getLsbD_one]; simp; omega
  · intro h; simp at h

theorem crcG_eq : crcG = X ^ 32 + regPoly Spec.CRC32.poly := by
  unfold regPoly crcG Spec.CRC32.poly
  simp [sum_range_succ]
  ring

/-- shifting the register down is multiplying by `X` and dropping `X^32` -/
theorem regPoly_shift (h : BitVec 32) :
    X * regPoly h = (if h.getLsbD 0 then X ^ 32 else 0) + regPoly (h >>> 1) := by
  have e0 : (X : (ZMod 2)[X]) * (if h.getLsbD 0 then X ^ (31 - 0) else 0) =
      if h.getLsbD 0 then X ^ 32 else 0 := by
    cases h.getLsbD 0
    · rw [if_neg (by decide), if_neg (by decide), mul_zero]
    · rw [if_pos rfl, if_pos rfl, ← pow_succ']
  have e1 : regPoly (h >>> 1) = ∑ i ∈ range 31, X * (if h.getLsbD (i + 1) then X ^ (31 - (i + 1)) else 0) := by
    have hlast : (h >>> 1).getLsbD 31 = false := by
      rw [BitVec.getLsbD_ushiftRight]; exact BitVec.getLsbD_of_ge _ _ (by decide)
    unfold regPoly
    rw [sum_range_succ, hlast, if_neg (by decide), add_zero]
    apply sum_congr rfl
    intro i hi
    rw [BitVec.getLsbD_ushiftRight, Nat.add_comm 1 i]
    have hi := mem_range.mp hi
    cases h.getLsbD (i + 1)
    · rw [if_neg (by decide), if_neg (by decide), mul_zero]
    · rw [if_pos rfl, if_pos rfl, ← pow_succ', show 31 - (i + 1) + 1 = 31 - i by omega]
  rw [e1, ← e0]
  unfold regPoly
  rw [mul_sum, sum_range_succ', add_comm]

theorem regPoly_z (h : BitVec 32) :
    regPoly (Proof.CRC32.z h) = X * regPoly h + (if h.getLsbD 0 then 1 else 0) * crcG := by
  rw [Proof.CRC32.z_eq, regPoly_xor, regPoly_shift, crcG_eq]
  cases h.getLsbD 0
  · rw [if_neg (by decide), if_neg (by decide), if_neg (by decide), regPoly_zero]; ring
  · simp only [if_true, one_mul]
    have := two_zero (X ^ 32 : (ZMod 2)[X])
    calc _ = (X ^ 32 + X ^ 32) + regPoly (h >>> 1) + regPoly Spec.CRC32.poly := by rw [this, zero_add]
      _ = _ := by ring

theorem regPoly_step (h : BitVec 32) (b : Bool) :
    ∃ q : (ZMod 2)[X], regPoly (Spec.CRC32.step h b) = X * regPoly h + (if b then X ^ 32 else 0) + q * crcG := by
  refine ⟨if (h ^^^ Proof.CRC32.bw b).getLsbD 0 then 1 else 0, ?_⟩
  rw [Proof.CRC32.step_eq, regPoly_z, regPoly_xor, mul_add]
  congr 2
  cases b
  · show X * regPoly 0 = _; rw [regPoly_zero, mul_zero, if_neg (by decide)]
  · show X * regPoly 1 = _; rw [regPoly_one, if_pos rfl]; ring

theorem msgPoly_append_one (bs : List Bool) (b : Bool) :
    msgPoly (bs ++ [b]) = X * msgPoly bs + if b then 1 else 0 := by
  unfold msgPoly; rw [List.foldl_append]; rfl

theorem regPoly_fold (bs : List Bool) (h : BitVec 32) :
    ∃ q : (ZMod 2)[X], regPoly (bs.foldl Spec.CRC32.step h) =
      X ^ bs.length * regPoly h + X ^ 32 * msgPoly bs + q * crcG := by
  induction bs using List.reverseRecOn with
  | nil => exact ⟨0, by simp [msgPoly]⟩
  | append_singleton bs b ih =>
    obtain ⟨q, hq⟩ := ih
    rw [List.foldl_append, List.foldl_cons, List.foldl_nil]
    obtain ⟨q', hq'⟩ := regPoly_step (bs.foldl Spec.CRC32.step h) b
    refine ⟨X * q + q', ?_⟩
    rw [hq', hq, msgPoly_append_one, List.length_append]
    cases b <;> simp <;> ring

theorem crcG_monic : crcG.Monic := by
  unfold crcG
  monicity!

theorem crcG_degree : crcG.degree = 32 := by
  unfold crcG
  compute_degree!

theorem regPoly_degree (h : BitVec 32) : (regPoly h).degree < crcG.degree := by
  rw [crcG_degree]
  apply lt_of_le_of_lt (degree_sum_le _ _)
  rw [Finset.sup_lt_iff (by exact WithBot.bot_lt_coe 32)]
  intro i _
  split
  · rw [degree_X_pow]
    exact_mod_cast (by omega : 31 - i < 32)
  · rw [degree_zero]; exact WithBot.bot_lt_coe 32

theorem regPoly_ones : regPoly (BitVec.allOnes 32) = ∑ i ∈ range 32, X ^ i := by
  unfold regPoly
  rw [← sum_range_reflect]
  apply sum_congr rfl
  intro i hi
  have := mem_range.mp hi
  rw [if_pos]
  · congr 1; omega
  · rw [BitVec.getLsbD_allOnes]; simp; omega

/-- C24: the complement of the CRC is the sum of the two remainders. -/
theorem C24_polynomial (m : List Byte) :
    regPoly (~~~ Spec.CRC32.crc32 m) =
      (X ^ (8 * m.length) * ∑ i ∈ range 32, X ^ i) %ₘ crcG +
      (X ^ 32 * msgPoly (Spec.CRC32.bits m)) %ₘ crcG := by
  unfold Spec.CRC32.crc32
  rw [BitVec.not_not]
  obtain ⟨q, hq⟩ := regPoly_fold (Spec.CRC32.bits m) (BitVec.allOnes 32)
  have h1 := (modByMonic_eq_self_iff crcG_monic).mpr
    (regPoly_degree ((Spec.CRC32.bits m).foldl Spec.CRC32.step (BitVec.allOnes 32)))
  rw [← h1, hq, add_modByMonic, add_modByMonic, mul_self_modByMonic crcG_monic, add_zero,
    Proof.CRC32.bits_length, regPoly_ones]

/-- C24: and a register is determined by its polynomial, so the equation above determines the CRC. -/
theorem C24_polynomial_unique (a b : BitVec 32) (h : regPoly a = regPoly b) : a = b := by
  apply BitVec.eq_of_getLsbD_eq
  intro i hi
  have hc : ∀ h : BitVec 32, (regPoly h).coeff (31 - i) = if h.getLsbD i then 1 else 0 := by
    intro h
    unfold regPoly
    rw [finset_sum_coeff, sum_eq_single i]
    · cases h.getLsbD i <;> simp
    · intro j hj hne
      have := mem_range.mp hj
      cases h.getLsbD j
      · simp
      · rw [if_pos rfl, coeff_X_pow, if_neg (by omega)]
    · intro h'; simp at h'; omega
  have := congrArg (fun p => p.coeff (31 - i)) h
  simp only [hc] at this
  cases ha : a.getLsbD i <;> cases hb : b.getLsbD i <;> simp_all

end

end Verif.Props
