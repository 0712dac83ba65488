import Verif.Spec.RealConstants
import Verif.Spec.Numbers

/-! # Integer roots and real roots -/

namespace Verif.Proof.Roots
open Spec Real

theorem root_nonneg (k p : Nat) : 0 ≤ root k p := Real.rpow_nonneg (Nat.cast_nonneg p) _

theorem root_pow (k p : Nat) (hk : 0 < k) : root k p ^ k = p := by
  unfold root
  rw [← Real.rpow_natCast, ← Real.rpow_mul (Nat.cast_nonneg p), one_div, inv_mul_cancel₀ (by positivity), Real.rpow_one]

theorem floor_root (k p s N : Nat) (hk : 0 < k) (lo : N ^ k ≤ p * 2 ^ (k * s)) (hi : p * 2 ^ (k * s) < (N + 1) ^ k) :
    ⌊(2 : ℝ) ^ s * root k p⌋ = N := by
  have hz : (0 : ℝ) ≤ 2 ^ s * root k p := mul_nonneg (by positivity) (root_nonneg k p)
  have hp : ((2 : ℝ) ^ s * root k p) ^ k = ((p * 2 ^ (k * s) : ℕ) : ℝ) := by
    rw [mul_pow, root_pow k p hk, ← pow_mul]
    push_cast
    rw [mul_comm s k, mul_comm]
  rw [Int.floor_eq_iff]
  constructor
  · refine le_of_pow_le_pow_left₀ (Nat.pos_iff_ne_zero.1 hk) hz ?_
    rw [hp]
    exact_mod_cast lo
  · refine lt_of_pow_lt_pow_left₀ k (by positivity) ?_
    rw [hp]
    exact_mod_cast hi

/-- The fractional part of a non-negative number, scaled by 2^w, is the scaled number mod 2^w. -/
theorem floor_fract (x : ℝ) (w : Nat) : ⌊(2 : ℝ) ^ w * Int.fract x⌋ = ⌊(2 : ℝ) ^ w * x⌋ % 2 ^ w := by
  have e : (2 : ℝ) ^ w * Int.fract x = (2 : ℝ) ^ w * x - ((2 ^ w * ⌊x⌋ : Int) : ℝ) := by
    rw [Int.fract]; push_cast; ring
  have hb : 0 ≤ ⌊(2 : ℝ) ^ w * Int.fract x⌋ ∧ ⌊(2 : ℝ) ^ w * Int.fract x⌋ < 2 ^ w := by
    constructor
    · exact Int.floor_nonneg.2 (mul_nonneg (by positivity) (Int.fract_nonneg x))
    · rw [Int.floor_lt]
      have := Int.fract_lt_one x
      have p : (0 : ℝ) < 2 ^ w := by positivity
      push_cast
      nlinarith
  have f : ⌊(2 : ℝ) ^ w * Int.fract x⌋ = ⌊(2 : ℝ) ^ w * x⌋ - 2 ^ w * ⌊x⌋ := by
    rw [e, Int.floor_sub_intCast]
  rw [← Int.emod_eq_of_lt hb.1 hb.2, f, Int.sub_mul_emod_self_left]

/-- `fracRoot` is what its name says. -/
theorem fracRoot_eq (k w p : Nat) (hk : 0 < k) (hp : p < 2 ^ (16 * k)) :
    ((fracRoot k w p).toNat : Int) = rootFraction k w p := by
  have h := iroot_spec k (w + 16) (p * 2 ^ (k * w)) hk (by
    rw [Nat.add_mul, Nat.pow_add, Nat.mul_comm w k, Nat.mul_comm (2 ^ (k * w))]
    exact Nat.mul_lt_mul_of_pos_right hp (by positivity))
  unfold rootFraction fracRoot
  rw [floor_fract, floor_root k p w _ hk h.1 h.2, BitVec.toNat_ofNat]
  push_cast
  rfl

theorem isPrime_iff (n : Nat) : isPrime n = true ↔ n.Prime := by
  unfold isPrime
  rw [Bool.and_eq_true, decide_eq_true_iff, List.all_eq_true, Nat.prime_def]
  constructor
  · rintro ⟨h2, h⟩
    refine ⟨h2, fun m hm => ?_⟩
    by_contra hne
    push Not at hne
    have hn : 0 < n := by omega
    have lt : m < n := lt_of_le_of_ne (Nat.le_of_dvd hn hm) hne.2
    have := h m (List.mem_range.2 lt)
    rw [Bool.or_eq_true, decide_eq_true_iff, bne_iff_ne] at this
    rcases this with h1 | h1
    · have : m ≠ 0 := by rintro rfl; simp at hm; omega
      omega
    · exact h1 (Nat.mod_eq_zero_of_dvd hm)
  · rintro ⟨h2, h⟩
    refine ⟨h2, fun d hd => ?_⟩
    rw [Bool.or_eq_true, decide_eq_true_iff, bne_iff_ne]
    by_contra hc
    push Not at hc
    have := h d (Nat.dvd_of_mod_eq_zero hc.2)
    have := List.mem_range.1 hd
    omega

end Verif.Proof.Roots
