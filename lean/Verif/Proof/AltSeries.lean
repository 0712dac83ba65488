import Mathlib.Analysis.SpecificLimits.Normed
import Mathlib.Topology.Algebra.InfiniteSum.Real

/-! # Alternating series in integers -/

namespace Verif.Proof
open Finset Filter

/-- alternating sum of `M / d i` for `i < n` -/
def alt (M : Nat) (d : Nat → Nat) : Nat → Int
  | 0 => 0
  | n + 1 => if n % 2 = 0 then alt M d n + (M / d n : Nat) else alt M d n - (M / d n : Nat)

theorem alt_near (M : Nat) (d : Nat → Nat) (hd : ∀ i, 0 < d i) (n : Nat) :
    |(M : ℝ) * ∑ i ∈ range n, (-1) ^ i * (1 / (d i : ℝ)) - (alt M d n : ℝ)| ≤ n := by
  induction n with
  | zero => simp [alt]
  | succ n ih =>
    have hp : (0 : ℝ) < d n := by exact_mod_cast hd n
    have t1 : ((M / d n : Nat) : ℝ) ≤ M * (1 / (d n : ℝ)) := by
      rw [mul_one_div]
      exact Nat.cast_div_le
    have t2 : (M : ℝ) * (1 / (d n : ℝ)) ≤ (M / d n : Nat) + 1 := by
      rw [mul_one_div, div_le_iff₀ hp]
      have h := (Nat.lt_mul_of_div_lt (Nat.lt_succ_self (M / d n)) (hd n)).le
      exact_mod_cast h
    rw [sum_range_succ, mul_add]
    rw [abs_le] at ih ⊢
    unfold alt
    rcases Nat.mod_two_eq_zero_or_one n with h | h
    · rw [if_pos h, (Nat.even_iff.2 h).neg_one_pow, one_mul, Int.cast_add, Int.cast_natCast, Nat.cast_add, Nat.cast_one]
      constructor <;> linarith [ih.1, ih.2]
    · rw [if_neg (by omega), (Nat.odd_iff.2 h).neg_one_pow, Int.cast_sub, Int.cast_natCast, Nat.cast_add, Nat.cast_one]
      constructor <;> linarith [ih.1, ih.2]

theorem alt_bound (M : Nat) (d : Nat → Nat) (hd : ∀ i, 0 < d i) (hm : Monotone d) {l : ℝ}
    (hs : HasSum (fun i => (-1) ^ i * (1 / (d i : ℝ))) l) (n : Nat) (hM : M ≤ d n) :
    |(M : ℝ) * l - (alt M d n : ℝ)| ≤ n + 1 := by
  have hl := hs.tendsto_sum_nat
  have ha : Antitone fun i => 1 / (d i : ℝ) := fun i j h =>
    one_div_le_one_div_of_le (by exact_mod_cast hd i) (by exact_mod_cast hm h)
  have lower := ha.alternating_series_le_tendsto hl
  have upper := ha.tendsto_le_alternating_series hl
  have I : ∀ i, 0 ≤ 1 / (d i : ℝ) := fun i => by positivity
  have h1 : |l - ∑ i ∈ range n, (-1) ^ i * (1 / (d i : ℝ))| ≤ 1 / (d n : ℝ) := by
    rw [abs_sub_le_iff]
    rcases Nat.even_or_odd' n with ⟨k, rfl | rfl⟩
    · have l := lower k
      have u := upper k
      rw [sum_range_succ, (even_two_mul k).neg_one_pow, one_mul] at u
      have := I (2 * k)
      constructor <;> linarith
    · have l := lower (k + 1)
      have u := upper k
      rw [show 2 * (k + 1) = 2 * k + 1 + 1 by ring, sum_range_succ, (odd_two_mul_add_one k).neg_one_pow] at l
      have := I (2 * k + 1)
      constructor <;> linarith
  have h2 := alt_near M d hd n
  have h3 : (M : ℝ) * (1 / (d n : ℝ)) ≤ 1 := by
    have := hd n
    rw [mul_one_div, div_le_one (by exact_mod_cast this)]
    exact_mod_cast hM
  have h4 : |(M : ℝ) * l - (M : ℝ) * ∑ i ∈ range n, (-1) ^ i * (1 / (d i : ℝ))| ≤ 1 := by
    rw [← mul_sub, abs_mul, abs_of_nonneg (by positivity : (0 : ℝ) ≤ M)]
    exact le_trans (mul_le_mul_of_nonneg_left h1 (by positivity)) h3
  have := abs_sub_le ((M : ℝ) * l) ((M : ℝ) * ∑ i ∈ range n, (-1) ^ i * (1 / (d i : ℝ))) (alt M d n : ℝ)
  linarith

end Verif.Proof
