import Mathlib.Analysis.SpecialFunctions.Complex.Arctan
import Mathlib.Analysis.SpecialFunctions.Trigonometric.Arctan
import Verif.Proof.AltSeries

/-!
# Computing with pi: Machin's formula in integers
-/

namespace Verif.Proof.Pi
open Finset Filter Real

/-- the denominator of the `i`th term of the series of `arctan (1 / q)` -/
def den (q i : Nat) : Nat := q ^ (2 * i + 1) * (2 * i + 1)

/-- an integer near `M arctan (1 / q)` -/
def atan (M q n : Nat) : Int := alt M (den q) n

theorem hasSum (q : Nat) (hq : 2 ≤ q) :
    HasSum (fun i => (-1) ^ i * (1 / (den q i : ℝ))) (arctan (1 / (q : ℝ))) := by
  have h2 : (2 : ℝ) ≤ q := by exact_mod_cast hq
  have h := Real.hasSum_arctan (x := 1 / (q : ℝ)) (by
    rw [Real.norm_eq_abs, abs_of_pos (by positivity)]
    rw [div_lt_one (by positivity)]
    linarith)
  convert! h using 2
  unfold den
  rw [div_pow, one_pow, mul_div_assoc, div_div]
  push_cast
  rfl

theorem den_mono (q : Nat) (hq : 1 ≤ q) : Monotone (den q) := fun i j h =>
  Nat.mul_le_mul (Nat.pow_le_pow_right hq (by omega)) (by omega)

theorem atan_bound (M q n : Nat) (hq : 2 ≤ q) (hM : M ≤ den q n) :
    |(M : ℝ) * arctan (1 / (q : ℝ)) - (atan M q n : ℝ)| ≤ n + 1 :=
  alt_bound M _ (fun i => Nat.mul_pos (Nat.pow_pos (by omega)) (by omega)) (den_mono q (by omega)) (hasSum q hq) n hM

/-- an integer near `M * pi`, from `n` terms -/
def machin (M n : Nat) : Int := 16 * atan M 5 n - 4 * atan M 239 n

theorem machin_bound (M n : Nat) (h5 : M ≤ den 5 n) :
    |(M : ℝ) * π - (machin M n : ℝ)| ≤ 20 * (n + 1) := by
  have a := atan_bound M 5 n (by decide) h5
  have b := atan_bound M 239 n (by decide) (h5.trans (Nat.mul_le_mul_right _ (Nat.pow_le_pow_left (by decide) _)))
  have m : π = 16 * arctan (1 / ((5 : ℕ) : ℝ)) - 4 * arctan (1 / ((239 : ℕ) : ℝ)) := by
    have := four_mul_arctan_inv_5_sub_arctan_inv_239
    push_cast
    rw [one_div, one_div]
    linarith
  rw [abs_le] at a b ⊢
  rw [m]
  unfold machin
  push_cast at a b ⊢
  constructor <;> linarith [a.1, a.2, b.1, b.2]

/-- `N` is the integer part of `K * pi` if the integers say so with `G` to spare. -/
theorem floor_pi (K G n : Nat) (N : Int) (hG : 0 < G) (h5 : K * G ≤ den 5 n)
    (lo : N * G ≤ machin (K * G) n - 20 * (n + 1)) (hi : machin (K * G) n + 20 * (n + 1) < (N + 1) * G) :
    ⌊(K : ℝ) * π⌋ = N := by
  have h := machin_bound (K * G) n h5
  rw [abs_le] at h
  have g : (0 : ℝ) < G := by exact_mod_cast hG
  have lo' : (N : ℝ) * G ≤ (machin (K * G) n : ℝ) - 20 * (n + 1) := by exact_mod_cast lo
  have hi' : (machin (K * G) n : ℝ) + 20 * (n + 1) < (N + 1) * G := by exact_mod_cast hi
  push_cast at h
  rw [Int.floor_eq_iff]
  constructor
  · refine le_of_mul_le_mul_right ?_ g
    calc (N : ℝ) * G ≤ _ := lo'
      _ ≤ (K : ℝ) * G * π := by linarith [h.1]
      _ = (K : ℝ) * π * G := by ring
  · refine lt_of_mul_lt_mul_right ?_ g.le
    calc (K : ℝ) * π * G = (K : ℝ) * G * π := by ring
      _ ≤ _ := by linarith [h.2]
      _ < _ := hi'

end Verif.Proof.Pi
