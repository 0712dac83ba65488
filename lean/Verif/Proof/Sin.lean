import Mathlib.Analysis.SpecialFunctions.Trigonometric.Series
import Verif.Proof.AltSeries

/-!
# Computing the sines of 1, 2, .., 64 in integers

The series gives sin 1 and cos 1, the addition theorems the rest.
-/

namespace Verif.Proof.Sin
open Finset Filter Real

/-- integers near `M sin 1` and `M cos 1` -/
def sin1 (M n : Nat) : Int := alt M (fun i => (2 * i + 1).factorial) n
def cos1 (M n : Nat) : Int := alt M (fun i => (2 * i).factorial) n

theorem sin1_bound (M n : Nat) (h : M ≤ (2 * n).factorial) : |(M : ℝ) * sin 1 - (sin1 M n : ℝ)| ≤ n + 1 := by
  refine alt_bound M _ (fun i => Nat.factorial_pos _) (fun i j hij => Nat.factorial_le (by omega)) ?_ n
    (h.trans (Nat.factorial_le (by omega)))
  have := Real.hasSum_sin 1
  simpa [one_pow, div_eq_mul_inv] using this

theorem cos1_bound (M n : Nat) (h : M ≤ (2 * n).factorial) : |(M : ℝ) * cos 1 - (cos1 M n : ℝ)| ≤ n + 1 := by
  refine alt_bound M _ (fun i => Nat.factorial_pos _) (fun i j hij => Nat.factorial_le (by omega)) ?_ n h
  have := Real.hasSum_cos 1
  simpa [one_pow, div_eq_mul_inv] using this

/-- integers near `M sin k` and `M cos k` -/
def sincos (M : Nat) (s c : Int) : Nat → Int × Int
  | 0 => (0, M)
  | k + 1 =>
    let p := sincos M s c k
    ((p.1 * c + p.2 * s) / M, (p.2 * c - p.1 * s) / M)

/-- one use of the addition theorems -/
theorem step_bound {M E e x y X Y : ℝ} {x' y' X' Y' z : ℝ} (hM : 1 ≤ M) (hE : 1 ≤ E) (he : E ≤ e) (hem : e ≤ M)
    (hx : |x| ≤ M) (hX : |X| ≤ M) (hy : |y| ≤ M) (hY : |Y| ≤ M)
    (dx : |x - x'| ≤ e) (dy : |y - y'| ≤ e) (dX : |X - X'| ≤ E) (dY : |Y - Y'| ≤ E)
    (hz : |(x' * X' + y' * Y') - M * z| ≤ M) :
    |(x * X + y * Y) - M * z| ≤ M * (8 * e) := by
  have key : ∀ {a b A B : ℝ}, |a| ≤ M → |A| ≤ M → |a - b| ≤ e → |A - B| ≤ E → |a * A - b * B| ≤ 3 * (M * e) := by
    intro a b A B ha hA hd hD
    have e1 : a * A - b * B = a * (A - B) + (a - b) * A - (a - b) * (A - B) := by ring
    have b1 : |a * (A - B)| ≤ M * e := by
      rw [abs_mul]; exact mul_le_mul ha (hD.trans he) (abs_nonneg _) (by linarith)
    have b2 : |(a - b) * A| ≤ M * e := by
      rw [abs_mul, mul_comm M e]; exact mul_le_mul hd hA (abs_nonneg _) (by linarith)
    have b3 : |(a - b) * (A - B)| ≤ M * e := by
      rw [abs_mul, mul_comm M e]
      exact mul_le_mul hd ((hD.trans he).trans hem) (abs_nonneg _) (by linarith)
    rw [e1]
    rw [abs_le] at b1 b2 b3 ⊢
    constructor <;> linarith [b1.1, b1.2, b2.1, b2.2, b3.1, b3.2]
  have k1 := key hx hX dx dX
  have k2 := key hy hY dy dY
  have : M ≤ M * e := le_mul_of_one_le_right (by linarith) (hE.trans he)
  rw [abs_le] at k1 k2 hz ⊢
  constructor <;> linarith [k1.1, k1.2, k2.1, k2.2, hz.1, hz.2]

theorem ediv_near (a : Int) (M : Nat) (hM : 0 < M) : |(a : ℝ) - M * ((a / (M : Int) : Int) : ℝ)| ≤ M := by
  have h1 : (M : Int) * (a / M) + a % M = a := Int.mul_ediv_add_emod a M
  have h2 : 0 ≤ a % (M : Int) := Int.emod_nonneg _ (by omega)
  have h3 : a % (M : Int) < M := Int.emod_lt_of_pos _ (by omega)
  have e : (a : ℝ) - M * ((a / (M : Int) : Int) : ℝ) = ((a % (M : Int) : Int) : ℝ) := by
    rw [sub_eq_iff_eq_add, add_comm]
    exact_mod_cast h1.symm
  rw [e, abs_of_nonneg (by exact_mod_cast h2)]
  exact_mod_cast h3.le

theorem sincos_bound (M n K : Nat) (hn : M ≤ (2 * n).factorial) (hK : 8 ^ K * (n + 1) ≤ M) :
    ∀ k, k ≤ K →
      |(M : ℝ) * sin k - ((sincos M (sin1 M n) (cos1 M n) k).1 : ℝ)| ≤ 8 ^ k * (n + 1) ∧
      |(M : ℝ) * cos k - ((sincos M (sin1 M n) (cos1 M n) k).2 : ℝ)| ≤ 8 ^ k * (n + 1) := by
  have hM0 : 0 < M := lt_of_lt_of_le (by positivity) hK
  have hM : (1 : ℝ) ≤ M := by exact_mod_cast hM0
  have hs := sin1_bound M n hn
  have hc := cos1_bound M n hn
  have ab : ∀ x : ℝ, |x| ≤ 1 → |(M : ℝ) * x| ≤ M := fun x hx => by
    rw [abs_mul, abs_of_nonneg (by linarith : (0 : ℝ) ≤ M)]
    exact mul_le_of_le_one_right (by linarith) hx
  intro k
  induction k with
  | zero =>
    intro _
    simp only [sincos, Nat.cast_zero, sin_zero, cos_zero, mul_zero, mul_one, Int.cast_zero, Int.cast_natCast, sub_self,
      abs_zero]
    constructor <;> positivity
  | succ k ih =>
    intro hk
    obtain ⟨i1, i2⟩ := ih (by omega)
    set p := sincos M (sin1 M n) (cos1 M n) k with hp
    have hE : (1 : ℝ) ≤ n + 1 := by linarith [(Nat.cast_nonneg n : (0 : ℝ) ≤ n)]
    have p8 : (1 : ℝ) ≤ 8 ^ k := one_le_pow₀ (by norm_num)
    have he : (n + 1 : ℝ) ≤ 8 ^ k * (n + 1) := le_mul_of_one_le_left (by linarith) p8
    have hem : (8 ^ k * (n + 1) : ℝ) ≤ M := by
      have : 8 ^ k * (n + 1) ≤ M := le_trans (Nat.mul_le_mul_right _ (Nat.pow_le_pow_right (by decide) (by omega))) hK
      exact_mod_cast this
    have cancel : ∀ a b : ℝ, |(M : ℝ) * a - M * b| ≤ M * (8 * (8 ^ k * (n + 1))) → |a - b| ≤ 8 ^ (k + 1) * (n + 1) := by
      intro a b h
      rw [← mul_sub, abs_mul, abs_of_nonneg (by linarith : (0 : ℝ) ≤ M)] at h
      have := le_of_mul_le_mul_left h (by linarith)
      rw [pow_succ]
      linarith
    constructor
    · apply cancel
      have h := step_bound (z := ((p.1 * cos1 M n + p.2 * sin1 M n) / (M : Int) : Int)) hM hE he hem (ab _ (abs_sin_le_one k))
        (ab _ (abs_cos_le_one 1)) (ab _ (abs_cos_le_one k)) (ab _ (abs_sin_le_one 1)) i1 i2 hc hs (by
          have := ediv_near (p.1 * cos1 M n + p.2 * sin1 M n) M hM0
          exact_mod_cast this)
      have e : (M : ℝ) * (M * sin ((k + 1 : ℕ) : ℝ)) = M * sin k * (M * cos 1) + M * cos k * (M * sin 1) := by
        rw [Nat.cast_add, Nat.cast_one, sin_add]; ring
      rw [e]
      exact h
    · apply cancel
      have h := step_bound (x := M * cos k) (y := -(M * sin k)) (y' := -(p.1 : ℝ)) (x' := p.2) (X := M * cos 1) (Y := M * sin 1)
        (z := ((p.2 * cos1 M n - p.1 * sin1 M n) / (M : Int) : Int)) hM hE he hem (ab _ (abs_cos_le_one k))
        (ab _ (abs_cos_le_one 1)) (by rw [abs_neg]; exact ab _ (abs_sin_le_one k)) (ab _ (abs_sin_le_one 1)) i2
        (by rw [neg_sub_neg, abs_sub_comm]; exact i1) hc hs (by
          have := ediv_near (p.2 * cos1 M n - p.1 * sin1 M n) M hM0
          rw [neg_mul, ← sub_eq_add_neg]
          exact_mod_cast this)
      have e : (M : ℝ) * (M * cos ((k + 1 : ℕ) : ℝ)) = M * cos k * (M * cos 1) + -(M * sin k) * (M * sin 1) := by
        rw [Nat.cast_add, Nat.cast_one, cos_add]; ring
      rw [e]
      exact h

/-- `N` is the integer part of `K |sin k|` if the integers say so with `G` to spare. -/
theorem floor_sin (K G n k B : Nat) (N : Int) (hG : 0 < G) (hn : K * G ≤ (2 * n).factorial) (hk : k ≤ B)
    (hB : 8 ^ B * (n + 1) ≤ K * G)
    (lo : N * G ≤ |(sincos (K * G) (sin1 (K * G) n) (cos1 (K * G) n) k).1| - 8 ^ k * (n + 1))
    (hi : |(sincos (K * G) (sin1 (K * G) n) (cos1 (K * G) n) k).1| + 8 ^ k * (n + 1) < (N + 1) * G) :
    ⌊(K : ℝ) * |sin k|⌋ = N := by
  have h := (sincos_bound (K * G) n B hn hB k hk).1
  have g : (0 : ℝ) < G := by exact_mod_cast hG
  set z := (sincos (K * G) (sin1 (K * G) n) (cos1 (K * G) n) k).1
  have h' : |(K : ℝ) * |sin k| * G - ((|z| : Int) : ℝ)| ≤ 8 ^ k * (n + 1) := by
    refine le_trans ?_ h
    rw [Int.cast_abs]
    have : (K : ℝ) * |sin k| * G = |((K * G : ℕ) : ℝ) * sin k| := by
      rw [abs_mul, abs_of_nonneg (Nat.cast_nonneg (K * G) : (0 : ℝ) ≤ ((K * G : ℕ) : ℝ))]; push_cast; ring
    rw [this]
    exact abs_abs_sub_abs_le _ _
  rw [abs_le] at h'
  have lo' : (N : ℝ) * G ≤ ((|z| : Int) : ℝ) - 8 ^ k * (n + 1) := by exact_mod_cast lo
  have hi' : ((|z| : Int) : ℝ) + 8 ^ k * (n + 1) < (N + 1) * G := by exact_mod_cast hi
  rw [Int.floor_eq_iff]
  constructor
  · exact le_of_mul_le_mul_right (by linarith [h'.1]) g
  · exact lt_of_mul_lt_mul_right (by linarith [h'.2]) g.le

end Verif.Proof.Sin
