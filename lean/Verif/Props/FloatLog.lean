import Verif.Proof.CShake
import Mathlib.Analysis.SpecialFunctions.Log.Base
import Mathlib.Analysis.SpecialFunctions.Log.Deriv
import Mathlib.Analysis.Complex.ExponentialBounds
import Mathlib.Data.Int.Log
import Mathlib.Tactic.Linarith
import Mathlib.Tactic.NormNum
import Mathlib.Tactic.Positivity

/-!
# The floating-point byte count of cshake.h and tuple_hash.h (C29)

`lround(log2(value) / 8 + 0.5)` (cshake.h:135, tuple_hash.h:125), with doubles modelled as real numbers
and a rounding function: `rn` rounds the exact result of an operation to the nearest double. The exponent
range is not modelled (all values here lie between 2^-2 and 2^64). `std::log2` is a library function of
which the C++ standard promises nothing; the hypotheses are what libraries document: an error of at
most one unit in the last place, and exact results for powers of two.
-/

namespace Verif.Props.Float
open Spec.SP800185 (ExactLog byteLen)

/-- the unit in the last place of a double of the magnitude of `x`: 53 significant bits -/
noncomputable def ulp (x : ℝ) : ℝ := 2 ^ (Int.log 2 |x| - 52)

/-- `rn` rounds to nearest: the result is a multiple of the last place, at most half of it away -/
def RoundsToNearest (rn : ℝ → ℝ) : Prop :=
  ∀ x, x ≠ 0 → (∃ m : ℤ, rn x = m * ulp x) ∧ |rn x - x| ≤ ulp x / 2

/-- `lg` is `log2` up to one unit in the last place, and exact for powers of two -/
def AccurateLog2 (lg : ℝ → ℝ) : Prop :=
  (∀ x, 1 < x → |lg x - Real.logb 2 x| ≤ ulp (Real.logb 2 x)) ∧ ∀ n : ℕ, n < 1024 → lg (2 ^ n) = n

/-- the expression of the code; `lround` rounds halfway cases away from zero, that is up here -/
noncomputable def byteCount (rn lg : ℝ → ℝ) (v : ℕ) : ℕ :=
  ⌊rn (rn (lg (rn v) / 8) + 1 / 2) + 1 / 2⌋.toNat

theorem ulp_pos (x : ℝ) : 0 < ulp x := by unfold ulp; positivity

theorem ulp_le (x : ℝ) (h0 : x ≠ 0) (n : ℕ) (h : |x| < 2 ^ n) : ulp x ≤ 2 ^ ((n : ℤ) - 53) := by
  unfold ulp
  have h1 : Int.log 2 |x| < n := (Int.lt_zpow_iff_log_lt (by norm_num) (abs_pos.mpr h0)).mp (by exact_mod_cast h)
  exact zpow_le_zpow_right₀ (by norm_num) (by omega)

/-- what is a multiple of the last place is not changed by rounding -/
theorem rn_exact (rn : ℝ → ℝ) (hr : RoundsToNearest rn) (x : ℝ) (h0 : x ≠ 0) (m : ℤ) (h : x = m * ulp x) : rn x = x := by
  obtain ⟨⟨k, hk⟩, he⟩ := hr x h0
  have hu := ulp_pos x
  rw [hk] at he
  have h1 : (k : ℝ) * ulp x - x = ((k - m : ℤ) : ℝ) * ulp x := by
    conv => lhs; rw [h]
    push_cast
    have : ulp (↑m * ulp x) = ulp x := by rw [← h]
    rw [this]
    ring
  rw [h1, abs_mul, abs_of_pos hu] at he
  have h2 : |((k - m : ℤ) : ℝ)| < 1 := by
    have : |((k - m : ℤ) : ℝ)| * ulp x < 1 * ulp x := by linarith
    exact lt_of_mul_lt_mul_right this hu.le
  have h3 : k - m = 0 := by
    have : |k - m| < 1 := by exact_mod_cast h2
    simpa using this
  have : k = m := by omega
  rw [hk, this, ← h]

/-- numbers of the form `a * 2 ^ j` with `0 < a < 2^53` are doubles -/
theorem rn_scaled (rn : ℝ → ℝ) (hr : RoundsToNearest rn) (a : ℕ) (j : ℤ) (h0 : 0 < a) (h1 : a < 2 ^ 53) :
    rn ((a : ℝ) * 2 ^ j) = a * 2 ^ j := by
  have ha : (0 : ℝ) < a := by exact_mod_cast h0
  have hp : (0 : ℝ) < a * 2 ^ j := by positivity
  have hlog : Int.log 2 |(a : ℝ) * 2 ^ j| < 53 + j := by
    refine (Int.lt_zpow_iff_log_lt (by norm_num) (abs_pos.mpr hp.ne')).mp ?_
    rw [abs_of_pos hp, Nat.cast_ofNat, zpow_add₀ (by norm_num)]
    have : (a : ℝ) < 9007199254740992 := by exact_mod_cast h1
    refine mul_lt_mul_of_pos_right ?_ (by positivity)
    norm_num
    linarith
  obtain ⟨e, he⟩ : ∃ e : ℕ, Int.log 2 |(a : ℝ) * 2 ^ j| - 52 = j - (e : ℤ) :=
    ⟨(j + 52 - Int.log 2 |(a : ℝ) * 2 ^ j|).toNat, by omega⟩
  refine rn_exact rn hr _ hp.ne' ((a : ℤ) * 2 ^ e) ?_
  unfold ulp
  rw [he, zpow_sub₀ (by norm_num)]
  push_cast
  rw [zpow_natCast]
  field_simp

/-- numbers of the form `a / 2` with `0 < a < 2^53` are doubles -/
theorem rn_half (rn : ℝ → ℝ) (hr : RoundsToNearest rn) (a : ℕ) (h0 : 0 < a) (h1 : a < 2 ^ 53) : rn ((a : ℝ) / 2) = a / 2 := by
  have := rn_scaled rn hr a (-1) h0 h1
  rwa [zpow_neg_one, ← div_eq_mul_inv] at this

theorem log_two_pos : 0 < Real.log 2 := Real.log_pos (by norm_num)
theorem log_two_lt : Real.log 2 < 1 := by have := Real.log_two_lt_d9; linarith

theorem logb_pow (k : ℕ) : Real.logb 2 (256 ^ k) = 8 * k := by
  rw [show (256 : ℝ) = 2 ^ (8 : ℕ) by norm_num, ← pow_mul, Real.logb_pow, Real.logb_self_eq_one (by norm_num)]
  push_cast
  ring

/-- below a power of 256, by at least 1 / 2^45 of it -/
theorem log_below (v k m : ℕ) (h0 : 0 < v) (hk : 256 ^ k ≤ 2 ^ 45 * m) (h : v + m ≤ 256 ^ k) :
    Real.logb 2 v ≤ 8 * k - 1 / 2 ^ 45 := by
  have hv : (0 : ℝ) < v := by exact_mod_cast h0
  have hp : (0 : ℝ) < 256 ^ k := by positivity
  have h1 : (v : ℝ) + m ≤ 256 ^ k := by exact_mod_cast h
  have h2 : (256 : ℝ) ^ k ≤ 2 ^ 45 * m := by exact_mod_cast hk
  have h3 : Real.logb 2 v = 8 * k + Real.logb 2 (v / 256 ^ k) := by
    rw [Real.logb_div hv.ne' hp.ne', logb_pow]
    ring
  have h4 : Real.log (v / 256 ^ k) ≤ -(1 / 2 ^ 45) := by
    have h5 := Real.log_le_sub_one_of_pos (show (0 : ℝ) < v / 256 ^ k by positivity)
    have h6 : (v : ℝ) / 256 ^ k - 1 ≤ -(1 / 2 ^ 45) := by
      rw [div_sub_one hp.ne', div_le_iff₀ hp]
      have : (1 : ℝ) / 2 ^ 45 * 256 ^ k ≤ m := by norm_num at h2 ⊢; linarith
      linarith
    linarith
  have h5 : Real.logb 2 (v / 256 ^ k) ≤ Real.log (v / 256 ^ k) := by
    unfold Real.logb
    rw [div_le_iff₀ log_two_pos]
    have : Real.log (v / 256 ^ k) ≤ 0 := le_trans h4 (by norm_num)
    nlinarith [log_two_lt]
  linarith

/-- above a power of 256, by at least 8 -/
theorem log_above (v k : ℕ) (hk : k ≤ 6) (h : 256 ^ k + 8 ≤ v) :
    8 * k + 1 / 2 ^ 46 ≤ Real.logb 2 v := by
  have hp : (0 : ℝ) < 256 ^ k := by positivity
  have h1 : (256 : ℝ) ^ k + 8 ≤ v := by exact_mod_cast h
  have hv : (0 : ℝ) < v := by linarith
  have h2 : (256 : ℝ) ^ k ≤ 2 ^ 48 := by
    calc (256 : ℝ) ^ k ≤ 256 ^ 6 := pow_le_pow_right₀ (by norm_num) hk
      _ = 2 ^ 48 := by norm_num
  have h3 : Real.logb 2 v = 8 * k + Real.logb 2 (v / 256 ^ k) := by
    rw [Real.logb_div hv.ne' hp.ne', logb_pow]
    ring
  have h4 : 1 / 2 ^ 46 ≤ Real.log (v / 256 ^ k) := by
    have h5 := Real.one_sub_inv_le_log_of_pos (show (0 : ℝ) < v / 256 ^ k by positivity)
    have h6 : (1 : ℝ) / 2 ^ 46 ≤ 1 - (v / 256 ^ k : ℝ)⁻¹ := by
      rw [inv_div, one_sub_div hv.ne', le_div_iff₀ hv]
      norm_num at h2 ⊢
      linarith
    linarith
  have h5 : Real.log (v / 256 ^ k) ≤ Real.logb 2 (v / 256 ^ k) := by
    unfold Real.logb
    rw [le_div_iff₀ log_two_pos]
    have : 0 ≤ Real.log (v / 256 ^ k) := le_trans (by positivity) h4
    nlinarith [log_two_lt]
  linarith

/-- C29: the code's byte count is exact for the bit lengths of all strings shorter than 2^53 - 256 bytes.
This is almost sharp: it is wrong for 2^53 - 1 bytes (`C29_float_log_wrong`). -/
theorem C29_float_log_exact (rn lg : ℝ → ℝ) (hr : RoundsToNearest rn) (hl : AccurateLog2 lg) :
    ExactLog (byteCount rn lg) := by
  intro v h0 h56 h8
  have hv8 : 8 ≤ v := by omega
  obtain ⟨k, hk⟩ : ∃ k, byteLen v = k := ⟨_, rfl⟩
  have hk1 := Proof.CShake.byteLen_pos v
  have hlt := Proof.CShake.byteLen_lt v
  have hk7 : byteLen v ≤ 7 := Proof.CShake.byteLen_min v 7 (by decide) (by omega)
  rw [hk] at hk1 hlt hk7 ⊢
  have hge : 256 ^ (k - 1) ≤ v ∨ k = 1 := by
    by_cases h : k = 1
    · exact .inr h
    · refine .inl (Nat.le_of_not_lt fun hh => ?_)
      have := Proof.CShake.byteLen_min v (k - 1) (by omega) hh
      omega
  have hrv : rn v = v := by
    have h := rn_scaled rn hr (v / 8) 3 (by omega) (by omega)
    have hv : ((v / 8 : ℕ) : ℝ) * 2 ^ (3 : ℤ) = v := by
      have : (v / 8 * 8 : ℕ) = v := by omega
      have : ((v / 8 * 8 : ℕ) : ℝ) = v := by exact_mod_cast this
      push_cast at this ⊢
      norm_num
      exact this
    rwa [hv] at h
  have hup : Real.logb 2 v ≤ 8 * k - 1 / 2 ^ 45 := by
    by_cases hk6 : k = 7
    · subst hk6
      exact log_below v 7 2048 h0 (by norm_num) (by omega)
    · refine log_below v k 8 h0 ?_ ?_
      · calc 256 ^ k ≤ 256 ^ 6 := Nat.pow_le_pow_right (by norm_num) (by omega)
          _ = 2 ^ 45 * 8 := by norm_num
      · have : 256 ^ k % 8 = 0 := by
          obtain ⟨j, rfl⟩ : ∃ j, k = j + 1 := ⟨k - 1, by omega⟩
          rw [pow_succ]; omega
        omega
  have hkR : (1 : ℝ) ≤ k := by exact_mod_cast hk1
  have hk7R : (k : ℝ) ≤ 7 := by exact_mod_cast hk7
  have hlog3 : 3 ≤ Real.logb 2 v := by
    rw [Real.le_logb_iff_rpow_le (by norm_num) (by exact_mod_cast h0)]
    have : (8 : ℝ) ≤ v := by exact_mod_cast hv8
    rw [show (2 : ℝ) ^ (3 : ℝ) = 8 by
      rw [show (3 : ℝ) = ((3 : ℕ) : ℝ) by norm_num, Real.rpow_natCast]; norm_num]
    exact this
  -- the accuracy of the logarithm
  have hlg : |lg v - Real.logb 2 v| ≤ 1 / 2 ^ 47 := by
    refine le_trans (hl.1 v (by have : (8 : ℝ) ≤ v := by exact_mod_cast hv8
                                linarith)) ?_
    refine le_trans (ulp_le _ (by linarith) 6 ?_) (by norm_num)
    rw [abs_of_nonneg (by linarith)]
    have : (0 : ℝ) < 1 / 2 ^ 45 := by positivity
    norm_num
    linarith
  unfold byteCount
  rw [hrv]
  have hlg' := abs_le.mp hlg
  suffices h : rn (rn (lg v / 8) + 1 / 2) + 1 / 2 ∈ Set.Ico (k : ℝ) (k + 1) by
    have : ⌊rn (rn (lg v / 8) + 1 / 2) + 1 / 2⌋ = (k : ℤ) := Int.floor_eq_iff.mpr ⟨by exact_mod_cast h.1, by exact_mod_cast h.2⟩
    rw [this]
    rfl
  -- the two roundings
  have e1 : |rn (lg v / 8) - lg v / 8| ≤ 1 / 2 ^ 51 := by
    have hne : lg v / 8 ≠ 0 := by
      have : (0 : ℝ) < lg v / 8 := by norm_num at hlg' ⊢; linarith
      exact this.ne'
    refine le_trans (hr _ hne).2 ?_
    have := ulp_le (lg v / 8) hne 3 (by
      rw [abs_of_nonneg (by norm_num at hlg' ⊢; linarith)]
      norm_num at hlg' hup ⊢
      linarith)
    norm_num at this ⊢
    linarith
  have e1' := abs_le.mp e1
  have e2 : |rn (rn (lg v / 8) + 1 / 2) - (rn (lg v / 8) + 1 / 2)| ≤ 1 / 2 ^ 51 := by
    have hpos : (0 : ℝ) < rn (lg v / 8) + 1 / 2 := by norm_num at hlg' e1' ⊢; linarith
    refine le_trans (hr _ hpos.ne').2 ?_
    have := ulp_le (rn (lg v / 8) + 1 / 2) hpos.ne' 3 (by
      rw [abs_of_pos hpos]
      norm_num at hlg' hup e1' ⊢
      linarith)
    norm_num at this ⊢
    linarith
  have e2' := abs_le.mp e2
  have hupper : rn (rn (lg v / 8) + 1 / 2) + 1 / 2 < k + 1 := by
    norm_num at hlg' hup e1' e2' ⊢
    linarith
  refine ⟨?_, hupper⟩
  by_cases hpow : v = 256 ^ (k - 1)
  · -- exact powers of 256
    have h1 : lg v / 8 = ((2 * (k - 1) : ℕ) : ℝ) / 2 := by
      rw [hpow]
      have := hl.2 (8 * (k - 1)) (by omega)
      rw [pow_mul] at this
      push_cast
      rw [show (256 : ℝ) = 2 ^ 8 by norm_num, this]
      push_cast
      ring
    have hk2 : 2 ≤ k := by
      by_contra hk2
      have : k = 1 := by omega
      subst this
      simp at hpow
      omega
    rw [h1, rn_half rn hr _ (by omega) (by omega)]
    have h2 : ((2 * (k - 1) : ℕ) : ℝ) / 2 + 1 / 2 = ((2 * (k - 1) + 1 : ℕ) : ℝ) / 2 := by push_cast; ring
    rw [h2, rn_half rn hr _ (by omega) (by omega)]
    have h3 : ((k - 1 : ℕ) : ℝ) = k - 1 := by rw [Nat.cast_sub hk1]; norm_num
    push_cast
    rw [h3]
    linarith
  · have hlow : 8 * ((k : ℝ) - 1) + 1 / 2 ^ 46 ≤ Real.logb 2 v := by
      by_cases hk2 : k = 1
      · subst hk2
        norm_num
        linarith
      · have := log_above v (k - 1) (by omega) (by
          have h1 : 256 ^ (k - 1) % 8 = 0 := by
            obtain ⟨j, hj⟩ : ∃ j, k - 1 = j + 1 := ⟨k - 2, by omega⟩
            rw [hj, pow_succ]; omega
          rcases hge with hge | hge <;> omega)
        rw [Nat.cast_sub hk1] at this
        simpa using this
    norm_num at hlg' hlow e1' e2' ⊢
    linarith

/-! The hypotheses can be met: rounding to the nearest multiple of the last place, and the logarithm
rounded that way. -/

noncomputable def rn₀ (x : ℝ) : ℝ := round (x / ulp x) * ulp x

theorem rn₀_rounds : RoundsToNearest rn₀ := by
  intro x _
  refine ⟨⟨_, rfl⟩, ?_⟩
  have hu := ulp_pos x
  unfold rn₀
  have h := abs_sub_round (x / ulp x)
  have : (round (x / ulp x) : ℝ) * ulp x - x = -((x / ulp x - round (x / ulp x)) * ulp x) := by
    field_simp
    ring
  rw [this, abs_neg, abs_mul, abs_of_pos hu]
  nlinarith

theorem rn_log_accurate (rn : ℝ → ℝ) (hr : RoundsToNearest rn) (h0 : rn 0 = 0) :
    AccurateLog2 fun x => rn (Real.logb 2 x) := by
  constructor
  · intro x hx
    have hp : 0 < Real.logb 2 x := Real.logb_pos (by norm_num) hx
    have := (hr _ hp.ne').2
    have hu := ulp_pos (Real.logb 2 x)
    dsimp only
    linarith
  · intro n hn
    dsimp only
    rw [Real.logb_pow, Real.logb_self_eq_one (by norm_num), mul_one]
    by_cases h : n = 0
    · subst h
      simpa using h0
    · have := rn_half rn hr (2 * n) (by omega) (by omega)
      push_cast at this
      rwa [mul_div_cancel_left₀ _ (by norm_num)] at this

example : ∃ rn lg, RoundsToNearest rn ∧ AccurateLog2 lg :=
  ⟨rn₀, _, rn₀_rounds, rn_log_accurate rn₀ rn₀_rounds (by simp [rn₀])⟩

/-- C29 is false for longer strings: with `log2` rounded correctly, the code counts eight bytes in the
seven-byte number 2^56 - 8 (a string of 2^53 - 1 bytes) and then overruns its buffer. -/
theorem C29_float_log_wrong (rn : ℝ → ℝ) (hr : RoundsToNearest rn) :
    byteCount rn (fun x => rn (Real.logb 2 x)) (2 ^ 56 - 8) = 8 ∧ byteLen (2 ^ 56 - 8) = 7 ∧
    Model.CShake.leftEncode (byteCount rn fun x => rn (Real.logb 2 x)) (2 ^ 56 - 8) = .error .bufferOverrun := by
  have hv : ((2 ^ 56 - 8 : ℕ) : ℝ) = 2 ^ 56 - 8 := by norm_num
  have hcount : byteCount rn (fun x => rn (Real.logb 2 x)) (2 ^ 56 - 8) = 8 := by
    unfold byteCount
    dsimp only
    rw [hv]
    have hvlog : Int.log 2 |(2 : ℝ) ^ 56 - 8| = 55 := by
      rw [abs_of_pos (by norm_num)]
      apply le_antisymm
      · have : Int.log 2 ((2 : ℝ) ^ 56 - 8) < 56 :=
          (Int.lt_zpow_iff_log_lt (by norm_num) (by norm_num)).mp (by norm_num)
        omega
      · exact (Int.zpow_le_iff_le_log (by norm_num) (by norm_num)).mp (by norm_num)
    have hrv : rn ((2 : ℝ) ^ 56 - 8) = 2 ^ 56 - 8 := by
      refine rn_exact rn hr _ (by norm_num) (2 ^ 53 - 1) ?_
      unfold ulp
      rw [hvlog]
      norm_num
    rw [hrv]
    have h1 : Real.logb 2 (2 ^ 56 - 8) = 56 + Real.logb 2 (1 - 1 / 2 ^ 53) := by
      have : (2 : ℝ) ^ 56 - 8 = 2 ^ 56 * (1 - 1 / 2 ^ 53) := by norm_num
      rw [this, Real.logb_mul (by norm_num) (by norm_num), Real.logb_pow, Real.logb_self_eq_one (by norm_num)]
      norm_num
    have h2 : Real.logb 2 (1 - 1 / 2 ^ 53) ≤ 0 := by
      refine Real.logb_nonpos (by norm_num) (by norm_num) (by norm_num)
    have h3 : -(1 / 2 ^ 51) ≤ Real.logb 2 (1 - 1 / 2 ^ 53) := by
      unfold Real.logb
      rw [le_div_iff₀ log_two_pos]
      have h4 := Real.one_sub_inv_le_log_of_pos (show (0 : ℝ) < 1 - 1 / 2 ^ 53 by norm_num)
      have h5 := Real.log_two_gt_d9
      norm_num at h4 h5 ⊢
      linarith
    have hlog : Int.log 2 |Real.logb 2 (2 ^ 56 - 8)| = 5 := by
      rw [h1, abs_of_pos (by norm_num at h3 ⊢; linarith)]
      apply le_antisymm
      · have : Int.log 2 (56 + Real.logb 2 (1 - 1 / 2 ^ 53)) < 6 :=
          (Int.lt_zpow_iff_log_lt (by norm_num) (by norm_num at h3 ⊢; linarith)).mp (by norm_num at h2 ⊢; linarith)
        omega
      · exact (Int.zpow_le_iff_le_log (by norm_num) (by norm_num at h3 ⊢; linarith)).mp
          (by norm_num at h3 ⊢; linarith)
    have hlg : rn (Real.logb 2 (2 ^ 56 - 8)) = 56 := by
      obtain ⟨⟨m, hm⟩, he⟩ := hr (Real.logb 2 (2 ^ 56 - 8)) (by rw [h1]; norm_num at h3 ⊢; linarith)
      have hu : ulp (Real.logb 2 (2 ^ 56 - 8)) = 1 / 2 ^ 47 := by
        unfold ulp
        rw [hlog]
        norm_num
      rw [hu] at hm he
      rw [hm]
      rw [hm, h1] at he
      have he' := abs_le.mp he
      have h6 : m = 56 * 2 ^ 47 := by
        have h7 : (m : ℝ) < 56 * 2 ^ 47 + 1 := by norm_num at he' h2 ⊢; linarith
        have h8 : (56 * 2 ^ 47 - 1 : ℝ) < m := by norm_num at he' h3 ⊢; linarith
        have h7' : m < 56 * 2 ^ 47 + 1 := by exact_mod_cast h7
        have h8' : 56 * 2 ^ 47 - 1 < m := by exact_mod_cast h8
        omega
      rw [h6]
      norm_num
    rw [hlg]
    have h14 := rn_half rn hr 14 (by norm_num) (by norm_num)
    have h15 := rn_half rn hr 15 (by norm_num) (by norm_num)
    norm_num at h14 h15 ⊢
    rw [h14, show (7 : ℝ) + 1 / 2 = 15 / 2 by norm_num, h15]
    norm_num
    rfl
  refine ⟨hcount, Proof.CShake.byteLen_unique _ 7 (by decide) (by decide) (by decide), ?_⟩
  refine Proof.CShake.leftEncode_overrun _ _ ?_
  unfold Model.CShake.byteCount
  rw [if_neg (by decide), hcount]

example := C29_float_log_wrong rn₀ rn₀_rounds

end Verif.Props.Float
