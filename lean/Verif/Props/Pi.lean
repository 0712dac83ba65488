import Verif.Proof.Pi
import Verif.Proof.Sin
import Verif.Spec.BLAKE
import Verif.Spec.MD5
import Verif.Spec.RealConstants
import Verif.Model.MD2Table
import Verif.Model.MD5Calls

/-!
# C40: constants that come from pi and from the sine function

The statements are about the real numbers.
-/

namespace Verif.Props
open Real

/-- C40: the 1024 bits from which BLAKE takes its constants (C40_BLAKE_constants) are the first 1024 bits of
the fractional part of pi. -/
theorem C40_pi_bits : ⌊(2 : ℝ) ^ 1024 * π⌋ = 3 * 2 ^ 1024 + Spec.BLAKE.piFrac := by
  have h := Proof.Pi.floor_pi (2 ^ 1024) (2 ^ 64) 240 (3 * 2 ^ 1024 + Spec.BLAKE.piFrac) (by decide)
    (by decide +kernel) (by decide +kernel) (by decide +kernel)
  exact_mod_cast h

/-- C40: the table of MD5 is what RFC 1321 says: `T[i]` is the integer part of 4294967296 times |sin i|. -/
theorem C40_MD5_T (i : Fin 64) : ⌊(4294967296 : ℝ) * |sin ((i.val + 1 : ℕ) : ℝ)|⌋ = (Spec.MD5.T.getD i 0).toNat := by
  have key : ∀ i : Fin 64,
      ((Spec.MD5.T.getD i 0).toNat : Int) * (2 ^ 256 : Nat) ≤
        |(Proof.Sin.sincos (4294967296 * 2 ^ 256) (Proof.Sin.sin1 (4294967296 * 2 ^ 256) 40)
          (Proof.Sin.cos1 (4294967296 * 2 ^ 256) 40) (i.val + 1)).1| - 8 ^ (i.val + 1) * (40 + 1) ∧
      |(Proof.Sin.sincos (4294967296 * 2 ^ 256) (Proof.Sin.sin1 (4294967296 * 2 ^ 256) 40)
          (Proof.Sin.cos1 (4294967296 * 2 ^ 256) 40) (i.val + 1)).1| + 8 ^ (i.val + 1) * (40 + 1) <
        ((Spec.MD5.T.getD i 0).toNat + 1) * (2 ^ 256 : Nat) := by decide +kernel
  have h := Proof.Sin.floor_sin 4294967296 (2 ^ 256) 40 (i.val + 1) 64 (Spec.MD5.T.getD i 0).toNat (by decide)
    (by decide +kernel) (by omega) (by decide +kernel) (key i).1 (key i).2
  exact_mod_cast h

theorem MD5_calls_T : ∀ i : Fin Model.MD5.calls.length, Model.MD5.calls[i].t = Spec.MD5.T.getD i 0 := by
  decide +kernel

/-- C40: the constants in the 64 calls of the code (md5.h:485-551), in program order. -/
theorem C40_MD5_calls : Model.MD5.calls.length = 64 ∧ ∀ (i : Nat) (h : i < Model.MD5.calls.length),
    ((Model.MD5.calls[i].t).toNat : Int) = ⌊(4294967296 : ℝ) * |sin ((i + 1 : ℕ) : ℝ)|⌋ := by
  have e : Model.MD5.calls.length = 64 := by decide +kernel
  refine ⟨e, fun i h => ?_⟩
  rw [C40_MD5_T ⟨i, by omega⟩]
  exact congrArg (fun x : W32 => (x.toNat : Int)) (MD5_calls_T ⟨i, h⟩)

/-- The first 722 digits of pi. -/
def pi722 : Nat := 31415926535897932384626433832795028841971693993751058209749445923078164062862089986280348253421170679821480865132823066470938446095505822317253594081284811174502841027019385211055596446229489549303819644288109756659334461284756482337867831652712019091456485669234603486104543266482133936072602491412737245870066063155881748815209209628292540917153643678925903600113305305488204665213841469519415116094330572703657595919530921861173819326117931051185480744623799627495673518857527248912279381830119491298336733624406566430860213949463952247371907021798609437027705392171762931767523846748184676694051320005681271452635608277857713427577896091736371787214684409012249534301465495853710507922796892589235420199561121290219608

theorem floor_pi722 : ⌊(10 : ℝ) ^ 721 * π⌋ = pi722 := by
  have h := Proof.Pi.floor_pi (10 ^ 721) (10 ^ 20) 540 pi722 (by decide)
    (by decide +kernel) (by decide +kernel) (by decide +kernel)
  exact_mod_cast h

theorem piDigit_eq (k : Nat) (hk : k ≤ 721) : Spec.piDigit k = pi722 / 10 ^ (721 - k) % 10 := by
  unfold Spec.piDigit
  congr 1
  have h := Int.floor_eq_iff.1 floor_pi722
  have e : (10 : ℝ) ^ 721 * π = 10 ^ (721 - k) * (10 ^ k * π) := by
    rw [← mul_assoc, ← pow_add, Nat.sub_add_cancel hk]
  rw [e] at h
  have p : (0 : ℝ) < 10 ^ (721 - k) := by positivity
  have q : (0 : ℝ) ≤ 10 ^ k * π := by positivity
  generalize (10 : ℝ) ^ k * π = x at h q
  generalize hn : pi722 = n at h
  rw [Nat.floor_eq_iff q]
  have d1 : n / 10 ^ (721 - k) * 10 ^ (721 - k) ≤ n := Nat.div_mul_le_self _ _
  have d2 : n + 1 ≤ (n / 10 ^ (721 - k) + 1) * 10 ^ (721 - k) := Nat.lt_mul_of_div_lt (Nat.lt_succ_self _) (by positivity)
  have d1' : ((n / 10 ^ (721 - k) : ℕ) : ℝ) * 10 ^ (721 - k) ≤ n := by exact_mod_cast d1
  have d2' : (n : ℝ) + 1 ≤ ((n / 10 ^ (721 - k) : ℕ) + 1) * 10 ^ (721 - k) := by exact_mod_cast d2
  have h1 : (n : ℝ) ≤ 10 ^ (721 - k) * x := by exact_mod_cast h.1
  have h2 : 10 ^ (721 - k) * x < (n : ℝ) + 1 := by exact_mod_cast h.2
  constructor
  · exact le_of_mul_le_mul_right (by linarith [mul_comm x ((10 : ℝ) ^ (721 - k))]) p
  · exact lt_of_mul_lt_mul_right (by linarith [mul_comm x ((10 : ℝ) ^ (721 - k))]) p.le

/-- C40: the substitution table of MD2 is the permutation that a shuffle driven by the decimal digits of pi
makes (Spec/RealConstants.lean); it uses up 722 digits. -/
theorem C40_MD2_from_pi :
    Spec.shuffle ((List.range 722).map Spec.piDigit) = some (Model.MD2.piSubst.toList.map (·.toNat), []) := by
  have e : (List.range 722).map Spec.piDigit = (List.range 722).map fun k => pi722 / 10 ^ (721 - k) % 10 :=
    List.map_congr_left fun k hk => piDigit_eq k (by have := List.mem_range.1 hk; omega)
  rw [e]
  decide +kernel

end Verif.Props
