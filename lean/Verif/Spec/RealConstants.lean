import Mathlib.Analysis.SpecialFunctions.Pow.Real
import Mathlib.Analysis.Real.Pi.Bounds

/-!
# The real numbers from which the standards take constants
-/

namespace Verif.Spec
open Real

/-- the `k`-th root of `p`, a real number -/
noncomputable def root (k p : Nat) : ℝ := (p : ℝ) ^ (1 / (k : ℝ))

/-- the first `w` bits of the fractional part of the `k`-th root of `p`, as a number -/
noncomputable def rootFraction (k w p : Nat) : Int := ⌊(2 : ℝ) ^ w * Int.fract (root k p)⌋

/-- the integer part of 2^30 times the `k`-th root of `p` -/
noncomputable def root30 (k p : Nat) : Int := ⌊(2 : ℝ) ^ 30 * root k p⌋

/-- the `k`-th decimal digit of pi; the 0th is 3 -/
noncomputable def piDigit (k : Nat) : Nat := ⌊(10 : ℝ) ^ k * π⌋₊ % 10

/-! ## The construction of the MD2 permutation from a sequence of decimal digits

A shuffle in which the `i`th element changes places with one of the first `i`, chosen by the next
digits. -/

/-- A number below `n` from the next digits: 1 digit is read if `n` is at most 10, 2 if it is at most 100,
otherwise 3; the number read is rejected, and the next one is tried, if it is not below the largest multiple
of `n`. The result comes with the digits left over. -/
def draw (n : Nat) : Nat → List Nat → Option (Nat × List Nat)
  | 0, _ => none
  | tries + 1, digits =>
    let k := if n ≤ 10 then 1 else if n ≤ 100 then 2 else 3
    if digits.length < k then none
    else
      let x := (digits.take k).foldl (fun a d => 10 * a + d) 0
      if x < n * (10 ^ k / n) then some (x % n, digits.drop k) else draw n tries (digits.drop k)

/-- steps `i = 2, 3, .., 256` on the table 0, 1, .., 255 -/
def shuffle (digits : List Nat) : Option (List Nat × List Nat) :=
  ((List.range 255).map (· + 2)).foldlM (fun s i => do
    let (j, rest) ← draw i s.2.length s.2
    return ((s.1.set j (s.1.getD (i - 1) 0)).set (i - 1) (s.1.getD j 0), rest)) (List.range 256, digits)

end Verif.Spec
