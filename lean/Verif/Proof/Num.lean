import Verif.Spec.Bytes

/-!
# Numbers as byte strings: reading back what was written
-/

namespace Verif
open Spec

theorem ofLE_toLE (n x : Nat) : ofLE (toLE n x) = x % 256 ^ n := by
  induction n generalizing x with
  | zero => simp [toLE, ofLE, Nat.mod_one]
  | succ n ih =>
    rw [toLE, ofLE, ih, BitVec.toNat_ofNat]
    show x % 256 + 256 * _ = _
    rw [Nat.pow_succ' (m := 256), Nat.mod_mul]

theorem ofBE_append_one (l : List Byte) (b : Byte) : ofBE (l ++ [b]) = 256 * ofBE l + b.toNat := by
  unfold ofBE; rw [List.foldl_append]; rfl

theorem ofBE_eq (l : List Byte) : ofBE l = ofLE l.reverse := by
  have : ∀ l : List Byte, ofBE l.reverse = ofLE l := by
    intro l
    induction l with
    | nil => rfl
    | cons b l ih => rw [List.reverse_cons, ofBE_append_one, ih, ofLE]; omega
  rw [← this, List.reverse_reverse]

theorem ofBE_toBE (n x : Nat) : ofBE (toBE n x) = x % 256 ^ n := by
  rw [ofBE_eq, toBE, List.reverse_reverse, ofLE_toLE]

theorem toBE_inj {n x y : Nat} (hx : x < 256 ^ n) (hy : y < 256 ^ n) (h : toBE n x = toBE n y) : x = y := by
  have := congrArg ofBE h
  rwa [ofBE_toBE, ofBE_toBE, Nat.mod_eq_of_lt hx, Nat.mod_eq_of_lt hy] at this

end Verif
