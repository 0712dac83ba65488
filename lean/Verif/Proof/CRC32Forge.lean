import Verif.Proof.CRC32
import Verif.Proof.CRC32Order
import Verif.Proof.Num

/-! # The CRC-32 register can be steered, and its value combined -/

namespace Verif.Proof.CRC32
open Spec Spec.CRC32

/-- one bit backwards -/
def zinv (y : W32) : W32 := if y.toNat < 2 ^ 31 then y <<< 1 else ((y ^^^ poly) <<< 1) ^^^ 1

theorem poly_toNat : poly.toNat = 0xEDB88320 := by decide

theorem z_zinv (y : W32) : z (zinv y) = y := by
  unfold zinv
  split
  · next h => exact z_shift y h
  · next h =>
    have hlt : (y ^^^ poly).toNat < 2 ^ 31 := by
      have hy : y.msb = true := by rw [BitVec.msb_eq_decide]; simpa using h
      have hm : (y ^^^ poly).msb = false := by rw [BitVec.msb_xor, hy]; decide
      rw [BitVec.msb_eq_decide] at hm
      simpa using hm
    rw [z_xor, z_shift _ hlt, show z 1 = poly by decide, BitVec.xor_assoc, BitVec.xor_self, BitVec.xor_zero]

theorem zn_surj (n : Nat) (y : W32) : ∃ x, zn n x = y := by
  induction n with
  | zero => exact ⟨y, rfl⟩
  | succ n ih =>
    obtain ⟨x, hx⟩ := ih
    exact ⟨zinv x, by show zn n (z (zinv x)) = y; rw [z_zinv, hx]⟩

/-- Whatever is fed, every value of the register is reached from some value. -/
theorem fold_surj (bs : List Bool) (y : W32) : ∃ x, bs.foldl step x = y := by
  induction bs with
  | nil => exact ⟨y, rfl⟩
  | cons b bs ih =>
    obtain ⟨x, hx⟩ := ih
    refine ⟨zinv x ^^^ bw b, ?_⟩
    rw [List.foldl_cons, step_eq, BitVec.xor_assoc, BitVec.xor_self, BitVec.xor_zero, z_zinv, hx]

theorem toLE_four (w : W32) : toLE 4 w.toNat = [ror 8 w 0, ror 8 w 8, ror 8 w 16, ror 8 w 24] := by
  simp only [toLE, List.cons.injEq, and_true]
  refine ⟨?_, ?_, ?_, ?_⟩ <;> apply BitVec.eq_of_toNat_eq <;>
    simp [ror, Nat.shiftRight_eq_div_pow, Nat.div_div_eq_div_mul]

theorem W_toLE (w : W32) : W (bits (toLE 4 w.toNat)) = w := by
  have h := word_bytes w
  rw [toLE_four, W_bytes, W_bytes, W_bytes, W_bytes, show W (bits []) = 0 from rfl]
  generalize ext (ror 8 w 0) = a at *
  generalize ext (ror 8 w 8) = b at *
  generalize ext (ror 8 w 16) = c at *
  generalize ext (ror 8 w 24) = d at *
  rw [h, show d ^^^ ((0 : W32) <<< 8) = d by simp, BitVec.shiftLeft_xor_distrib, BitVec.shiftLeft_xor_distrib,
    BitVec.shiftLeft_xor_distrib, BitVec.shiftLeft_zero, ← BitVec.shiftLeft_add, ← BitVec.shiftLeft_add,
    ← BitVec.shiftLeft_add]
  simp only [Nat.reduceAdd]
  generalize b <<< 8 = b'
  generalize c <<< 16 = c'
  generalize d <<< 24 = d'
  ac_rfl

theorem fold_word (h w : W32) : (bits (toLE 4 w.toNat)).foldl step h = zn 32 (h ^^^ w) := by
  rw [fold_eq _ (by rw [bits_length, toLE_length]), W_toLE, bits_length, toLE_length]

/-- Four bytes between any others reach any value. -/
theorem forge (before after : List Byte) (t : W32) : ∃ w : W32, crc32 (before ++ toLE 4 w.toNat ++ after) = t := by
  obtain ⟨r, hr⟩ := fold_surj (bits after) (~~~ t)
  obtain ⟨x, hx⟩ := zn_surj 32 r
  refine ⟨(bits before).foldl step (BitVec.allOnes 32) ^^^ x, ?_⟩
  unfold crc32
  rw [bits_append, bits_append, List.foldl_append, List.foldl_append, fold_word, ← BitVec.xor_assoc, BitVec.xor_self,
    BitVec.zero_xor, hx, hr, BitVec.not_not]

/-- The register after `m` and its own complement. -/
theorem residue (m : List Byte) : crc32 (m ++ toLE 4 (crc32 m).toNat) = 0x2144DF1C := by
  unfold crc32
  rw [bits_append, List.foldl_append, fold_word]
  generalize (bits m).foldl step (BitVec.allOnes 32) = g
  have : g ^^^ ~~~ g = BitVec.allOnes 32 := by
    rw [← BitVec.xor_allOnes, ← BitVec.xor_assoc, BitVec.xor_self, BitVec.zero_xor]
  rw [this]
  decide +kernel

theorem combine (a b : List Byte) :
    crc32 (a ++ b) = (List.replicate (8 * b.length) false).foldl step (crc32 a) ^^^ crc32 b := by
  unfold crc32
  rw [bits_append, List.foldl_append]
  generalize (bits a).foldl step (BitVec.allOnes 32) = g
  have h := fold_diff (bits b) (bits b) rfl g (BitVec.allOnes 32)
  have hz : List.zipWith xor (bits b) (bits b) = List.replicate (8 * b.length) false := by
    rw [← bits_length b]
    induction bits b with
    | nil => rfl
    | cons x l ih => rw [List.zipWith_cons_cons, ih, Bool.xor_self]; rfl
  rw [hz] at h
  have hn : ∀ x : W32, x ^^^ BitVec.allOnes 32 = ~~~ x := fun x => BitVec.xor_allOnes
  rw [hn] at h
  rw [← h]
  generalize List.foldl step g (bits b) = u
  generalize List.foldl step (BitVec.allOnes 32) (bits b) = v
  rw [← hn u, ← hn v, ← BitVec.xor_assoc]
  have : u ^^^ v ^^^ v = u := by rw [BitVec.xor_assoc, BitVec.xor_self, BitVec.xor_zero]
  rw [this]

end Verif.Proof.CRC32
