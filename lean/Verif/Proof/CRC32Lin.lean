import Verif.Core.Basic
import Verif.Spec.CRC32

/-!
# The CRC-32 shift register is linear
-/

namespace Verif.Proof.CRC32
open Spec Spec.CRC32

/-- the register moves on by one zero bit -/
def z (x : W32) : W32 := step x false

/-- and by `n` zero bits -/
def zn : Nat → W32 → W32
  | 0, x => x
  | n + 1, x => zn n (z x)

def bw (b : Bool) : W32 := if b then 1 else 0

theorem z_eq (x : W32) : z x = (x >>> 1) ^^^ (if x.getLsbD 0 then poly else 0) := by
  unfold z step
  cases h : x.getLsbD 0 <;> simp

theorem z_xor (x y : W32) : z (x ^^^ y) = z x ^^^ z y := by
  rw [z_eq, z_eq, z_eq, BitVec.ushiftRight_xor_distrib, BitVec.getLsbD_xor]
  have hc : ∀ a b c d : W32, a ^^^ b ^^^ (c ^^^ d) = a ^^^ c ^^^ (b ^^^ d) := by
    intro a b c d; ac_rfl
  rw [hc]
  congr 1
  cases x.getLsbD 0 <;> cases y.getLsbD 0 <;> simp

theorem z_zero : z 0 = 0 := by decide

theorem step_eq (h : W32) (b : Bool) : step h b = z (h ^^^ bw b) := by
  cases b with
  | false => show z h = z (h ^^^ 0); rw [show h ^^^ (0 : W32) = h from BitVec.xor_zero]
  | true =>
    rw [z_xor, z_eq]
    unfold step
    have : z (bw true) = poly := by decide
    rw [this]
    cases h.getLsbD 0 <;> simp [BitVec.xor_assoc]

theorem zn_xor (n : Nat) (x y : W32) : zn n (x ^^^ y) = zn n x ^^^ zn n y := by
  induction n generalizing x y with
  | zero => rfl
  | succ n ih => show zn n (z (x ^^^ y)) = _; rw [z_xor, ih]; rfl

theorem zn_zero (n : Nat) : zn n 0 = 0 := by
  induction n with
  | zero => rfl
  | succ n ih => show zn n (z 0) = 0; rw [z_zero, ih]

theorem zn_add (m n : Nat) (x : W32) : zn (m + n) x = zn n (zn m x) := by
  induction m generalizing x with
  | zero => rw [Nat.zero_add]; rfl
  | succ m ih => rw [Nat.succ_add]; exact ih (z x)

theorem z_shift (x : W32) (h : x.toNat < 2 ^ 31) : z (x <<< 1) = x := by
  rw [z_eq]
  have h0 : (x <<< 1).getLsbD 0 = false := by simp
  rw [h0]
  apply BitVec.eq_of_toNat_eq
  simp [BitVec.toNat_shiftLeft, Nat.shiftRight_eq_div_pow, Nat.shiftLeft_eq]
  omega

theorem zn_shift (k : Nat) (hk : k ≤ 32) (x : W32) (h : x.toNat < 2 ^ (32 - k)) : zn k (x <<< k) = x := by
  induction k generalizing x with
  | zero => show x <<< 0 = x; simp
  | succ k ih =>
    have h31 : 32 - k = 32 - (k + 1) + 1 := by omega
    have hx : x <<< (k + 1) = x <<< 1 <<< k := by rw [← BitVec.shiftLeft_add, Nat.add_comm]
    rw [hx, zn_add k 1, ih (by omega), show zn 1 (x <<< 1) = z (x <<< 1) from rfl, z_shift x]
    · exact Nat.lt_of_lt_of_le h (Nat.pow_le_pow_right (by decide) (by omega))
    · rw [h31, Nat.pow_succ, BitVec.toNat_shiftLeft, Nat.shiftLeft_eq]
      exact Nat.lt_of_le_of_lt (Nat.mod_le _ _) (by omega)

theorem z_ker (x : W32) (h : z x = 0) : x = 0 := by
  have hb : x.getLsbD 0 = false := by
    cases hx : x.getLsbD 0 with
    | false => rfl
    | true =>
      rw [z_eq, hx] at h
      have h31 := congrArg (·.getLsbD 31) h
      simp [poly] at h31
  rw [z_eq, hb] at h
  have h := congrArg BitVec.toNat h
  have hm : x.toNat % 2 = 0 := by
    have : x.toNat.testBit 0 = false := hb
    rw [Nat.testBit_zero] at this
    have := of_decide_eq_false this
    omega
  simp [Nat.shiftRight_eq_div_pow] at h
  apply BitVec.eq_of_toNat_eq
  show x.toNat = 0
  omega

theorem zn_ker (n : Nat) (x : W32) (h : zn n x = 0) : x = 0 := by
  induction n generalizing x with
  | zero => exact h
  | succ n ih => exact z_ker x (ih _ h)

/-- the word whose bit `i` is the `i`-th bit of the list -/
def W : List Bool → W32
  | [] => 0
  | b :: bs => (W bs <<< 1) ^^^ bw b

theorem bw_lt (b : Bool) : (bw b).toNat < 2 := by cases b <;> decide

theorem W_lt (bs : List Bool) : (W bs).toNat < 2 ^ bs.length := by
  induction bs with
  | nil => decide
  | cons b bs ih =>
    show ((W bs <<< 1) ^^^ bw b).toNat < 2 ^ (bs.length + 1)
    rw [BitVec.toNat_xor]
    apply Nat.xor_lt_two_pow
    · rw [BitVec.toNat_shiftLeft, Nat.shiftLeft_eq, Nat.pow_succ]
      exact Nat.lt_of_le_of_lt (Nat.mod_le _ _) (by omega)
    · have := bw_lt b
      have : 2 ^ 1 ≤ 2 ^ (bs.length + 1) := Nat.pow_le_pow_right (by decide) (by omega)
      omega

/-- Feeding up to 32 bits is the same as adding them to the register and moving on. -/
theorem fold_eq (bs : List Bool) (hl : bs.length ≤ 32) (h : W32) :
    bs.foldl step h = zn bs.length (h ^^^ W bs) := by
  induction bs generalizing h with
  | nil => show h = h ^^^ 0; rw [show h ^^^ (0 : W32) = h from BitVec.xor_zero]
  | cons b bs ih =>
    simp only [List.length_cons] at hl
    rw [List.foldl_cons, ih (by omega)]
    show zn bs.length (step h b ^^^ W bs) = zn bs.length (z (h ^^^ ((W bs <<< 1) ^^^ bw b)))
    rw [step_eq]
    have hlt := W_lt bs
    have : 2 ^ bs.length ≤ 2 ^ 31 := Nat.pow_le_pow_right (by decide) (by omega)
    have e : h ^^^ ((W bs <<< 1) ^^^ bw b) = (h ^^^ bw b) ^^^ (W bs <<< 1) := by ac_rfl
    rw [e, z_xor (h ^^^ bw b), z_shift (W bs) (by omega)]

theorem W_append (a b : List Bool) : W (a ++ b) = W a ^^^ (W b <<< a.length) := by
  induction a with
  | nil => show W b = 0 ^^^ (W b <<< 0); simp
  | cons x a ih =>
    show (W (a ++ b) <<< 1) ^^^ bw x = ((W a <<< 1) ^^^ bw x) ^^^ _
    rw [ih, BitVec.shiftLeft_xor_distrib, ← BitVec.shiftLeft_add]
    show _ = ((W a <<< 1) ^^^ bw x) ^^^ (W b <<< (a.length + 1))
    ac_rfl

/-- nonzero bits, nonzero word -/
theorem W_ne (bs : List Bool) (hl : bs.length ≤ 32) (h : true ∈ bs) : W bs ≠ 0 := by
  intro h0
  induction bs with
  | nil => cases h
  | cons b bs ih =>
    simp only [List.length_cons] at hl
    have hlt := W_lt bs
    have h31 : 2 ^ bs.length ≤ 2 ^ 31 := Nat.pow_le_pow_right (by decide) (by omega)
    have e : z ((W bs <<< 1) ^^^ bw b) = 0 := by
      rw [show (W bs <<< 1) ^^^ bw b = 0 from h0]; decide
    rw [z_xor, z_shift (W bs) (by omega)] at e
    cases b with
    | true =>
      have hz : z (bw true) = poly := by decide
      rw [hz] at e
      have h2 : W bs = poly := by
        have := congrArg (· ^^^ poly) e
        simpa [BitVec.xor_assoc] using this
      rw [h2] at hlt
      have : poly.toNat = 0xEDB88320 := by decide
      omega
    | false =>
      have hz : z (bw false) = 0 := by decide
      rw [hz, show W bs ^^^ (0 : W32) = W bs from BitVec.xor_zero] at e
      exact ih (by omega) (by simpa using h) e

/-- The register's response to the difference of two bit strings. -/
theorem fold_diff (as bs : List Bool) (hl : as.length = bs.length) (g h : W32) :
    as.foldl step g ^^^ bs.foldl step h = (List.zipWith xor as bs).foldl step (g ^^^ h) := by
  induction as generalizing bs g h with
  | nil =>
    cases bs with
    | nil => rfl
    | cons b bs => cases hl
  | cons a as ih =>
    cases bs with
    | nil => cases hl
    | cons b bs =>
      rw [List.zipWith_cons_cons, List.foldl_cons, List.foldl_cons, List.foldl_cons,
        ih bs (by simpa using hl), step_eq, step_eq, step_eq, ← z_xor]
      have : bw (xor a b) = bw a ^^^ bw b := by cases a <;> cases b <;> decide
      rw [this]
      congr 2
      ac_rfl

theorem fold_zeros (n : Nat) (h : W32) : (List.replicate n false).foldl step h = zn n h := by
  induction n generalizing h with
  | zero => rfl
  | succ n ih => rw [List.replicate_succ, List.foldl_cons, ih]; rfl

end Verif.Proof.CRC32
