import Verif.Proof.CRC32ThreeRun
import Verif.Props.CRC32

/-!
# C54: CRC-32 detects every error of up to three bits in messages of up to 11454 bytes

The bound 91639 is sharp: three flipped bits of which the first is 49961 before the second and the second 41678 before
the third are never detected.
-/

namespace Verif.Proof.CRC32
open Spec Spec.CRC32

theorem first_true (d : List Bool) (k : Nat) (h : d.count true = k + 1) :
    ∃ p d', d = List.replicate p false ++ true :: d' ∧ d'.count true = k := by
  induction d with
  | nil => simp at h
  | cons b d ih =>
    cases b with
    | true => exact ⟨0, d, rfl, by simpa using h⟩
    | false =>
      obtain ⟨p, d', e, hk⟩ := ih (by simpa using h)
      exact ⟨p + 1, d', by rw [e, List.replicate_succ]; rfl, hk⟩

theorem no_true (d : List Bool) (h : d.count true = 0) : d = List.replicate d.length false := by
  induction d with
  | nil => rfl
  | cons b d ih =>
    cases b with
    | true => simp at h
    | false => rw [List.length_cons, List.replicate_succ, ← ih (by simpa using h)]

theorem fold_gap (p : Nat) (d : List Bool) (h : W32) :
    (List.replicate p false ++ true :: d).foldl step h = d.foldl step (z (zn p h ^^^ 1)) := by
  rw [List.foldl_append, fold_zeros, List.foldl_cons, step_eq]; rfl

theorem bits_zeros (n : Nat) : bits (List.replicate n 0) = List.replicate (8 * n) false := by
  induction n with
  | zero => rfl
  | succ n ih =>
    rw [List.replicate_succ, bits_cons, ih, show bits [0] = List.replicate 8 false by decide,
      List.replicate_append_replicate]
    congr 1; omega

theorem one_ne : (1 : W32) ≠ 0 := by decide

/-- Up to three bits in a string of up to 91639 change the register. -/
theorem weight_three (d : List Bool) (hl : d.length ≤ 91639) (h0 : 0 < d.count true) (h3 : d.count true ≤ 3) :
    d.foldl step 0 ≠ 0 := by
  intro he
  obtain ⟨p, d1, rfl, c1⟩ := first_true d (d.count true - 1) (by omega)
  rw [fold_gap, zn_zero, show (0 : W32) ^^^ 1 = 1 from rfl] at he
  by_cases k1 : d1.count true = 0
  · rw [no_true d1 k1, fold_zeros] at he
    exact one_ne (z_ker _ (zn_ker _ _ he))
  obtain ⟨q, d2, rfl, c2⟩ := first_true d1 (d1.count true - 1) (by omega)
  rw [fold_gap] at he
  have hz : ∀ n x, zn n (z x) = zn (n + 1) x := fun n x => rfl
  rw [hz] at he
  simp only [List.length_append, List.length_replicate, List.length_cons] at hl
  by_cases k2 : d2.count true = 0
  · rw [no_true d2 k2, fold_zeros] at he
    exact order (q + 1) (by omega) (by simp only [N]; omega) (xor_eq_zero (z_ker _ (zn_ker _ _ he)))
  obtain ⟨r, d3, rfl, c3⟩ := first_true d2 (d2.count true - 1) (by omega)
  have k3 : d3.count true = 0 := by omega
  rw [fold_gap, no_true d3 k3, fold_zeros] at he
  have h := z_ker _ (zn_ker _ _ he)
  rw [hz, zn_xor, ← zn_add] at h
  simp only [List.length_append, List.length_replicate, List.length_cons] at hl
  refine trinomials (r + 1) (q + 1 + (r + 1)) (by omega) (by omega) (by omega) ?_
  rw [BitVec.xor_comm (zn (r + 1) 1)]
  exact xor_eq_zero h

/-- the difference three flipped bits make -/
theorem three_diff (a b : List Byte) (before m1 m2 after : List Bool) (x y w : Bool)
    (ha : bits a = before ++ x :: m1 ++ y :: m2 ++ w :: after)
    (hb : bits b = before ++ (!x) :: m1 ++ (!y) :: m2 ++ (!w) :: after) :
    crc32 a ^^^ crc32 b =
      zn after.length (z (zn (m1.length + 1 + (m2.length + 1)) 1 ^^^ zn (m2.length + 1) 1 ^^^ 1)) := by
  have hx : ∀ x : Bool, xor x (!x) = true := by decide
  rw [crc_diff a b (by rw [ha, hb]; simp), ha, hb, List.zipWith_append (by simp), List.zipWith_append (by simp),
    List.zipWith_append (by simp), List.zipWith_cons_cons, List.zipWith_cons_cons, List.zipWith_cons_cons, zip_self, zip_self,
    zip_self, zip_self, hx, hx, hx]
  simp only [List.append_assoc, List.cons_append]
  rw [fold_gap, fold_gap, fold_gap, fold_zeros, zn_zero, zn_add, ← zn_xor]
  rfl

theorem trinomial : zn 91639 1 ^^^ zn 41678 1 = 1 := by
  rw [far_bin 91639 (by decide +kernel), far_bin 41678 (by decide +kernel)]
  decide +kernel

end Verif.Proof.CRC32

namespace Verif.Props
open Model Spec

/-- the number of bits in which two messages of one length differ -/
def bitErrors (a b : List Byte) : Nat := (List.zipWith xor (Spec.CRC32.bits a) (Spec.CRC32.bits b)).count true

/-- C54 -/
theorem C54_three_bits (a b : List Byte) (hl : a.length = b.length) (hs : a.length ≤ 11454)
    (h0 : 0 < bitErrors a b) (h3 : bitErrors a b ≤ 3) : CRC32.CRC_32.digest [a] ≠ CRC32.CRC_32.digest [b] := by
  intro he
  have hd := Proof.CRC32.crc_diff a b (by rw [Proof.CRC32.bits_length, Proof.CRC32.bits_length, hl])
  rw [crc_digest_inj he, BitVec.xor_self] at hd
  refine Proof.CRC32.weight_three _ ?_ h0 h3 hd.symm
  rw [List.length_zipWith, Proof.CRC32.bits_length, Proof.CRC32.bits_length]
  omega

/-- C54, for messages of any length: it is the distance from the first to the last of the three bits that counts. -/
theorem C54_three_bits_apart (a b : List Byte) (before m1 m2 after : List Bool) (x y w : Bool)
    (ha : Spec.CRC32.bits a = before ++ x :: m1 ++ y :: m2 ++ w :: after)
    (hb : Spec.CRC32.bits b = before ++ (!x) :: m1 ++ (!y) :: m2 ++ (!w) :: after)
    (hd : m1.length + 1 + (m2.length + 1) < 91639) : CRC32.CRC_32.digest [a] ≠ CRC32.CRC_32.digest [b] := by
  intro he
  have h := Proof.CRC32.three_diff a b before m1 m2 after x y w ha hb
  rw [crc_digest_inj he, BitVec.xor_self] at h
  have h := Proof.CRC32.xor_eq_zero (Proof.CRC32.z_ker _ (Proof.CRC32.zn_ker _ _ h.symm))
  rw [BitVec.xor_comm] at h
  exact Proof.CRC32.trinomials (m2.length + 1) _ (by omega) (by omega) hd h

/-- C54: one bit more, and there are three bits whose flips are never detected. -/
theorem C54_three_bits_limit (a b : List Byte) (before m1 m2 after : List Bool) (x y w : Bool)
    (ha : Spec.CRC32.bits a = before ++ x :: m1 ++ y :: m2 ++ w :: after)
    (hb : Spec.CRC32.bits b = before ++ (!x) :: m1 ++ (!y) :: m2 ++ (!w) :: after)
    (h1 : m1.length + 1 = 49961) (h2 : m2.length + 1 = 41678) :
    CRC32.CRC_32.digest [a] = CRC32.CRC_32.digest [b] := by
  rw [crc_digest, crc_digest, Proof.CRC32.xor_eq_zero (a := Spec.CRC32.crc32 a)]
  rw [Proof.CRC32.three_diff a b before m1 m2 after x y w ha hb, h1, h2, Proof.CRC32.trinomial, BitVec.xor_self,
    show (0#32) = (0 : W32) from rfl, Proof.CRC32.z_zero, Proof.CRC32.zn_zero]

/-! Cases that meet the hypotheses. -/
example : bitErrors [0x00, 0xF0, 0x31] [0x80, 0xF1, 0x30] = 3 := by decide
example : Spec.CRC32.bits [0x81, 0x80] = [] ++ true :: List.replicate 6 false ++ true :: List.replicate 7 false ++ true :: [] := by
  decide
example : Spec.CRC32.bits [0x00, 0x00] = [] ++ (!true) :: List.replicate 6 false ++ (!true) :: List.replicate 7 false ++ (!true) :: [] := by
  decide

/-- Two messages of 11455 bytes that meet the hypotheses of the last theorem, so that the bound on the length in the
first cannot be raised. -/
example : ∃ a b : List Byte, a.length = 11455 ∧ b.length = 11455 ∧ bitErrors a b = 3 ∧
    CRC32.CRC_32.digest [a] = CRC32.CRC_32.digest [b] := by
  have hb : Spec.CRC32.bits (List.replicate 11455 0) =
      [] ++ (!true) :: List.replicate 49960 false ++ (!true) :: List.replicate 41677 false ++ (!true) :: [] := by
    rw [Proof.CRC32.bits_zeros]
    simp only [Bool.not_true, ← List.replicate_succ, List.nil_append, List.replicate_append_replicate,
      show [false] = List.replicate 1 false from rfl]
  have ha : Spec.CRC32.bits ([1] ++ List.replicate 6244 0 ++ ([2] ++ List.replicate 5208 0 ++ [128])) =
      [] ++ true :: List.replicate 49960 false ++ true :: List.replicate 41677 false ++ true :: [] := by
    simp only [Proof.CRC32.bits_append, Proof.CRC32.bits_zeros]
    rw [show Spec.CRC32.bits [1] = true :: List.replicate 7 false by decide,
      show Spec.CRC32.bits [2] = false :: true :: List.replicate 6 false by decide,
      show Spec.CRC32.bits [128] = List.replicate 7 false ++ [true] by decide]
    simp only [List.cons_append, List.nil_append, List.append_assoc, List.cons.injEq, true_and]
    rw [← List.append_assoc (List.replicate 7 false), List.replicate_append_replicate,
      ← List.append_assoc (List.replicate 6 false), List.replicate_append_replicate,
      ← List.append_assoc (List.replicate _ false) (List.replicate 7 false), List.replicate_append_replicate,
      show List.replicate 49960 false = List.replicate 49959 false ++ [false] from List.replicate_succ', List.append_assoc]
    rfl
  refine ⟨_, _, ?_, ?_, ?_, C54_three_bits_limit _ _ [] (List.replicate 49960 false) (List.replicate 41677 false) [] true true true
    ha hb (by rw [List.length_replicate]) (by rw [List.length_replicate])⟩
  · simp only [List.length_append, List.length_replicate, List.length_cons, List.length_nil]
  · rw [List.length_replicate]
  · unfold bitErrors
    rw [ha, hb]
    simp only [List.nil_append, List.cons_append, List.append_assoc, List.zipWith_cons_cons, Bool.not_true, Bool.bne_false]
    rw [List.zipWith_append rfl, Proof.CRC32.zip_self, List.zipWith_cons_cons, List.zipWith_append rfl,
      Proof.CRC32.zip_self]
    simp [List.count_replicate, -List.reduceReplicate]

end Verif.Props
