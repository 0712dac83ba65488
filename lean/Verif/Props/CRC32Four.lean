import Verif.Proof.CRC32Logs
import Verif.Proof.CRC32FiveRun
import Verif.Props.CRC32Three

/-!
# C65: CRC-32 detects every error of up to four bits in messages of up to 375 bytes, and of up to five bits in messages of up to 37 bytes

Both bounds are sharp: flipped bits 140, 651 and 2215 apart, and flipped bits 145, 38, 28 and 89 apart, are never detected.
-/

namespace Verif.Proof.CRC32
open Spec Spec.CRC32

theorem zn_z (n : Nat) (x : W32) : zn n (z x) = zn (n + 1) x := rfl

/-- Up to four bits in a string of up to 3006 change the register. -/
theorem weight_four (d : List Bool) (hl : d.length ≤ 3006) (h0 : 0 < d.count true) (h4 : d.count true ≤ 4) :
    d.foldl step 0 ≠ 0 := by
  by_cases h3 : d.count true ≤ 3
  · exact weight_three d (by omega) h0 h3
  intro he
  obtain ⟨p, d1, rfl, c1⟩ := first_true d 3 (by omega)
  obtain ⟨q, d2, rfl, c2⟩ := first_true d1 2 (by omega)
  obtain ⟨r, d3, rfl, c3⟩ := first_true d2 1 (by omega)
  obtain ⟨s, d4, rfl, c4⟩ := first_true d3 0 (by omega)
  simp only [List.length_append, List.length_replicate, List.length_cons] at hl
  rw [fold_gap, zn_zero, show (0 : W32) ^^^ 1 = 1 from rfl, fold_gap, fold_gap, fold_gap, no_true d4 c4, fold_zeros] at he
  have h := z_ker _ (zn_ker _ _ he)
  simp only [zn_z, zn_xor, ← zn_add] at h
  refine quadrinomials (q + 1) (r + 1) (s + 1) (by omega) (by omega) (by omega) (by omega) ?_
  apply xor_eq_zero
  rw [← h, BitVec.xor_assoc, BitVec.xor_assoc, BitVec.xor_assoc, Nat.add_assoc (q + 1)]

/-- Up to five bits in a string of up to 300 change the register. -/
theorem weight_five (d : List Bool) (hl : d.length ≤ 300) (h0 : 0 < d.count true) (h5 : d.count true ≤ 5) :
    d.foldl step 0 ≠ 0 := by
  by_cases h4 : d.count true ≤ 4
  · exact weight_four d (by omega) h0 h4
  intro he
  obtain ⟨p, d1, rfl, c1⟩ := first_true d 4 (by omega)
  obtain ⟨q, d2, rfl, c2⟩ := first_true d1 3 (by omega)
  obtain ⟨r, d3, rfl, c3⟩ := first_true d2 2 (by omega)
  obtain ⟨s, d4, rfl, c4⟩ := first_true d3 1 (by omega)
  obtain ⟨t, d5, rfl, c5⟩ := first_true d4 0 (by omega)
  simp only [List.length_append, List.length_replicate, List.length_cons] at hl
  rw [fold_gap, zn_zero, show (0 : W32) ^^^ 1 = 1 from rfl, fold_gap, fold_gap, fold_gap, fold_gap, no_true d5 c5,
    fold_zeros] at he
  have h := z_ker _ (zn_ker _ _ he)
  simp only [zn_z, zn_xor, ← zn_add] at h
  refine quinquenomials (r + 1 + (s + 1) + (t + 1)) (q + 1 + (r + 1) + (s + 1) + (t + 1)) (t + 1) (s + 1 + (t + 1)) (by omega)
    (by omega) (by omega) (by omega) (by omega) (by omega) ?_
  apply xor_eq_zero
  rw [← h]
  simp only [BitVec.xor_assoc]

theorem quadrinomial : zn 3006 1 ^^^ zn 2866 1 ^^^ zn 2215 1 ^^^ 1 = 0 := by
  rw [far_bin 3006 (by decide +kernel), far_bin 2866 (by decide +kernel), far_bin 2215 (by decide +kernel)]
  decide +kernel

theorem quinquenomial : zn 300 1 ^^^ zn 155 1 ^^^ zn 117 1 ^^^ zn 89 1 ^^^ 1 = 0 := by
  decide +kernel

/-- what four flipped bits leave in the register -/
theorem four_sum (a b c : Nat) : zn c (z (zn b (z (zn a (z 1) ^^^ 1)) ^^^ 1)) =
    zn (a + 1 + (b + 1) + (c + 1)) 1 ^^^ zn (b + 1 + (c + 1)) 1 ^^^ zn (c + 1) 1 := by
  simp only [zn_z, zn_xor, ← zn_add]

/-- the difference in the digests, given the bits that differ -/
theorem same_crc (a b : List Byte) (hl : a.length = b.length)
    (h : (List.zipWith xor (bits a) (bits b)).foldl step 0 = 0) : crc32 a = crc32 b := by
  apply xor_eq_zero
  rw [crc_diff a b (by rw [bits_length, bits_length, hl]), h]

end Verif.Proof.CRC32

namespace Verif.Props
open Model Spec

/-- C65 -/
theorem C65_four_bits (a b : List Byte) (hl : a.length = b.length) (hs : a.length ≤ 375)
    (h0 : 0 < bitErrors a b) (h4 : bitErrors a b ≤ 4) : CRC32.CRC_32.digest [a] ≠ CRC32.CRC_32.digest [b] := by
  intro he
  have hd := Proof.CRC32.crc_diff a b (by rw [Proof.CRC32.bits_length, Proof.CRC32.bits_length, hl])
  rw [crc_digest_inj he, BitVec.xor_self] at hd
  refine Proof.CRC32.weight_four _ ?_ h0 h4 hd.symm
  rw [List.length_zipWith, Proof.CRC32.bits_length, Proof.CRC32.bits_length]
  omega

/-- C65 -/
theorem C65_five_bits (a b : List Byte) (hl : a.length = b.length) (hs : a.length ≤ 37)
    (h0 : 0 < bitErrors a b) (h5 : bitErrors a b ≤ 5) : CRC32.CRC_32.digest [a] ≠ CRC32.CRC_32.digest [b] := by
  intro he
  have hd := Proof.CRC32.crc_diff a b (by rw [Proof.CRC32.bits_length, Proof.CRC32.bits_length, hl])
  rw [crc_digest_inj he, BitVec.xor_self] at hd
  refine Proof.CRC32.weight_five _ ?_ h0 h5 hd.symm
  rw [List.length_zipWith, Proof.CRC32.bits_length, Proof.CRC32.bits_length]
  omega

/-- C65, for messages of any length: it is the part with the differing bits that counts. -/
theorem C65_bits_apart (a b : List Byte) (before wa wb after : List Bool)
    (ha : Spec.CRC32.bits a = before ++ wa ++ after) (hb : Spec.CRC32.bits b = before ++ wb ++ after)
    (hlen : wa.length = wb.length) (h0 : 0 < bitErrors a b)
    (h : wa.length ≤ 3006 ∧ bitErrors a b ≤ 4 ∨ wa.length ≤ 300 ∧ bitErrors a b ≤ 5) :
    CRC32.CRC_32.digest [a] ≠ CRC32.CRC_32.digest [b] := by
  intro he
  have hd := Proof.CRC32.crc_diff a b (by rw [ha, hb]; simp [hlen])
  have e : List.zipWith xor (Spec.CRC32.bits a) (Spec.CRC32.bits b) =
      List.replicate before.length false ++ List.zipWith xor wa wb ++ List.replicate after.length false := by
    rw [ha, hb, List.append_assoc, List.append_assoc, List.zipWith_append (by simp), List.zipWith_append hlen,
      Proof.CRC32.zip_self, Proof.CRC32.zip_self, List.append_assoc]
  have hc : bitErrors a b = (List.zipWith xor wa wb).count true := by
    unfold bitErrors
    rw [e]
    simp [List.count_append, List.count_replicate]
  rw [crc_digest_inj he, BitVec.xor_self, e, List.foldl_append, List.foldl_append, Proof.CRC32.fold_zeros,
    Proof.CRC32.fold_zeros, Proof.CRC32.zn_zero] at hd
  have hz := Proof.CRC32.zn_ker _ _ hd.symm
  rw [hc] at h0 h
  have hw : (List.zipWith xor wa wb).length = wa.length := by rw [List.length_zipWith, hlen, Nat.min_self]
  rcases h with ⟨h1, h2⟩ | ⟨h1, h2⟩
  · exact Proof.CRC32.weight_four _ (by omega) h0 h2 hz
  · exact Proof.CRC32.weight_five _ (by omega) h0 h2 hz

/-- C65: one bit more, and there are four bits whose flips are never detected. -/
theorem C65_four_bits_limit (a b : List Byte) (hl : a.length = b.length) (p q : Nat)
    (h : List.zipWith xor (Spec.CRC32.bits a) (Spec.CRC32.bits b) =
      List.replicate p false ++ true :: (List.replicate 139 false ++ true :: (List.replicate 650 false ++
        true :: (List.replicate 2214 false ++ true :: List.replicate q false)))) :
    CRC32.CRC_32.digest [a] = CRC32.CRC_32.digest [b] := by
  rw [crc_digest, crc_digest, Proof.CRC32.same_crc a b hl]
  rw [h, Proof.CRC32.fold_gap, Proof.CRC32.zn_zero, show (0 : W32) ^^^ 1 = 1 from rfl, Proof.CRC32.fold_gap,
    Proof.CRC32.fold_gap, Proof.CRC32.fold_gap, Proof.CRC32.fold_zeros]
  rw [Proof.CRC32.four_sum, show 139 + 1 + (650 + 1) + (2214 + 1) = 3006 by decide, show 650 + 1 + (2214 + 1) = 2866 by decide,
    show 2214 + 1 = 2215 by decide, Proof.CRC32.quadrinomial, Proof.CRC32.z_zero, Proof.CRC32.zn_zero]

/-- C65: one bit more, and there are five bits whose flips are never detected. -/
theorem C65_five_bits_limit (a b : List Byte) (hl : a.length = b.length) (p q : Nat)
    (h : List.zipWith xor (Spec.CRC32.bits a) (Spec.CRC32.bits b) =
      List.replicate p false ++ true :: (List.replicate 144 false ++ true :: (List.replicate 37 false ++
        true :: (List.replicate 27 false ++ true :: (List.replicate 88 false ++ true :: List.replicate q false))))) :
    CRC32.CRC_32.digest [a] = CRC32.CRC_32.digest [b] := by
  rw [crc_digest, crc_digest, Proof.CRC32.same_crc a b hl]
  rw [h, Proof.CRC32.fold_gap, Proof.CRC32.zn_zero, show (0 : W32) ^^^ 1 = 1 from rfl, Proof.CRC32.fold_gap,
    Proof.CRC32.fold_gap, Proof.CRC32.fold_gap, Proof.CRC32.fold_gap, Proof.CRC32.fold_zeros]
  have hq := Proof.CRC32.quinquenomial
  have e : Proof.CRC32.zn 88 (Proof.CRC32.z (Proof.CRC32.zn 27 (Proof.CRC32.z (Proof.CRC32.zn 37 (Proof.CRC32.z
      (Proof.CRC32.zn 144 (Proof.CRC32.z 1) ^^^ 1)) ^^^ 1)) ^^^ 1))
      = Proof.CRC32.zn 300 1 ^^^ Proof.CRC32.zn 155 1 ^^^ Proof.CRC32.zn 117 1 ^^^ Proof.CRC32.zn 89 1 := by
    simp only [Proof.CRC32.zn_z, Proof.CRC32.zn_xor, ← Proof.CRC32.zn_add]
  rw [e, hq, Proof.CRC32.z_zero, Proof.CRC32.zn_zero]

/-! Cases that meet the hypotheses. -/
example : bitErrors [0x00, 0xF0, 0x31] [0x80, 0xF1, 0x32] = 4 := by decide
example : bitErrors [0x00, 0xF0, 0x31] [0x80, 0xF1, 0xB2] = 5 := by decide
example : ∃ before wa wb after, Spec.CRC32.bits [0xFF, 0x81, 0x80, 0x55] = before ++ wa ++ after ∧
    Spec.CRC32.bits [0xFF, 0x00, 0x01, 0x55] = before ++ wb ++ after ∧ wa.length = wb.length ∧ wa.length ≤ 300 ∧
    bitErrors [0xFF, 0x81, 0x80, 0x55] [0xFF, 0x00, 0x01, 0x55] = 4 :=
  ⟨Spec.CRC32.bits [0xFF], Spec.CRC32.bits [0x81, 0x80], Spec.CRC32.bits [0x00, 0x01], Spec.CRC32.bits [0x55], by decide⟩

/-- Two messages of 376 bytes, so that the bound on the length in `C65_four_bits` cannot be raised. -/
example : ∃ a b : List Byte, a.length = 376 ∧ b.length = 376 ∧ bitErrors a b = 4 ∧
    CRC32.CRC_32.digest [a] = CRC32.CRC_32.digest [b] := by
  have h : List.zipWith xor (Spec.CRC32.bits ([1] ++ List.replicate 16 0 ++ ([0x10] ++ List.replicate 80 0 ++
        ([0x80] ++ List.replicate 276 0 ++ [0x40])))) (Spec.CRC32.bits (List.replicate 376 0)) =
      List.replicate 0 false ++ true :: (List.replicate 139 false ++ true :: (List.replicate 650 false ++
        true :: (List.replicate 2214 false ++ true :: List.replicate 1 false))) := by decide +kernel
  refine ⟨_, _, ?_, ?_, ?_, C65_four_bits_limit _ _ ?_ 0 1 h⟩
  · decide +kernel
  · decide +kernel
  · unfold bitErrors; rw [h]; decide +kernel
  · decide +kernel

/-- Two messages of 38 bytes, so that the bound on the length in `C65_five_bits` cannot be raised. -/
example : ∃ a b : List Byte, a.length = 38 ∧ b.length = 38 ∧ bitErrors a b = 5 ∧
    CRC32.CRC_32.digest [a] = CRC32.CRC_32.digest [b] := by
  have h : List.zipWith xor (Spec.CRC32.bits ([1] ++ List.replicate 17 0 ++ [0x02] ++ List.replicate 3 0 ++ [0x80, 0, 0, 0, 0x08] ++
        List.replicate 10 0 ++ [0x10])) (Spec.CRC32.bits (List.replicate 38 0)) =
      List.replicate 0 false ++ true :: (List.replicate 144 false ++ true :: (List.replicate 37 false ++
        true :: (List.replicate 27 false ++ true :: (List.replicate 88 false ++ true :: List.replicate 3 false)))) := by decide +kernel
  refine ⟨_, _, ?_, ?_, ?_, C65_five_bits_limit _ _ ?_ 0 3 h⟩
  · decide +kernel
  · decide +kernel
  · unfold bitErrors; rw [h]; decide +kernel
  · decide +kernel

end Verif.Props
