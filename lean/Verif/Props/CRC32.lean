import Verif.Proof.CRC32
import Verif.Proof.CRC32Order
import Verif.Proof.Num

/-!
# C24, C32, C33, C41 and the CRC part of C40

`Spec/CRC32.lean` is the bit-at-a-time definition; `Props/CRC32Poly.lean` relates it to division of
polynomials over the field of two elements.
-/

namespace Verif.Props
open Model Spec

/-- C24 -/
theorem C24_CRC_32 : CRC32.CRC_32.Computes (fun m => toBE 4 (Spec.CRC32.crc32 m).toNat) :=
  Proof.CRC32.refines.computes

/-- C24, C40: every entry of the sixteen tables. -/
theorem C40_CRC_32_tables (i : Fin 256) :
    CRC32.lut0[i] = Spec.CRC32.table 0 i ∧
    CRC32.lut1[i] = Spec.CRC32.table 1 i ∧
    CRC32.lut2[i] = Spec.CRC32.table 2 i ∧
    CRC32.lut3[i] = Spec.CRC32.table 3 i ∧
    CRC32.lut4[i] = Spec.CRC32.table 4 i ∧
    CRC32.lut5[i] = Spec.CRC32.table 5 i ∧
    CRC32.lut6[i] = Spec.CRC32.table 6 i ∧
    CRC32.lut7[i] = Spec.CRC32.table 7 i ∧
    CRC32.lut8[i] = Spec.CRC32.table 8 i ∧
    CRC32.lut9[i] = Spec.CRC32.table 9 i ∧
    CRC32.lut10[i] = Spec.CRC32.table 10 i ∧
    CRC32.lut11[i] = Spec.CRC32.table 11 i ∧
    CRC32.lut12[i] = Spec.CRC32.table 12 i ∧
    CRC32.lut13[i] = Spec.CRC32.table 13 i ∧
    CRC32.lut14[i] = Spec.CRC32.table 14 i ∧
    CRC32.lut15[i] = Spec.CRC32.table 15 i := by
  have h := Proof.CRC32.table_eq i
  refine ⟨?_, ?_, ?_, ?_, ?_, ?_, ?_, ?_, ?_, ?_, ?_, ?_, ?_, ?_, ?_, ?_⟩
  · rw [Proof.CRC32.lut0_eq, h]
  · rw [Proof.CRC32.lut1_eq, h]
  · rw [Proof.CRC32.lut2_eq, h]
  · rw [Proof.CRC32.lut3_eq, h]
  · rw [Proof.CRC32.lut4_eq, h]
  · rw [Proof.CRC32.lut5_eq, h]
  · rw [Proof.CRC32.lut6_eq, h]
  · rw [Proof.CRC32.lut7_eq, h]
  · rw [Proof.CRC32.lut8_eq, h]
  · rw [Proof.CRC32.lut9_eq, h]
  · rw [Proof.CRC32.lut10_eq, h]
  · rw [Proof.CRC32.lut11_eq, h]
  · rw [Proof.CRC32.lut12_eq, h]
  · rw [Proof.CRC32.lut13_eq, h]
  · rw [Proof.CRC32.lut14_eq, h]
  · rw [Proof.CRC32.lut15_eq, h]

theorem crc_digest (m : List Byte) :
    CRC32.CRC_32.digest [m] = .ok (toBE 4 (Spec.CRC32.crc32 m).toNat) := by
  unfold API.digest
  obtain ⟨o, ho, hf⟩ : ∃ o, CRC32.CRC_32.run CRC32.CRC_32.fresh ([m].map Op.add ++ [Op.finalize]) = .ok o ∧
      o = Spec.CRC32.crc32 m := by
    refine ⟨_, ?_, rfl⟩
    show (do
      let o ← CRC32.addData _ m
      let o ← Except.ok (~~~ o)
      Except.ok o) = _
    rw [Proof.CRC32.addData_eq]
    rfl
  rw [ho]
  exact Proof.CRC32.refines.out o m hf

theorem crc_digest_inj {a b : List Byte} (h : CRC32.CRC_32.digest [a] = CRC32.CRC_32.digest [b]) :
    Spec.CRC32.crc32 a = Spec.CRC32.crc32 b := by
  rw [crc_digest, crc_digest] at h
  exact BitVec.eq_of_toNat_eq (toBE_inj (BitVec.isLt _) (BitVec.isLt _) (Except.ok.inj h))

/-- C32: messages that agree outside a window of at most 32 consecutive bits (in the order of
transmission: least significant bit of each byte first) have different digests, unless they are
equal. -/
theorem C32_burst (a b : List Byte) (before wa wb after : List Bool)
    (ha : Spec.CRC32.bits a = before ++ wa ++ after) (hb : Spec.CRC32.bits b = before ++ wb ++ after)
    (hlen : wa.length = wb.length) (h32 : wa.length ≤ 32) (hne : a ≠ b) :
    CRC32.CRC_32.digest [a] ≠ CRC32.CRC_32.digest [b] := by
  intro he
  have he := crc_digest_inj he
  apply Proof.CRC32.burst a b before wa wb after ha hb hlen h32 ?_ he
  rintro rfl
  exact hne (Proof.CRC32.bits_inj (ha.trans hb.symm))

/-- C32 in bytes: messages that differ only inside four consecutive bytes. -/
theorem C32_four_bytes (before after wa wb : List Byte) (hlen : wa.length = wb.length) (h4 : wa.length ≤ 4)
    (hne : wa ≠ wb) :
    CRC32.CRC_32.digest [before ++ wa ++ after] ≠ CRC32.CRC_32.digest [before ++ wb ++ after] := by
  apply C32_burst _ _ (Spec.CRC32.bits before) (Spec.CRC32.bits wa) (Spec.CRC32.bits wb) (Spec.CRC32.bits after)
  · rw [Proof.CRC32.bits_append, Proof.CRC32.bits_append]
  · rw [Proof.CRC32.bits_append, Proof.CRC32.bits_append]
  · rw [Proof.CRC32.bits_length, Proof.CRC32.bits_length, hlen]
  · rw [Proof.CRC32.bits_length]; omega
  · intro h
    rw [List.append_assoc, List.append_assoc] at h
    exact hne (List.append_inj (List.append_cancel_left h) hlen).1

/-- C33 -/
theorem C33_affine (a b c : List Byte) (h1 : a.length = b.length) (h2 : b.length = c.length) :
    ∃ da db dc, CRC32.CRC_32.digest [a] = .ok da ∧ CRC32.CRC_32.digest [b] = .ok db ∧
      CRC32.CRC_32.digest [c] = .ok dc ∧
      CRC32.CRC_32.digest [List.zipWith (· ^^^ ·) a (List.zipWith (· ^^^ ·) b c)] =
        .ok (List.zipWith (· ^^^ ·) da (List.zipWith (· ^^^ ·) db dc)) := by
  refine ⟨_, _, _, crc_digest a, crc_digest b, crc_digest c, ?_⟩
  rw [crc_digest, Proof.CRC32.affine a b c h1 h2, BitVec.toNat_xor, BitVec.toNat_xor,
    Proof.CRC32.toBE_xor, Proof.CRC32.toBE_xor]

/-- C41: two flipped bits less than 2^32 - 1 bits apart are always detected, ... -/
theorem C41_two_bits (a b : List Byte) (before between after : List Bool) (x y : Bool)
    (ha : Spec.CRC32.bits a = before ++ x :: between ++ y :: after)
    (hb : Spec.CRC32.bits b = before ++ (!x) :: between ++ (!y) :: after)
    (hd : between.length + 1 < 2 ^ 32 - 1) :
    CRC32.CRC_32.digest [a] ≠ CRC32.CRC_32.digest [b] := by
  intro he
  exact Proof.CRC32.two_bits a b before between after x y ha hb hd (crc_digest_inj he)

/-- ... and at distance 2^32 - 1 never. -/
theorem C41_two_bits_limit (a b : List Byte) (before between after : List Bool) (x y : Bool)
    (ha : Spec.CRC32.bits a = before ++ x :: between ++ y :: after)
    (hb : Spec.CRC32.bits b = before ++ (!x) :: between ++ (!y) :: after)
    (hd : between.length + 1 = 2 ^ 32 - 1) :
    CRC32.CRC_32.digest [a] = CRC32.CRC_32.digest [b] := by
  rw [crc_digest, crc_digest, Proof.CRC32.two_bits_limit a b before between after x y ha hb hd]

/-! Cases that meet the hypotheses. -/
example : Spec.CRC32.bits [0x31, 0x80] = [true, false, false] ++ [false, true] ++
    [true, false, false, false, false, false, false, false, false, false, true] := by decide
example : Spec.CRC32.bits [0x01, 0x80] = [] ++ true :: List.replicate 14 false ++ true :: [] := by decide
/-- the check value of the CRC catalogue, for the specification -/
example : Spec.CRC32.crc32 [0x31, 0x32, 0x33, 0x34, 0x35, 0x36, 0x37, 0x38, 0x39] = 0xCBF43926 := by
  decide +kernel

/-- the bits of these two differ in the fifth and sixth place only -/
example : CRC32.CRC_32.digest [[0x31, 0x80]] ≠ CRC32.CRC_32.digest [[0x01, 0x80]] :=
  C32_burst _ _ [true, false, false] [false, true, true] [false, false, false]
    [false, false, false, false, false, false, false, false, false, true] (by decide) (by decide) rfl (by decide) (by decide)
example := C32_four_bytes [9] [8, 8] [1, 2, 3, 4] [1, 2, 3, 5] rfl (by decide) (by decide)
example := C33_affine [1, 2] [3, 4] [5, 6] rfl rfl
example : CRC32.CRC_32.digest [[0x01, 0x80]] ≠ CRC32.CRC_32.digest [[0x00, 0x00]] :=
  C41_two_bits _ _ [] (List.replicate 14 false) [] true true (by decide) (by decide) (by decide)
/-- There are messages with such a distance: 2^29 zero bytes, and the same with the first and the last bit flipped. -/
example : ∃ a b : List Byte, ∃ before between after x y, Spec.CRC32.bits a = before ++ x :: between ++ y :: after ∧
    Spec.CRC32.bits b = before ++ (!x) :: between ++ (!y) :: after ∧ between.length + 1 = 2 ^ 32 - 1 := by
  have bits_rep : ∀ n, Spec.CRC32.bits (List.replicate n 0) = List.replicate (8 * n) false := by
    intro n
    induction n with
    | zero => rfl
    | succ n ih =>
      rw [List.replicate_succ, ← List.singleton_append, Proof.CRC32.bits_append, ih,
        show Spec.CRC32.bits [0] = List.replicate 8 false from rfl, List.replicate_append_replicate]
      congr 1; omega
  have h1 : ∀ (x y : Byte) n, Spec.CRC32.bits (x :: (List.replicate n 0 ++ [y])) =
      Spec.CRC32.bits [x] ++ (List.replicate (8 * n) false ++ Spec.CRC32.bits [y]) := by
    intro x y n
    rw [← List.singleton_append, Proof.CRC32.bits_append, Proof.CRC32.bits_append, bits_rep]
  have key : ∀ n : Nat, ∃ a b : List Byte, ∃ before between after x y, Spec.CRC32.bits a = before ++ x :: between ++ y :: after ∧
      Spec.CRC32.bits b = before ++ (!x) :: between ++ (!y) :: after ∧ between.length = 8 * n + 14 := by
    intro n
    refine ⟨0 :: (List.replicate n 0 ++ [0]), 1 :: (List.replicate n 0 ++ [0x80]), [],
      List.replicate 7 false ++ (List.replicate (8 * n) false ++ List.replicate 7 false), [], false, false, ?_, ?_, ?_⟩
    · rw [h1, show Spec.CRC32.bits [0] = List.replicate 7 false ++ [false] from rfl]
      generalize List.replicate (8 * n) false = z
      rw [show List.replicate 7 false ++ [false] ++ (z ++ (List.replicate 7 false ++ [false])) =
        (false :: List.replicate 7 false) ++ (z ++ (List.replicate 7 false ++ [false])) from rfl]
      simp only [List.nil_append, List.cons_append, List.append_assoc]
    · rw [h1, show Spec.CRC32.bits [1] = true :: List.replicate 7 false from rfl,
        show Spec.CRC32.bits [0x80] = List.replicate 7 false ++ [true] from rfl]
      simp only [List.nil_append, List.cons_append, List.append_assoc, Bool.not_false]
    · simp only [List.length_append, List.length_replicate]; omega
  obtain ⟨a, b, p, z, q, x, y, h, h', l⟩ := key (2 ^ 29 - 2)
  exact ⟨a, b, p, z, q, x, y, h, h', by omega⟩

end Verif.Props
