import Verif.Proof.CRC32Forge
import Verif.Props.CRC32

/-!
# C46: what a CRC-32 is good for

Four bytes anywhere in a message can be chosen so that the digest becomes any given value, in exactly one way; the
digest of a concatenation is a function of the two digests and the length of the second part; a message followed by
its digest, least significant byte first, always has the same digest.
-/

namespace Verif.Props
open Model Spec

/-- C46: whatever stands before and after, there is exactly one choice of four bytes for each digest. -/
theorem C46_forge (before after d : List Byte) (hd : d.length = 4) :
    ∃ w : List Byte, w.length = 4 ∧ CRC32.CRC_32.digest [before ++ w ++ after] = .ok d ∧
      ∀ w', w'.length = 4 → CRC32.CRC_32.digest [before ++ w' ++ after] = .ok d → w' = w := by
  obtain ⟨t, ht⟩ : ∃ t : BitVec 32, toBE 4 t.toNat = d := by
    refine ⟨BitVec.ofNat 32 (ofBE d), ?_⟩
    match d, hd with
    | [a, b, c, e], _ =>
      have ha := a.isLt; have hb := b.isLt; have hc := c.isLt; have he := e.isLt
      simp only [ofBE, List.foldl_cons, List.foldl_nil, toBE, toLE, List.reverse_cons, List.reverse_nil,
        List.nil_append, List.cons_append, List.cons.injEq, and_true, BitVec.toNat_ofNat]
      refine ⟨?_, ?_, ?_, ?_⟩ <;> apply BitVec.eq_of_toNat_eq <;> rw [BitVec.toNat_ofNat] <;> omega
  obtain ⟨w, hw⟩ := Proof.CRC32.forge before after t
  refine ⟨toLE 4 w.toNat, toLE_length _ _, by rw [crc_digest, hw, ht], fun w' hl hw' => ?_⟩
  by_cases he : w' = toLE 4 w.toNat
  · exact he
  · refine absurd ?_ (C32_four_bytes before after w' (toLE 4 w.toNat) (by rw [hl, toLE_length]) (by omega) he)
    rw [hw', crc_digest, hw, ht]

/-- C46: no digest is impossible. -/
theorem C46_surjective (d : List Byte) (hd : d.length = 4) : ∃ m, CRC32.CRC_32.digest [m] = .ok d := by
  obtain ⟨w, _, h, _⟩ := C46_forge [] [] d hd
  exact ⟨_, h⟩

/-- C46: the digest of a concatenation depends only on the digests of the parts and the length of the second. -/
theorem C46_concat (a a' b b' : List Byte) (ha : CRC32.CRC_32.digest [a] = CRC32.CRC_32.digest [a'])
    (hb : CRC32.CRC_32.digest [b] = CRC32.CRC_32.digest [b']) (hl : b.length = b'.length) :
    CRC32.CRC_32.digest [a ++ b] = CRC32.CRC_32.digest [a' ++ b'] := by
  rw [crc_digest, crc_digest, Proof.CRC32.combine, Proof.CRC32.combine, crc_digest_inj ha, crc_digest_inj hb, hl]

/-- C46: how: the first digest goes on through as many zero bits as the second part has, the second is added. -/
theorem C46_combine (a b : List Byte) : Spec.CRC32.crc32 (a ++ b) =
    (List.replicate (8 * b.length) false).foldl Spec.CRC32.step (Spec.CRC32.crc32 a) ^^^ Spec.CRC32.crc32 b :=
  Proof.CRC32.combine a b

/-- C46: the residue. `toArray` is the digest most significant byte first, so it is appended reversed. -/
theorem C46_residue (m d : List Byte) (h : CRC32.CRC_32.digest [m] = .ok d) :
    CRC32.CRC_32.digest [m ++ d.reverse] = .ok [0x21, 0x44, 0xDF, 0x1C] := by
  rw [crc_digest] at h
  obtain rfl := Except.ok.inj h
  unfold toBE
  rw [List.reverse_reverse, crc_digest, Proof.CRC32.residue]
  decide

/-! Cases that meet the hypotheses. -/
example : (CRC32.CRC_32.digest [[0x31, 0x32, 0x33]]).toOption = some [0x88, 0x48, 0x63, 0xD2] := by decide +kernel
example : ∃ w : List Byte, w.length = 4 ∧ CRC32.CRC_32.digest [[1, 2] ++ w ++ [3]] = .ok [0xDE, 0xAD, 0xBE, 0xEF] :=
  let ⟨w, h, e, _⟩ := C46_forge [1, 2] [3] [0xDE, 0xAD, 0xBE, 0xEF] rfl
  ⟨w, h, e⟩

/-- Two different messages of equal length and digest, and so two concatenations. -/
example : ∃ w : List Byte, [1, 2, 3, 4, 5] ≠ [9] ++ w ∧
    CRC32.CRC_32.digest [[1, 2, 3, 4, 5] ++ [7]] = CRC32.CRC_32.digest [([9] ++ w) ++ [7]] := by
  obtain ⟨w, _, h, _⟩ := C46_forge [9] [] (toBE 4 (Spec.CRC32.crc32 [1, 2, 3, 4, 5]).toNat) (by simp [toBE, toLE_length])
  rw [List.append_nil] at h
  exact ⟨w, by simp, C46_concat _ _ [7] [7] ((crc_digest _).trans h.symm) rfl rfl⟩

end Verif.Props
