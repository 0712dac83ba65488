import Verif.Proof.Render
import Verif.Props.Streaming
import Verif.Props.FNV
import Verif.Props.CShake

/-!
# C04 (hexadecimal text) and C05 (integer conversion), class by class

Generated by tools/gen_equality.py. `HexFaithful` and `IntFaithful` are defined in Core/Render.lean,
`hex` in Spec/Hex.lean, `ofBE` in Spec/Bytes.lean.
-/

namespace Verif.Props
open Model

/-- C04: the text has two characters per byte. -/
theorem C04_length (d : List Byte) : (Spec.hex d).length = 2 * d.length := Proof.Render.hex_length d

/-- C04: the text determines the digest. -/
theorem C04_injective (d e : List Byte) (h : Spec.hex d = Spec.hex e) : d = e := Proof.Render.hex_inj h

/-- C04: all characters are decimal digits or lower-case letters up to f. -/
theorem C04_alphabet (d : List Byte) (c : Char) (h : c ∈ Spec.hex d) : c ∈ "0123456789abcdef".toList := by
  simp only [Spec.hex, List.mem_flatMap, List.mem_cons, List.not_mem_nil, or_false] at h
  obtain ⟨b, _, h⟩ := h
  have key : ∀ n : Fin 16, Spec.hexDigit n.val ∈ "0123456789abcdef".toList := by decide
  have hb := b.isLt
  rcases h with h | h
  · rw [h]; exact key ⟨b.toNat / 16, by omega⟩
  · rw [h]; exact key ⟨b.toNat % 16, by omega⟩

/-- C04 fails for an extendable-output object with requested length 0: the constructors accept it, and
`toString` takes `front()` of an empty string. -/
theorem C04_SHAKE_128_zero_fails : (SHA3.SHAKE_128 0).digest [] = .ok [] ∧
    ∃ o, (SHA3.SHAKE_128 0).run (SHA3.SHAKE_128 0).fresh [.finalize] = .ok o ∧
      (SHA3.SHAKE_128 0).toString o = .error .emptyFront := by
  obtain ⟨o, d, e, ed, hd⟩ := C37_SHAKE_128 0 [] (by decide)
  have hd : d = [] := List.length_eq_zero_iff.1 hd
  subst hd
  refine ⟨?_, o, e, ?_⟩
  · unfold API.digest
    rw [List.map_nil, e]
    exact ed
  · simp only [API.toString, ed, bind, Except.bind]
    exact Proof.Render.renderHex_nil

theorem C04_SHAKE_256_zero_fails : (SHA3.SHAKE_256 0).digest [] = .ok [] ∧
    ∃ o, (SHA3.SHAKE_256 0).run (SHA3.SHAKE_256 0).fresh [.finalize] = .ok o ∧
      (SHA3.SHAKE_256 0).toString o = .error .emptyFront := by
  obtain ⟨o, d, e, ed, hd⟩ := C37_SHAKE_256 0 [] (by decide)
  have hd : d = [] := List.length_eq_zero_iff.1 hd
  subst hd
  refine ⟨?_, o, e, ?_⟩
  · unfold API.digest
    rw [List.map_nil, e]
    exact ed
  · simp only [API.toString, ed, bind, Except.bind]
    exact Proof.Render.renderHex_nil

theorem C04_SHA1 : SHA1.SHA1.HexFaithful := Proof.Render.hexFaithful (C37_SHA1) (by decide)
theorem C04_SHA2_224 : SHA2.SHA2_224.HexFaithful := Proof.Render.hexFaithful (C37_SHA2_224) (by decide)
theorem C04_SHA2_256 : SHA2.SHA2_256.HexFaithful := Proof.Render.hexFaithful (C37_SHA2_256) (by decide)
theorem C04_SHA2_384 : SHA2.SHA2_384.HexFaithful := Proof.Render.hexFaithful (C37_SHA2_384) (by decide)
theorem C04_SHA2_512 : SHA2.SHA2_512.HexFaithful := Proof.Render.hexFaithful (C37_SHA2_512) (by decide)
theorem C04_SHA2_512_224 : SHA2.SHA2_512_224.HexFaithful := Proof.Render.hexFaithful (C37_SHA2_512_224) (by decide)
theorem C04_SHA2_512_256 : SHA2.SHA2_512_256.HexFaithful := Proof.Render.hexFaithful (C37_SHA2_512_256) (by decide)
theorem C04_MD4 : MD4.MD4.HexFaithful := Proof.Render.hexFaithful (C37_MD4) (by decide)
theorem C04_MD5 : MD5.MD5.HexFaithful := Proof.Render.hexFaithful (C37_MD5) (by decide)
theorem C04_RIPEMD_128 : RIPEMD.RIPEMD_128.HexFaithful := Proof.Render.hexFaithful (C37_RIPEMD_128) (by decide)
theorem C04_RIPEMD_160 : RIPEMD.RIPEMD_160.HexFaithful := Proof.Render.hexFaithful (C37_RIPEMD_160) (by decide)
theorem C04_RIPEMD_256 : RIPEMD.RIPEMD_256.HexFaithful := Proof.Render.hexFaithful (C37_RIPEMD_256) (by decide)
theorem C04_RIPEMD_320 : RIPEMD.RIPEMD_320.HexFaithful := Proof.Render.hexFaithful (C37_RIPEMD_320) (by decide)
theorem C04_HAS_160 : HAS160.HAS_160.HexFaithful := Proof.Render.hexFaithful (C37_HAS_160) (by decide)
theorem C04_SM3 : SM3.SM3.HexFaithful := Proof.Render.hexFaithful (C37_SM3) (by decide)
theorem C04_Tiger1_192 : Tiger.Tiger1_192.HexFaithful := Proof.Render.hexFaithful (C37_Tiger1_192) (by decide)
theorem C04_Tiger2_192 : Tiger.Tiger2_192.HexFaithful := Proof.Render.hexFaithful (C37_Tiger2_192) (by decide)
theorem C04_Whirlpool : Whirlpool.Whirlpool.HexFaithful := Proof.Render.hexFaithful (C37_Whirlpool) (by decide)
theorem C04_SHA3_224 : SHA3.SHA3_224.HexFaithful := Proof.Render.hexFaithful (C37_SHA3_224) (by decide)
theorem C04_SHA3_256 : SHA3.SHA3_256.HexFaithful := Proof.Render.hexFaithful (C37_SHA3_256) (by decide)
theorem C04_SHA3_384 : SHA3.SHA3_384.HexFaithful := Proof.Render.hexFaithful (C37_SHA3_384) (by decide)
theorem C04_SHA3_512 : SHA3.SHA3_512.HexFaithful := Proof.Render.hexFaithful (C37_SHA3_512) (by decide)
theorem C04_SHAKE_128 (d : Nat) (hd : 0 < d) : (SHA3.SHAKE_128 d).HexFaithful := Proof.Render.hexFaithful (C37_SHAKE_128 d) hd
theorem C04_SHAKE_256 (d : Nat) (hd : 0 < d) : (SHA3.SHAKE_256 d).HexFaithful := Proof.Render.hexFaithful (C37_SHAKE_256 d) hd
theorem C04_MD2 : MD2.MD2.HexFaithful := Proof.Render.hexFaithful (C37_MD2) (by decide)
theorem C04_Blake1_224 : BLAKE.Blake1_224.HexFaithful := Proof.Render.hexFaithful (C37_Blake1_224) (by decide)
theorem C04_Blake1_256 : BLAKE.Blake1_256.HexFaithful := Proof.Render.hexFaithful (C37_Blake1_256) (by decide)
theorem C04_Blake1_384 : BLAKE.Blake1_384.HexFaithful := Proof.Render.hexFaithful (C37_Blake1_384) (by decide)
theorem C04_Blake1_512 : BLAKE.Blake1_512.HexFaithful := Proof.Render.hexFaithful (C37_Blake1_512) (by decide)
theorem C04_Blake2 : BLAKE2.Blake2.HexFaithful := Proof.Render.hexFaithful (C37_Blake2) (by decide)
theorem C04_Blake2s : BLAKE2.Blake2s.HexFaithful := Proof.Render.hexFaithful (C37_Blake2s) (by decide)
theorem C04_SipHash (C D : Nat) (key : Block 16) : (SipHash.SipHashCD C D key).HexFaithful := Proof.Render.hexFaithful (C37_SipHash C D key) (by decide)
theorem C04_FNV32_1 : FNV.FNV32_1.HexFaithful := Proof.Render.hexFaithful (C37_FNV32_1) (by decide)
theorem C04_FNV32_1a : FNV.FNV32_1a.HexFaithful := Proof.Render.hexFaithful (C37_FNV32_1a) (by decide)
theorem C04_FNV64_1 : FNV.FNV64_1.HexFaithful := Proof.Render.hexFaithful (C37_FNV64_1) (by decide)
theorem C04_FNV64_1a : FNV.FNV64_1a.HexFaithful := Proof.Render.hexFaithful (C37_FNV64_1a) (by decide)
theorem C04_CRC_32 : CRC32.CRC_32.HexFaithful := Proof.Render.hexFaithful (C37_CRC_32) (by decide)
theorem C04_FNV32_0 : FNV.FNV32_0.HexFaithful := Proof.Render.hexFaithful (C37_FNV32_0) (by decide)
theorem C04_FNV64_0 : FNV.FNV64_0.HexFaithful := Proof.Render.hexFaithful (C37_FNV64_0) (by decide)

theorem C05_SHA1 : SHA1.SHA1.IntFaithful := Proof.Render.intFaithful (C37_SHA1)
theorem C05_SHA2_224 : SHA2.SHA2_224.IntFaithful := Proof.Render.intFaithful (C37_SHA2_224)
theorem C05_SHA2_256 : SHA2.SHA2_256.IntFaithful := Proof.Render.intFaithful (C37_SHA2_256)
theorem C05_SHA2_384 : SHA2.SHA2_384.IntFaithful := Proof.Render.intFaithful (C37_SHA2_384)
theorem C05_SHA2_512 : SHA2.SHA2_512.IntFaithful := Proof.Render.intFaithful (C37_SHA2_512)
theorem C05_SHA2_512_224 : SHA2.SHA2_512_224.IntFaithful := Proof.Render.intFaithful (C37_SHA2_512_224)
theorem C05_SHA2_512_256 : SHA2.SHA2_512_256.IntFaithful := Proof.Render.intFaithful (C37_SHA2_512_256)
theorem C05_MD4 : MD4.MD4.IntFaithful := Proof.Render.intFaithful (C37_MD4)
theorem C05_MD5 : MD5.MD5.IntFaithful := Proof.Render.intFaithful (C37_MD5)
theorem C05_RIPEMD_128 : RIPEMD.RIPEMD_128.IntFaithful := Proof.Render.intFaithful (C37_RIPEMD_128)
theorem C05_RIPEMD_160 : RIPEMD.RIPEMD_160.IntFaithful := Proof.Render.intFaithful (C37_RIPEMD_160)
theorem C05_RIPEMD_256 : RIPEMD.RIPEMD_256.IntFaithful := Proof.Render.intFaithful (C37_RIPEMD_256)
theorem C05_RIPEMD_320 : RIPEMD.RIPEMD_320.IntFaithful := Proof.Render.intFaithful (C37_RIPEMD_320)
theorem C05_HAS_160 : HAS160.HAS_160.IntFaithful := Proof.Render.intFaithful (C37_HAS_160)
theorem C05_SM3 : SM3.SM3.IntFaithful := Proof.Render.intFaithful (C37_SM3)
theorem C05_Tiger1_192 : Tiger.Tiger1_192.IntFaithful := Proof.Render.intFaithful (C37_Tiger1_192)
theorem C05_Tiger2_192 : Tiger.Tiger2_192.IntFaithful := Proof.Render.intFaithful (C37_Tiger2_192)
theorem C05_Whirlpool : Whirlpool.Whirlpool.IntFaithful := Proof.Render.intFaithful (C37_Whirlpool)
theorem C05_SHA3_224 : SHA3.SHA3_224.IntFaithful := Proof.Render.intFaithful (C37_SHA3_224)
theorem C05_SHA3_256 : SHA3.SHA3_256.IntFaithful := Proof.Render.intFaithful (C37_SHA3_256)
theorem C05_SHA3_384 : SHA3.SHA3_384.IntFaithful := Proof.Render.intFaithful (C37_SHA3_384)
theorem C05_SHA3_512 : SHA3.SHA3_512.IntFaithful := Proof.Render.intFaithful (C37_SHA3_512)
theorem C05_SHAKE_128 (d : Nat) : (SHA3.SHAKE_128 d).IntFaithful := Proof.Render.intFaithful (C37_SHAKE_128 d)
theorem C05_SHAKE_256 (d : Nat) : (SHA3.SHAKE_256 d).IntFaithful := Proof.Render.intFaithful (C37_SHAKE_256 d)
theorem C05_MD2 : MD2.MD2.IntFaithful := Proof.Render.intFaithful (C37_MD2)
theorem C05_Blake1_224 : BLAKE.Blake1_224.IntFaithful := Proof.Render.intFaithful (C37_Blake1_224)
theorem C05_Blake1_256 : BLAKE.Blake1_256.IntFaithful := Proof.Render.intFaithful (C37_Blake1_256)
theorem C05_Blake1_384 : BLAKE.Blake1_384.IntFaithful := Proof.Render.intFaithful (C37_Blake1_384)
theorem C05_Blake1_512 : BLAKE.Blake1_512.IntFaithful := Proof.Render.intFaithful (C37_Blake1_512)
theorem C05_Blake2 : BLAKE2.Blake2.IntFaithful := Proof.Render.intFaithful (C37_Blake2)
theorem C05_Blake2s : BLAKE2.Blake2s.IntFaithful := Proof.Render.intFaithful (C37_Blake2s)
theorem C05_SipHash (C D : Nat) (key : Block 16) : (SipHash.SipHashCD C D key).IntFaithful := Proof.Render.intFaithful (C37_SipHash C D key)
theorem C05_FNV32_1 : FNV.FNV32_1.IntFaithful := Proof.Render.intFaithful (C37_FNV32_1)
theorem C05_FNV32_1a : FNV.FNV32_1a.IntFaithful := Proof.Render.intFaithful (C37_FNV32_1a)
theorem C05_FNV64_1 : FNV.FNV64_1.IntFaithful := Proof.Render.intFaithful (C37_FNV64_1)
theorem C05_FNV64_1a : FNV.FNV64_1a.IntFaithful := Proof.Render.intFaithful (C37_FNV64_1a)
theorem C05_CRC_32 : CRC32.CRC_32.IntFaithful := Proof.Render.intFaithful (C37_CRC_32)
theorem C05_FNV32_0 : FNV.FNV32_0.IntFaithful := Proof.Render.intFaithful (C37_FNV32_0)
theorem C05_FNV64_0 : FNV.FNV64_0.IntFaithful := Proof.Render.intFaithful (C37_FNV64_0)

/-- C05: a narrower conversion gives the leading bytes of a wider one. -/
theorem C05_narrow (d : List Byte) (k k' : Nat) (h : k ≤ k') (hd : k' ≤ d.length) :
    ∃ (v : BitVec (8 * k)) (v' : BitVec (8 * k')), convertInt k d = .ok v ∧ convertInt k' d = .ok v' ∧
      v.toNat = v'.toNat / 256 ^ (k' - k) := by
  obtain ⟨v, e, hv⟩ := Proof.Render.convertInt_eq k d
  obtain ⟨v', e', hv'⟩ := Proof.Render.convertInt_eq k' d
  refine ⟨v, v', e, e', ?_⟩
  rw [hv, hv']
  have key : ∀ (l m : List Byte), Spec.ofBE (l ++ m) / 256 ^ m.length = Spec.ofBE l := by
    intro l m
    obtain ⟨m, rfl⟩ : ∃ r : List Byte, m = r.reverse := ⟨m.reverse, by simp⟩
    induction m with
    | nil => simp
    | cons b m ih =>
      rw [List.reverse_cons]
      generalize m.reverse = m at ih ⊢
      rw [← List.append_assoc, ofBE_append_one, List.length_append, List.length_singleton, Nat.pow_succ,
        Nat.mul_comm (256 ^ _) 256, ← Nat.div_div_eq_div_mul]
      have hb := b.isLt
      rw [show (256 * Spec.ofBE (l ++ m) + b.toNat) / 256 = Spec.ofBE (l ++ m) by omega, ih]
  have := key (d.take k) ((d.take k').drop k)
  rw [show d.take k ++ (d.take k').drop k = d.take k' by
    have h2 := List.take_append_drop k (d.take k')
    rwa [List.take_take, Nat.min_eq_left h] at h2] at this
  rw [← this, List.length_drop, List.length_take, Nat.min_eq_left hd]

/-- `bool` also passes the `is_unsigned` check: the conversion says whether the first byte is not zero,
so an object may convert to `false` although its digest is not zero. -/
theorem C05_bool_actual (d : List Byte) : convertBool d = true ↔ ∃ b t, d = b :: t ∧ b ≠ 0 := by
  cases d with
  | nil => simp [convertBool]
  | cons b t => simp [convertBool]

/-! Histories that meet the hypotheses, and what the predicates say of a small digest. -/
example : Legal ([.add [1], .add (List.replicate 130 2), .finalize, .reset, .add [7]] ++ [.finalize]) := by
  decide +kernel
example : renderHex [0x0a, 0xf1] = .ok ['0', 'a', 'f', '1'] := by decide +kernel
example : convertInt 4 [0x12, 0x34, 0x56, 0x78, 0x9a] = .ok 0x12345678#32 := by decide +kernel
example : convertInt 4 [0x12, 0x34] = .ok 0x1234#32 := by decide +kernel
example := C05_narrow [0x12, 0x34, 0x56, 0x78, 0x9a] 2 4 (by decide) (by decide)
example := C04_alphabet [0x0a, 0xf1] 'f' (by decide +kernel)
example := C04_SHAKE_128 5 (by decide)

end Verif.Props
