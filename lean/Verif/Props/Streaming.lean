import Verif.Proof.BLAKE
import Verif.Proof.BLAKE2
import Verif.Proof.CRC32
import Verif.Proof.FNV
import Verif.Proof.HAS160
import Verif.Proof.MD2
import Verif.Proof.MD4
import Verif.Proof.MD5
import Verif.Proof.RIPEMD
import Verif.Proof.SHA1
import Verif.Proof.SHA2
import Verif.Proof.SHA3
import Verif.Proof.SM3
import Verif.Proof.SipHash
import Verif.Proof.TigerGen
import Verif.Proof.Whirlpool

/-!
# C01 (chunking), C02 (no fault), C03 (reset), C37 (digest size), class by class

Generated by tools/gen_streaming.py. The four predicates are defined in Core/API.lean.
-/

namespace Verif.Props
open Model

theorem C01_SHA1 : SHA1.SHA1.ChunkingIrrelevant := (Proof.SHA1.refines).chunking
theorem C01_SHA2_224 : SHA2.SHA2_224.ChunkingIrrelevant := (Proof.SHA2.r224).chunking
theorem C01_SHA2_256 : SHA2.SHA2_256.ChunkingIrrelevant := (Proof.SHA2.r256).chunking
theorem C01_SHA2_384 : SHA2.SHA2_384.ChunkingIrrelevant := (Proof.SHA2.r384).chunking
theorem C01_SHA2_512 : SHA2.SHA2_512.ChunkingIrrelevant := (Proof.SHA2.r512).chunking
theorem C01_SHA2_512_224 : SHA2.SHA2_512_224.ChunkingIrrelevant := (Proof.SHA2.r512_224).chunking
theorem C01_SHA2_512_256 : SHA2.SHA2_512_256.ChunkingIrrelevant := (Proof.SHA2.r512_256).chunking
theorem C01_MD4 : MD4.MD4.ChunkingIrrelevant := (Proof.MD4.refines).chunking
theorem C01_MD5 : MD5.MD5.ChunkingIrrelevant := (Proof.MD5.refines).chunking
theorem C01_RIPEMD_128 : RIPEMD.RIPEMD_128.ChunkingIrrelevant := (Proof.RIPEMD.r128).chunking
theorem C01_RIPEMD_160 : RIPEMD.RIPEMD_160.ChunkingIrrelevant := (Proof.RIPEMD.r160).chunking
theorem C01_RIPEMD_256 : RIPEMD.RIPEMD_256.ChunkingIrrelevant := (Proof.RIPEMD.r256).chunking
theorem C01_RIPEMD_320 : RIPEMD.RIPEMD_320.ChunkingIrrelevant := (Proof.RIPEMD.r320).chunking
theorem C01_HAS_160 : HAS160.HAS_160.ChunkingIrrelevant := (Proof.HAS160.refines).chunking
theorem C01_SM3 : SM3.SM3.ChunkingIrrelevant := (Proof.SM3.refines).chunking
theorem C01_Tiger1_192 : Tiger.Tiger1_192.ChunkingIrrelevant := (Proof.Tiger.r1).chunking
theorem C01_Tiger2_192 : Tiger.Tiger2_192.ChunkingIrrelevant := (Proof.Tiger.r2).chunking
theorem C01_Whirlpool : Whirlpool.Whirlpool.ChunkingIrrelevant := (Proof.Whirlpool.refines).chunking
theorem C01_SHA3_224 : SHA3.SHA3_224.ChunkingIrrelevant := (Proof.SHA3.refines224).chunking
theorem C01_SHA3_256 : SHA3.SHA3_256.ChunkingIrrelevant := (Proof.SHA3.refines256).chunking
theorem C01_SHA3_384 : SHA3.SHA3_384.ChunkingIrrelevant := (Proof.SHA3.refines384).chunking
theorem C01_SHA3_512 : SHA3.SHA3_512.ChunkingIrrelevant := (Proof.SHA3.refines512).chunking
theorem C01_SHAKE_128 (d : Nat) : (SHA3.SHAKE_128 d).ChunkingIrrelevant := (Proof.SHA3.refinesShake128 d).chunking
theorem C01_SHAKE_256 (d : Nat) : (SHA3.SHAKE_256 d).ChunkingIrrelevant := (Proof.SHA3.refinesShake256 d).chunking
theorem C01_MD2 : MD2.MD2.ChunkingIrrelevant := (Proof.MD2.refines).chunking
theorem C01_Blake1_224 : BLAKE.Blake1_224.ChunkingIrrelevant := (Proof.BLAKE.refines224).chunking
theorem C01_Blake1_256 : BLAKE.Blake1_256.ChunkingIrrelevant := (Proof.BLAKE.refines256).chunking
theorem C01_Blake1_384 : BLAKE.Blake1_384.ChunkingIrrelevant := (Proof.BLAKE.refines384).chunking
theorem C01_Blake1_512 : BLAKE.Blake1_512.ChunkingIrrelevant := (Proof.BLAKE.refines512).chunking
theorem C01_Blake2 : BLAKE2.Blake2.ChunkingIrrelevant := (Proof.BLAKE2.refines2).chunking
theorem C01_Blake2s : BLAKE2.Blake2s.ChunkingIrrelevant := (Proof.BLAKE2.refines2s).chunking
theorem C01_SipHash (C D : Nat) (key : Block 16) : (SipHash.SipHashCD C D key).ChunkingIrrelevant := (Proof.SipHash.refines C D key).chunking
theorem C01_FNV32_1 : FNV.FNV32_1.ChunkingIrrelevant := (Proof.FNV.refines32_1).chunking
theorem C01_FNV32_1a : FNV.FNV32_1a.ChunkingIrrelevant := (Proof.FNV.refines32_1a).chunking
theorem C01_FNV64_1 : FNV.FNV64_1.ChunkingIrrelevant := (Proof.FNV.refines64_1).chunking
theorem C01_FNV64_1a : FNV.FNV64_1a.ChunkingIrrelevant := (Proof.FNV.refines64_1a).chunking
theorem C01_CRC_32 : CRC32.CRC_32.ChunkingIrrelevant := (Proof.CRC32.refines).chunking

theorem C02_SHA1 : SHA1.SHA1.Safe := (Proof.SHA1.refines).safe
theorem C02_SHA2_224 : SHA2.SHA2_224.Safe := (Proof.SHA2.r224).safe
theorem C02_SHA2_256 : SHA2.SHA2_256.Safe := (Proof.SHA2.r256).safe
theorem C02_SHA2_384 : SHA2.SHA2_384.Safe := (Proof.SHA2.r384).safe
theorem C02_SHA2_512 : SHA2.SHA2_512.Safe := (Proof.SHA2.r512).safe
theorem C02_SHA2_512_224 : SHA2.SHA2_512_224.Safe := (Proof.SHA2.r512_224).safe
theorem C02_SHA2_512_256 : SHA2.SHA2_512_256.Safe := (Proof.SHA2.r512_256).safe
theorem C02_MD4 : MD4.MD4.Safe := (Proof.MD4.refines).safe
theorem C02_MD5 : MD5.MD5.Safe := (Proof.MD5.refines).safe
theorem C02_RIPEMD_128 : RIPEMD.RIPEMD_128.Safe := (Proof.RIPEMD.r128).safe
theorem C02_RIPEMD_160 : RIPEMD.RIPEMD_160.Safe := (Proof.RIPEMD.r160).safe
theorem C02_RIPEMD_256 : RIPEMD.RIPEMD_256.Safe := (Proof.RIPEMD.r256).safe
theorem C02_RIPEMD_320 : RIPEMD.RIPEMD_320.Safe := (Proof.RIPEMD.r320).safe
theorem C02_HAS_160 : HAS160.HAS_160.Safe := (Proof.HAS160.refines).safe
theorem C02_SM3 : SM3.SM3.Safe := (Proof.SM3.refines).safe
theorem C02_Tiger1_192 : Tiger.Tiger1_192.Safe := (Proof.Tiger.r1).safe
theorem C02_Tiger2_192 : Tiger.Tiger2_192.Safe := (Proof.Tiger.r2).safe
theorem C02_Whirlpool : Whirlpool.Whirlpool.Safe := (Proof.Whirlpool.refines).safe
theorem C02_SHA3_224 : SHA3.SHA3_224.Safe := (Proof.SHA3.refines224).safe
theorem C02_SHA3_256 : SHA3.SHA3_256.Safe := (Proof.SHA3.refines256).safe
theorem C02_SHA3_384 : SHA3.SHA3_384.Safe := (Proof.SHA3.refines384).safe
theorem C02_SHA3_512 : SHA3.SHA3_512.Safe := (Proof.SHA3.refines512).safe
theorem C02_SHAKE_128 (d : Nat) : (SHA3.SHAKE_128 d).Safe := (Proof.SHA3.refinesShake128 d).safe
theorem C02_SHAKE_256 (d : Nat) : (SHA3.SHAKE_256 d).Safe := (Proof.SHA3.refinesShake256 d).safe
theorem C02_MD2 : MD2.MD2.Safe := (Proof.MD2.refines).safe
theorem C02_Blake1_224 : BLAKE.Blake1_224.Safe := (Proof.BLAKE.refines224).safe
theorem C02_Blake1_256 : BLAKE.Blake1_256.Safe := (Proof.BLAKE.refines256).safe
theorem C02_Blake1_384 : BLAKE.Blake1_384.Safe := (Proof.BLAKE.refines384).safe
theorem C02_Blake1_512 : BLAKE.Blake1_512.Safe := (Proof.BLAKE.refines512).safe
theorem C02_Blake2 : BLAKE2.Blake2.Safe := (Proof.BLAKE2.refines2).safe
theorem C02_Blake2s : BLAKE2.Blake2s.Safe := (Proof.BLAKE2.refines2s).safe
theorem C02_SipHash (C D : Nat) (key : Block 16) : (SipHash.SipHashCD C D key).Safe := (Proof.SipHash.refines C D key).safe
theorem C02_FNV32_1 : FNV.FNV32_1.Safe := (Proof.FNV.refines32_1).safe
theorem C02_FNV32_1a : FNV.FNV32_1a.Safe := (Proof.FNV.refines32_1a).safe
theorem C02_FNV64_1 : FNV.FNV64_1.Safe := (Proof.FNV.refines64_1).safe
theorem C02_FNV64_1a : FNV.FNV64_1a.Safe := (Proof.FNV.refines64_1a).safe
theorem C02_CRC_32 : CRC32.CRC_32.Safe := (Proof.CRC32.refines).safe

theorem C03_SHA1 : SHA1.SHA1.ResetIsFresh := (Proof.SHA1.refines).resetFresh
theorem C03_SHA2_224 : SHA2.SHA2_224.ResetIsFresh := (Proof.SHA2.r224).resetFresh
theorem C03_SHA2_256 : SHA2.SHA2_256.ResetIsFresh := (Proof.SHA2.r256).resetFresh
theorem C03_SHA2_384 : SHA2.SHA2_384.ResetIsFresh := (Proof.SHA2.r384).resetFresh
theorem C03_SHA2_512 : SHA2.SHA2_512.ResetIsFresh := (Proof.SHA2.r512).resetFresh
theorem C03_SHA2_512_224 : SHA2.SHA2_512_224.ResetIsFresh := (Proof.SHA2.r512_224).resetFresh
theorem C03_SHA2_512_256 : SHA2.SHA2_512_256.ResetIsFresh := (Proof.SHA2.r512_256).resetFresh
theorem C03_MD4 : MD4.MD4.ResetIsFresh := (Proof.MD4.refines).resetFresh
theorem C03_MD5 : MD5.MD5.ResetIsFresh := (Proof.MD5.refines).resetFresh
theorem C03_RIPEMD_128 : RIPEMD.RIPEMD_128.ResetIsFresh := (Proof.RIPEMD.r128).resetFresh
theorem C03_RIPEMD_160 : RIPEMD.RIPEMD_160.ResetIsFresh := (Proof.RIPEMD.r160).resetFresh
theorem C03_RIPEMD_256 : RIPEMD.RIPEMD_256.ResetIsFresh := (Proof.RIPEMD.r256).resetFresh
theorem C03_RIPEMD_320 : RIPEMD.RIPEMD_320.ResetIsFresh := (Proof.RIPEMD.r320).resetFresh
theorem C03_HAS_160 : HAS160.HAS_160.ResetIsFresh := (Proof.HAS160.refines).resetFresh
theorem C03_SM3 : SM3.SM3.ResetIsFresh := (Proof.SM3.refines).resetFresh
theorem C03_Tiger1_192 : Tiger.Tiger1_192.ResetIsFresh := (Proof.Tiger.r1).resetFresh
theorem C03_Tiger2_192 : Tiger.Tiger2_192.ResetIsFresh := (Proof.Tiger.r2).resetFresh
theorem C03_Whirlpool : Whirlpool.Whirlpool.ResetIsFresh := (Proof.Whirlpool.refines).resetFresh
theorem C03_SHA3_224 : SHA3.SHA3_224.ResetIsFresh := (Proof.SHA3.refines224).resetFresh
theorem C03_SHA3_256 : SHA3.SHA3_256.ResetIsFresh := (Proof.SHA3.refines256).resetFresh
theorem C03_SHA3_384 : SHA3.SHA3_384.ResetIsFresh := (Proof.SHA3.refines384).resetFresh
theorem C03_SHA3_512 : SHA3.SHA3_512.ResetIsFresh := (Proof.SHA3.refines512).resetFresh
theorem C03_SHAKE_128 (d : Nat) : (SHA3.SHAKE_128 d).ResetIsFresh := (Proof.SHA3.refinesShake128 d).resetFresh
theorem C03_SHAKE_256 (d : Nat) : (SHA3.SHAKE_256 d).ResetIsFresh := (Proof.SHA3.refinesShake256 d).resetFresh
theorem C03_MD2 : MD2.MD2.ResetIsFresh := (Proof.MD2.refines).resetFresh
theorem C03_Blake1_224 : BLAKE.Blake1_224.ResetIsFresh := (Proof.BLAKE.refines224).resetFresh
theorem C03_Blake1_256 : BLAKE.Blake1_256.ResetIsFresh := (Proof.BLAKE.refines256).resetFresh
theorem C03_Blake1_384 : BLAKE.Blake1_384.ResetIsFresh := (Proof.BLAKE.refines384).resetFresh
theorem C03_Blake1_512 : BLAKE.Blake1_512.ResetIsFresh := (Proof.BLAKE.refines512).resetFresh
theorem C03_Blake2 : BLAKE2.Blake2.ResetIsFresh := (Proof.BLAKE2.refines2).resetFresh
theorem C03_Blake2s : BLAKE2.Blake2s.ResetIsFresh := (Proof.BLAKE2.refines2s).resetFresh
theorem C03_SipHash (C D : Nat) (key : Block 16) : (SipHash.SipHashCD C D key).ResetIsFresh := (Proof.SipHash.refines C D key).resetFresh
theorem C03_FNV32_1 : FNV.FNV32_1.ResetIsFresh := (Proof.FNV.refines32_1).resetFresh
theorem C03_FNV32_1a : FNV.FNV32_1a.ResetIsFresh := (Proof.FNV.refines32_1a).resetFresh
theorem C03_FNV64_1 : FNV.FNV64_1.ResetIsFresh := (Proof.FNV.refines64_1).resetFresh
theorem C03_FNV64_1a : FNV.FNV64_1a.ResetIsFresh := (Proof.FNV.refines64_1a).resetFresh
theorem C03_CRC_32 : CRC32.CRC_32.ResetIsFresh := (Proof.CRC32.refines).resetFresh

theorem C37_SHA1 : SHA1.SHA1.DigestSize 20 := (Proof.SHA1.refines).digestSize fun m => by simp [Spec.SHA1.sha1, bytesBE_length]
theorem C37_SHA2_224 : SHA2.SHA2_224.DigestSize 28 := (Proof.SHA2.r224).digestSize fun m => by simp [Spec.SHA2.sha224, Proof.SHA2.hash_length]
theorem C37_SHA2_256 : SHA2.SHA2_256.DigestSize 32 := (Proof.SHA2.r256).digestSize fun m => by simp [Spec.SHA2.sha256, Proof.SHA2.hash_length]
theorem C37_SHA2_384 : SHA2.SHA2_384.DigestSize 48 := (Proof.SHA2.r384).digestSize fun m => by simp [Spec.SHA2.sha384, Proof.SHA2.hash_length]
theorem C37_SHA2_512 : SHA2.SHA2_512.DigestSize 64 := (Proof.SHA2.r512).digestSize fun m => by simp [Spec.SHA2.sha512, Proof.SHA2.hash_length]
theorem C37_SHA2_512_224 : SHA2.SHA2_512_224.DigestSize 28 := (Proof.SHA2.r512_224).digestSize fun m => by simp [Spec.SHA2.sha512_224, Proof.SHA2.hash_length]
theorem C37_SHA2_512_256 : SHA2.SHA2_512_256.DigestSize 32 := (Proof.SHA2.r512_256).digestSize fun m => by simp [Spec.SHA2.sha512_256, Proof.SHA2.hash_length]
theorem C37_MD4 : MD4.MD4.DigestSize 16 := (Proof.MD4.refines).digestSize fun m => by simp [Spec.MD4.md4, bytesLE_length]
theorem C37_MD5 : MD5.MD5.DigestSize 16 := (Proof.MD5.refines).digestSize fun m => by simp [Spec.MD5.md5, bytesLE_length]
theorem C37_RIPEMD_128 : RIPEMD.RIPEMD_128.DigestSize 16 := (Proof.RIPEMD.r128).digestSize fun m => by simp [Spec.RIPEMD.ripemd128, Spec.RIPEMD.words4, bytesLE_length]
theorem C37_RIPEMD_160 : RIPEMD.RIPEMD_160.DigestSize 20 := (Proof.RIPEMD.r160).digestSize fun m => by simp [Spec.RIPEMD.ripemd160, Spec.RIPEMD.words5, bytesLE_length]
theorem C37_RIPEMD_256 : RIPEMD.RIPEMD_256.DigestSize 32 := (Proof.RIPEMD.r256).digestSize fun m => by simp [Spec.RIPEMD.ripemd256, Spec.RIPEMD.words4, bytesLE_length]
theorem C37_RIPEMD_320 : RIPEMD.RIPEMD_320.DigestSize 40 := (Proof.RIPEMD.r320).digestSize fun m => by simp [Spec.RIPEMD.ripemd320, Spec.RIPEMD.words5, bytesLE_length]
theorem C37_HAS_160 : HAS160.HAS_160.DigestSize 20 := (Proof.HAS160.refines).digestSize fun m => by simp [Spec.HAS160.has160, bytesLE_length]
theorem C37_SM3 : SM3.SM3.DigestSize 32 := (Proof.SM3.refines).digestSize fun m => by simp [Spec.SM3.sm3, bytesBE_length]
theorem C37_Tiger1_192 : Tiger.Tiger1_192.DigestSize 24 := (Proof.Tiger.r1).digestSize fun m => by simp [Spec.Tiger.tiger, Spec.Tiger.hash, bytesLE_length]
theorem C37_Tiger2_192 : Tiger.Tiger2_192.DigestSize 24 := (Proof.Tiger.r2).digestSize fun m => by simp [Spec.Tiger.tiger2, Spec.Tiger.hash, bytesLE_length]
theorem C37_Whirlpool : Whirlpool.Whirlpool.DigestSize 64 := (Proof.Whirlpool.refines).digestSize fun m => by rfl
theorem C37_SHA3_224 : SHA3.SHA3_224.DigestSize 28 := (Proof.SHA3.refines224).digestSize fun m => by exact Proof.SHA3.sha3_224_length m
theorem C37_SHA3_256 : SHA3.SHA3_256.DigestSize 32 := (Proof.SHA3.refines256).digestSize fun m => by exact Proof.SHA3.sha3_256_length m
theorem C37_SHA3_384 : SHA3.SHA3_384.DigestSize 48 := (Proof.SHA3.refines384).digestSize fun m => by exact Proof.SHA3.sha3_384_length m
theorem C37_SHA3_512 : SHA3.SHA3_512.DigestSize 64 := (Proof.SHA3.refines512).digestSize fun m => by exact Proof.SHA3.sha3_512_length m
theorem C37_SHAKE_128 (d : Nat) : (SHA3.SHAKE_128 d).DigestSize d := (Proof.SHA3.refinesShake128 d).digestSize fun m => by exact Proof.SHA3.shake128_length m d
theorem C37_SHAKE_256 (d : Nat) : (SHA3.SHAKE_256 d).DigestSize d := (Proof.SHA3.refinesShake256 d).digestSize fun m => by exact Proof.SHA3.shake256_length m d
theorem C37_MD2 : MD2.MD2.DigestSize 16 := (Proof.MD2.refines).digestSize fun m => by exact Proof.MD2.md2_length m
theorem C37_Blake1_224 : BLAKE.Blake1_224.DigestSize 28 := (Proof.BLAKE.refines224).digestSize fun m => by exact Proof.BLAKE.dig224_length m
theorem C37_Blake1_256 : BLAKE.Blake1_256.DigestSize 32 := (Proof.BLAKE.refines256).digestSize fun m => by exact Proof.BLAKE.dig256_length m
theorem C37_Blake1_384 : BLAKE.Blake1_384.DigestSize 48 := (Proof.BLAKE.refines384).digestSize fun m => by exact Proof.BLAKE.dig384_length m
theorem C37_Blake1_512 : BLAKE.Blake1_512.DigestSize 64 := (Proof.BLAKE.refines512).digestSize fun m => by exact Proof.BLAKE.dig512_length m
theorem C37_Blake2 : BLAKE2.Blake2.DigestSize 64 := (Proof.BLAKE2.refines2).digestSize fun m => by exact Proof.BLAKE2.blake2b_length m
theorem C37_Blake2s : BLAKE2.Blake2s.DigestSize 32 := (Proof.BLAKE2.refines2s).digestSize fun m => by exact Proof.BLAKE2.blake2s_length m
theorem C37_SipHash (C D : Nat) (key : Block 16) : (SipHash.SipHashCD C D key).DigestSize 8 := (Proof.SipHash.refines C D key).digestSize fun m => by simp
theorem C37_FNV32_1 : FNV.FNV32_1.DigestSize 4 := (Proof.FNV.refines32_1).digestSize fun m => by simp
theorem C37_FNV32_1a : FNV.FNV32_1a.DigestSize 4 := (Proof.FNV.refines32_1a).digestSize fun m => by simp
theorem C37_FNV64_1 : FNV.FNV64_1.DigestSize 8 := (Proof.FNV.refines64_1).digestSize fun m => by simp
theorem C37_FNV64_1a : FNV.FNV64_1a.DigestSize 8 := (Proof.FNV.refines64_1a).digestSize fun m => by simp
theorem C37_CRC_32 : CRC32.CRC_32.DigestSize 4 := (Proof.CRC32.refines).digestSize fun m => by simp

/-! Histories and chunkings that meet the hypotheses. -/
example : Legal [.add [1], .add (List.replicate 130 2), .reset, .add [], .finalize, .reset, .finalize] := by
  decide +kernel
example : ([[1, 2], [], [3]] : List (List Byte)).flatten = [[1], [2, 3]].flatten ∧
    (∀ p ∈ ([[1, 2], [], [3]] : List (List Byte)), p.length < 2 ^ 64) := by decide

end Verif.Props
