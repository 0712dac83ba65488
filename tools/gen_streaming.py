"""Props/Streaming.lean: C01, C02, C03, C37 for every class with a refinement theorem."""
# (theorem suffix, api, refinement, digest size, size proof, proof module)
C = [
 ('SHA1', 'SHA1.SHA1', 'SHA1.refines', 20, 'SHA1', 'simp [Spec.SHA1.sha1, bytesBE_length]'),
 ('SHA2_224', 'SHA2.SHA2_224', 'SHA2.r224', 28, 'SHA2', 'simp [Spec.SHA2.sha224, Proof.SHA2.hash_length]'),
 ('SHA2_256', 'SHA2.SHA2_256', 'SHA2.r256', 32, 'SHA2', 'simp [Spec.SHA2.sha256, Proof.SHA2.hash_length]'),
 ('SHA2_384', 'SHA2.SHA2_384', 'SHA2.r384', 48, 'SHA2', 'simp [Spec.SHA2.sha384, Proof.SHA2.hash_length]'),
 ('SHA2_512', 'SHA2.SHA2_512', 'SHA2.r512', 64, 'SHA2', 'simp [Spec.SHA2.sha512, Proof.SHA2.hash_length]'),
 ('SHA2_512_224', 'SHA2.SHA2_512_224', 'SHA2.r512_224', 28, 'SHA2', 'simp [Spec.SHA2.sha512_224, Proof.SHA2.hash_length]'),
 ('SHA2_512_256', 'SHA2.SHA2_512_256', 'SHA2.r512_256', 32, 'SHA2', 'simp [Spec.SHA2.sha512_256, Proof.SHA2.hash_length]'),
 ('MD4', 'MD4.MD4', 'MD4.refines', 16, 'MD4', 'simp [Spec.MD4.md4, bytesLE_length]'),
 ('MD5', 'MD5.MD5', 'MD5.refines', 16, 'MD5', 'simp [Spec.MD5.md5, bytesLE_length]'),
 ('RIPEMD_128', 'RIPEMD.RIPEMD_128', 'RIPEMD.r128', 16, 'RIPEMD', 'simp [Spec.RIPEMD.ripemd128, Spec.RIPEMD.words4, bytesLE_length]'),
 ('RIPEMD_160', 'RIPEMD.RIPEMD_160', 'RIPEMD.r160', 20, 'RIPEMD', 'simp [Spec.RIPEMD.ripemd160, Spec.RIPEMD.words5, bytesLE_length]'),
 ('RIPEMD_256', 'RIPEMD.RIPEMD_256', 'RIPEMD.r256', 32, 'RIPEMD', 'simp [Spec.RIPEMD.ripemd256, Spec.RIPEMD.words4, bytesLE_length]'),
 ('RIPEMD_320', 'RIPEMD.RIPEMD_320', 'RIPEMD.r320', 40, 'RIPEMD', 'simp [Spec.RIPEMD.ripemd320, Spec.RIPEMD.words5, bytesLE_length]'),
 ('HAS_160', 'HAS160.HAS_160', 'HAS160.refines', 20, 'HAS160', 'simp [Spec.HAS160.has160, bytesLE_length]'),
 ('SM3', 'SM3.SM3', 'SM3.refines', 32, 'SM3', 'simp [Spec.SM3.sm3, bytesBE_length]'),
 ('Tiger1_192', 'Tiger.Tiger1_192', 'Tiger.r1', 24, 'TigerGen', 'simp [Spec.Tiger.tiger, Spec.Tiger.hash, bytesLE_length]'),
 ('Tiger2_192', 'Tiger.Tiger2_192', 'Tiger.r2', 24, 'TigerGen', 'simp [Spec.Tiger.tiger2, Spec.Tiger.hash, bytesLE_length]'),
 ('Whirlpool', 'Whirlpool.Whirlpool', 'Whirlpool.refines', 64, 'Whirlpool', 'rfl'),
 ('SHA3_224', 'SHA3.SHA3_224', 'SHA3.refines224', 28, 'SHA3', 'exact Proof.SHA3.sha3_224_length m'),
 ('SHA3_256', 'SHA3.SHA3_256', 'SHA3.refines256', 32, 'SHA3', 'exact Proof.SHA3.sha3_256_length m'),
 ('SHA3_384', 'SHA3.SHA3_384', 'SHA3.refines384', 48, 'SHA3', 'exact Proof.SHA3.sha3_384_length m'),
 ('SHA3_512', 'SHA3.SHA3_512', 'SHA3.refines512', 64, 'SHA3', 'exact Proof.SHA3.sha3_512_length m'),
 ('SHAKE_128 (d : Nat)', '(SHA3.SHAKE_128 d)', 'SHA3.refinesShake128 d', 'd', 'SHA3', 'exact Proof.SHA3.shake128_length m d'),
 ('SHAKE_256 (d : Nat)', '(SHA3.SHAKE_256 d)', 'SHA3.refinesShake256 d', 'd', 'SHA3', 'exact Proof.SHA3.shake256_length m d'),
 ('MD2', 'MD2.MD2', 'MD2.refines', 16, 'MD2', 'exact Proof.MD2.md2_length m'),
 ('Blake1_224', 'BLAKE.Blake1_224', 'BLAKE.refines224', 28, 'BLAKE', 'exact Proof.BLAKE.dig224_length m'),
 ('Blake1_256', 'BLAKE.Blake1_256', 'BLAKE.refines256', 32, 'BLAKE', 'exact Proof.BLAKE.dig256_length m'),
 ('Blake1_384', 'BLAKE.Blake1_384', 'BLAKE.refines384', 48, 'BLAKE', 'exact Proof.BLAKE.dig384_length m'),
 ('Blake1_512', 'BLAKE.Blake1_512', 'BLAKE.refines512', 64, 'BLAKE', 'exact Proof.BLAKE.dig512_length m'),
 ('Blake2','BLAKE2.Blake2','BLAKE2.refines2',64,'BLAKE2','exact Proof.BLAKE2.blake2b_length m'),
 ('Blake2s','BLAKE2.Blake2s','BLAKE2.refines2s',32,'BLAKE2','exact Proof.BLAKE2.blake2s_length m'),
 ('SipHash (C D : Nat) (key : Block 16)','(SipHash.SipHashCD C D key)','SipHash.refines C D key',8,'SipHash','simp'),
 ('FNV32_1', 'FNV.FNV32_1', 'FNV.refines32_1', 4, 'FNV', 'simp'),
 ('FNV32_1a', 'FNV.FNV32_1a', 'FNV.refines32_1a', 4, 'FNV', 'simp'),
 ('FNV64_1', 'FNV.FNV64_1', 'FNV.refines64_1', 8, 'FNV', 'simp'),
 ('FNV64_1a', 'FNV.FNV64_1a', 'FNV.refines64_1a', 8, 'FNV', 'simp'),
 ('CRC_32', 'CRC32.CRC_32', 'CRC32.refines', 4, 'CRC32', 'simp'),
]
import sys
o = '\n'.join(f'import Verif.Proof.{m}' for m in sorted({c[4] for c in C}))
o += '''

/-!
# C01 (chunking), C02 (no fault), C03 (reset), C37 (digest size), class by class

Generated by tools/gen_streaming.py. The four predicates are defined in Core/API.lean.
-/

namespace Verif.Props
open Model

'''
for pid, pred, field in [('C01', 'ChunkingIrrelevant', 'chunking'), ('C02', 'Safe', 'safe'), ('C03', 'ResetIsFresh', 'resetFresh')]:
    for n, a, r, k, m, t in C:
        o += f'theorem {pid}_{n} : {a}.{pred} := (Proof.{r}).{field}\n'
    o += '\n'
for n, a, r, k, m, t in C:
    o += f'theorem C37_{n} : {a}.DigestSize {k} := (Proof.{r}).digestSize fun m => by {t}\n'
o += '''
/-! Histories and chunkings that meet the hypotheses. -/
example : Legal [.add [1], .add (List.replicate 130 2), .reset, .add [], .finalize, .reset, .finalize] := by
  decide +kernel
example : ([[1, 2], [], [3]] : List (List Byte)).flatten = [[1], [2, 3]].flatten ∧
    (∀ p ∈ ([[1, 2], [], [3]] : List (List Byte)), p.length < 2 ^ 64) := by decide

end Verif.Props
'''
open('/verif/lean/Verif/Props/Streaming.lean', 'w').write(o)
