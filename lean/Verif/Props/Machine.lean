import Verif.Proof.Machine
import Verif.Props.Misuse

/-!
# C52: a digest does not depend on how many bits `size_t` has

Generated by tools/gen_machine.py. `API.SameMachine` is defined in Model/Machine.lean: after the same calls, in any
order, with spans that fit in the smaller `size_t`, the two machines hold the same object and read the same digest
from it. C++ guarantees 16 bits. The FNV classes do not calculate with `size_t`; cSHAKE and TupleHash are in
Props/MachineCShake.lean.
-/

namespace Verif.Props
open Model Proof.Misuse Proof.Machine

theorem C52_SHA1 (m : Nat) (h : 16 ≤ m) (h64 : m ≤ 64) :
    SHA1.SHA1.SameMachine m (mdApiM m 64 8 0x80 (counterBE64M m) SHA1.compress SHA1.iv SHA1.toArray) :=
  same h64 (md (by decide) (by have := big h; omega) _ (sameBE64 m) Proof.Misuse.writesBE64 _ _ _)
theorem C52_SHA2_224 (m : Nat) (h : 16 ≤ m) (h64 : m ≤ 64) :
    SHA2.SHA2_224.SameMachine m (mdApiM m 64 8 0x80 (counterBE64M m) (SHA2.compress SHA2.cfg32 (by decide)) SHA2.iv224 (SHA2.toArray 4 7 28 (fun _ => []))) :=
  same h64 (md (by decide) (by have := big h; omega) _ (sameBE64 m) Proof.Misuse.writesBE64 _ _ _)
theorem C52_SHA2_256 (m : Nat) (h : 16 ≤ m) (h64 : m ≤ 64) :
    SHA2.SHA2_256.SameMachine m (mdApiM m 64 8 0x80 (counterBE64M m) (SHA2.compress SHA2.cfg32 (by decide)) SHA2.iv256 (SHA2.toArray 4 8 32 (fun _ => []))) :=
  same h64 (md (by decide) (by have := big h; omega) _ (sameBE64 m) Proof.Misuse.writesBE64 _ _ _)
theorem C52_SHA2_384 (m : Nat) (h : 16 ≤ m) (h64 : m ≤ 64) :
    SHA2.SHA2_384.SameMachine m (mdApiM m 128 16 0x80 (counterBE128M m) (SHA2.compress SHA2.cfg64 (by decide)) SHA2.iv384 (SHA2.toArray 8 6 48 (fun _ => []))) :=
  same h64 (md (by decide) (by have := big h; omega) _ (sameBE128 m) Proof.Misuse.writesBE128 _ _ _)
theorem C52_SHA2_512 (m : Nat) (h : 16 ≤ m) (h64 : m ≤ 64) :
    SHA2.SHA2_512.SameMachine m (mdApiM m 128 16 0x80 (counterBE128M m) (SHA2.compress SHA2.cfg64 (by decide)) SHA2.iv512 (SHA2.toArray 8 8 64 (fun _ => []))) :=
  same h64 (md (by decide) (by have := big h; omega) _ (sameBE128 m) Proof.Misuse.writesBE128 _ _ _)
theorem C52_SHA2_512_224 (m : Nat) (h : 16 ≤ m) (h64 : m ≤ 64) :
    SHA2.SHA2_512_224.SameMachine m (mdApiM m 128 16 0x80 (counterBE128M m) (SHA2.compress SHA2.cfg64 (by decide)) SHA2.iv512_224 (SHA2.toArray 8 3 28 (fun mh => [ror 8 mh[3] 56, ror 8 mh[3] 48, ror 8 mh[3] 40, ror 8 mh[3] 32]))) :=
  same h64 (md (by decide) (by have := big h; omega) _ (sameBE128 m) Proof.Misuse.writesBE128 _ _ _)
theorem C52_SHA2_512_256 (m : Nat) (h : 16 ≤ m) (h64 : m ≤ 64) :
    SHA2.SHA2_512_256.SameMachine m (mdApiM m 128 16 0x80 (counterBE128M m) (SHA2.compress SHA2.cfg64 (by decide)) SHA2.iv512_256 (SHA2.toArray 8 4 32 (fun _ => []))) :=
  same h64 (md (by decide) (by have := big h; omega) _ (sameBE128 m) Proof.Misuse.writesBE128 _ _ _)
theorem C52_MD4 (m : Nat) (h : 16 ≤ m) (h64 : m ≤ 64) :
    MD4.MD4.SameMachine m (mdApiM m 64 8 0x80 (counterLE64M m) MD4.compress MD4.iv MD4.toArray) :=
  same h64 (md (by decide) (by have := big h; omega) _ (sameLE64 m) Proof.Misuse.writesLE64 _ _ _)
theorem C52_MD5 (m : Nat) (h : 16 ≤ m) (h64 : m ≤ 64) :
    MD5.MD5.SameMachine m (mdApiM m 64 8 0x80 (counterLE64M m) MD5.compress MD5.iv MD5.toArray) :=
  same h64 (md (by decide) (by have := big h; omega) _ (sameLE64 m) Proof.Misuse.writesLE64 _ _ _)
theorem C52_RIPEMD_128 (m : Nat) (h : 16 ≤ m) (h64 : m ≤ 64) :
    RIPEMD.RIPEMD_128.SameMachine m (mdApiM m 64 8 0x80 (counterLE64M m) RIPEMD.compress128 RIPEMD.iv128 RIPEMD.toArray) :=
  same h64 (md (by decide) (by have := big h; omega) _ (sameLE64 m) Proof.Misuse.writesLE64 _ _ _)
theorem C52_RIPEMD_160 (m : Nat) (h : 16 ≤ m) (h64 : m ≤ 64) :
    RIPEMD.RIPEMD_160.SameMachine m (mdApiM m 64 8 0x80 (counterLE64M m) RIPEMD.compress160 RIPEMD.iv160 RIPEMD.toArray) :=
  same h64 (md (by decide) (by have := big h; omega) _ (sameLE64 m) Proof.Misuse.writesLE64 _ _ _)
theorem C52_RIPEMD_256 (m : Nat) (h : 16 ≤ m) (h64 : m ≤ 64) :
    RIPEMD.RIPEMD_256.SameMachine m (mdApiM m 64 8 0x80 (counterLE64M m) RIPEMD.compress256 RIPEMD.iv256 RIPEMD.toArray) :=
  same h64 (md (by decide) (by have := big h; omega) _ (sameLE64 m) Proof.Misuse.writesLE64 _ _ _)
theorem C52_RIPEMD_320 (m : Nat) (h : 16 ≤ m) (h64 : m ≤ 64) :
    RIPEMD.RIPEMD_320.SameMachine m (mdApiM m 64 8 0x80 (counterLE64M m) RIPEMD.compress320 RIPEMD.iv320 RIPEMD.toArray) :=
  same h64 (md (by decide) (by have := big h; omega) _ (sameLE64 m) Proof.Misuse.writesLE64 _ _ _)
theorem C52_HAS_160 (m : Nat) (h : 16 ≤ m) (h64 : m ≤ 64) :
    HAS160.HAS_160.SameMachine m (mdApiM m 64 8 0x80 (counterLE64M m) HAS160.compress HAS160.iv HAS160.toArray) :=
  same h64 (md (by decide) (by have := big h; omega) _ (sameLE64 m) Proof.Misuse.writesLE64 _ _ _)
theorem C52_SM3 (m : Nat) (h : 16 ≤ m) (h64 : m ≤ 64) :
    SM3.SM3.SameMachine m (mdApiM m 64 8 0x80 (counterBE64M m) SM3.compress SM3.iv SM3.toArray) :=
  same h64 (md (by decide) (by have := big h; omega) _ (sameBE64 m) Proof.Misuse.writesBE64 _ _ _)
theorem C52_Tiger (V D : Nat) (m : Nat) (h : 16 ≤ m) (h64 : m ≤ 64) :
    (Tiger.Tiger V D).SameMachine m (mdApiM m 64 8 (if V = 1 then 1 else 1 <<< 7) (counterLE64M m) Tiger.compress Tiger.iv (Tiger.toArray D)) :=
  same h64 (md (by decide) (by have := big h; omega) _ (sameLE64 m) Proof.Misuse.writesLE64 _ _ _)
theorem C52_Whirlpool (m : Nat) (h : 16 ≤ m) (h64 : m ≤ 64) :
    Whirlpool.Whirlpool.SameMachine m (mdApiM m 64 32 (1 <<< 7) (counterBE128M m) Whirlpool.compress Whirlpool.iv Whirlpool.toArray) :=
  same h64 (md (by decide) (by have := big h; omega) _ (sameBE128_32 m) Proof.Misuse.writesBE128_32 _ _ _)
theorem C52_SHA3_224 (m : Nat) (h : 16 ≤ m) (h64 : m ≤ 64) :
    SHA3.SHA3_224.SameMachine m (SHA3.KeccakM m 144 0x06 28) :=
  same h64 (sha3 (by have := big h; omega) _ _)
theorem C52_SHA3_256 (m : Nat) (h : 16 ≤ m) (h64 : m ≤ 64) :
    SHA3.SHA3_256.SameMachine m (SHA3.KeccakM m 136 0x06 32) :=
  same h64 (sha3 (by have := big h; omega) _ _)
theorem C52_SHA3_384 (m : Nat) (h : 16 ≤ m) (h64 : m ≤ 64) :
    SHA3.SHA3_384.SameMachine m (SHA3.KeccakM m 104 0x06 48) :=
  same h64 (sha3 (by have := big h; omega) _ _)
theorem C52_SHA3_512 (m : Nat) (h : 16 ≤ m) (h64 : m ≤ 64) :
    SHA3.SHA3_512.SameMachine m (SHA3.KeccakM m 72 0x06 64) :=
  same h64 (sha3 (by have := big h; omega) _ _)
theorem C52_SHAKE_128 (d : Nat) (m : Nat) (h : 16 ≤ m) (h64 : m ≤ 64) :
    (SHA3.SHAKE_128 d).SameMachine m (SHA3.KeccakM m 168 0x1F d) :=
  same h64 (sha3 (by have := big h; omega) _ _)
theorem C52_SHAKE_256 (d : Nat) (m : Nat) (h : 16 ≤ m) (h64 : m ≤ 64) :
    (SHA3.SHAKE_256 d).SameMachine m (SHA3.KeccakM m 136 0x1F d) :=
  same h64 (sha3 (by have := big h; omega) _ _)
theorem C52_MD2 (m : Nat) (h : 16 ≤ m) (h64 : m ≤ 64) :
    MD2.MD2.SameMachine m (MD2.MD2M m) :=
  same h64 (md2 (by have := big h; omega))
theorem C52_Blake1_224 (m : Nat) (h : 16 ≤ m) (h64 : m ≤ 64) :
    BLAKE.Blake1_224.SameMachine m (BLAKE.api32M m BLAKE.cfg224 false BLAKE.iv224 7 28) :=
  same h64 (blake32 (by have := big h; omega) _ _ _ _ _)
theorem C52_Blake1_256 (m : Nat) (h : 16 ≤ m) (h64 : m ≤ 64) :
    BLAKE.Blake1_256.SameMachine m (BLAKE.api32M m BLAKE.cfg256 true BLAKE.iv256 8 32) :=
  same h64 (blake32 (by have := big h; omega) _ _ _ _ _)
theorem C52_Blake1_384 (m : Nat) (h : 16 ≤ m) (h64 : m ≤ 64) :
    BLAKE.Blake1_384.SameMachine m (BLAKE.api64M m BLAKE.cfg512 false BLAKE.iv384 6 48) :=
  same h64 (blake64 (by have := big h; omega) _ _ _ _ _)
theorem C52_Blake1_512 (m : Nat) (h : 16 ≤ m) (h64 : m ≤ 64) :
    BLAKE.Blake1_512.SameMachine m (BLAKE.api64M m BLAKE.cfg512 true BLAKE.iv512 8 64) :=
  same h64 (blake64 (by have := big h; omega) _ _ _ _ _)
theorem C52_Blake2 (m : Nat) (h : 16 ≤ m) (h64 : m ≤ 64) :
    BLAKE2.Blake2.SameMachine m (BLAKE2.apiM m BLAKE2.cfg2 8 64) :=
  same h64 (blake2 (by decide) (by have := big h; omega) _ _ _)
theorem C52_Blake2s (m : Nat) (h : 16 ≤ m) (h64 : m ≤ 64) :
    BLAKE2.Blake2s.SameMachine m (BLAKE2.apiM m BLAKE2.cfg2s 4 32) :=
  same h64 (blake2 (by decide) (by have := big h; omega) _ _ _)
theorem C52_SipHash (C D : Nat) (key : Block 16) (m : Nat) (h : 16 ≤ m) (h64 : m ≤ 64) :
    (SipHash.SipHashCD C D key).SameMachine m (SipHash.SipHashCDM m C D key) :=
  same h64 (sip (by have := big h; omega) C D key)
theorem C52_CRC_32 (m : Nat) (h : 16 ≤ m) (h64 : m ≤ 64) :
    CRC32.CRC_32.SameMachine m (CRC32.CRC_32M m) :=
  same h64 (crc m)

/-- a history with calls after `finalize`, on a machine with a 32-bit `size_t` -/
example : Fitting 32 [.add [1, 2, 3], .finalize, .add (List.replicate 65 7), .reset, .add [], .finalize, .finalize] := by
  intro d hd
  simp at hd
  rcases hd with h | h | h <;> subst h <;> decide

/-- the wrapped operations differ from those on natural numbers -/
example : szSub 32 3 5 = 4294967294 ∧ szMul 32 (2 ^ 29) 8 = 0 ∧ szAdd 16 65535 1 = 0 := by decide

end Verif.Props
