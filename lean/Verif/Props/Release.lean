import Verif.Proof.Release
import Verif.Props.Misuse

/-!
# C48: a release build computes what a debug build computes

Generated by tools/gen_release.py. `API.SameBuild` is defined in Model/Release.lean: after the same calls, in any
order, the two builds hold the same object and read the same digest from it. The release build has neither the
check in `Buffer::fill` nor the assertions; CRC_32 and the FNV classes have none to begin with.
-/

namespace Verif.Props
open Model Proof.Misuse Proof.Release

theorem C48_SHA1 :
    SHA1.SHA1.SameBuild (mdApiR 64 8 0x80 counterBE64 SHA1.compress SHA1.iv SHA1.toArray) :=
  same (md _ _ _ _ _ _ _) (mdTotal (by decide) _ writesBE64 _ _ _)
theorem C48_SHA2_224 :
    SHA2.SHA2_224.SameBuild (mdApiR 64 8 0x80 counterBE64 (SHA2.compress SHA2.cfg32 (by decide)) SHA2.iv224 (SHA2.toArray 4 7 28 (fun _ => []))) :=
  same (md _ _ _ _ _ _ _) (mdTotal (by decide) _ writesBE64 _ _ _)
theorem C48_SHA2_256 :
    SHA2.SHA2_256.SameBuild (mdApiR 64 8 0x80 counterBE64 (SHA2.compress SHA2.cfg32 (by decide)) SHA2.iv256 (SHA2.toArray 4 8 32 (fun _ => []))) :=
  same (md _ _ _ _ _ _ _) (mdTotal (by decide) _ writesBE64 _ _ _)
theorem C48_SHA2_384 :
    SHA2.SHA2_384.SameBuild (mdApiR 128 16 0x80 counterBE128 (SHA2.compress SHA2.cfg64 (by decide)) SHA2.iv384 (SHA2.toArray 8 6 48 (fun _ => []))) :=
  same (md _ _ _ _ _ _ _) (mdTotal (by decide) _ writesBE128 _ _ _)
theorem C48_SHA2_512 :
    SHA2.SHA2_512.SameBuild (mdApiR 128 16 0x80 counterBE128 (SHA2.compress SHA2.cfg64 (by decide)) SHA2.iv512 (SHA2.toArray 8 8 64 (fun _ => []))) :=
  same (md _ _ _ _ _ _ _) (mdTotal (by decide) _ writesBE128 _ _ _)
theorem C48_SHA2_512_224 :
    SHA2.SHA2_512_224.SameBuild (mdApiR 128 16 0x80 counterBE128 (SHA2.compress SHA2.cfg64 (by decide)) SHA2.iv512_224 (SHA2.toArray 8 3 28 (fun mh => [ror 8 mh[3] 56, ror 8 mh[3] 48, ror 8 mh[3] 40, ror 8 mh[3] 32]))) :=
  same (md _ _ _ _ _ _ _) (mdTotal (by decide) _ writesBE128 _ _ _)
theorem C48_SHA2_512_256 :
    SHA2.SHA2_512_256.SameBuild (mdApiR 128 16 0x80 counterBE128 (SHA2.compress SHA2.cfg64 (by decide)) SHA2.iv512_256 (SHA2.toArray 8 4 32 (fun _ => []))) :=
  same (md _ _ _ _ _ _ _) (mdTotal (by decide) _ writesBE128 _ _ _)
theorem C48_MD4 :
    MD4.MD4.SameBuild (mdApiR 64 8 0x80 counterLE64 MD4.compress MD4.iv MD4.toArray) :=
  same (md _ _ _ _ _ _ _) (mdTotal (by decide) _ writesLE64 _ _ _)
theorem C48_MD5 :
    MD5.MD5.SameBuild (mdApiR 64 8 0x80 counterLE64 MD5.compress MD5.iv MD5.toArray) :=
  same (md _ _ _ _ _ _ _) (mdTotal (by decide) _ writesLE64 _ _ _)
theorem C48_RIPEMD_128 :
    RIPEMD.RIPEMD_128.SameBuild (mdApiR 64 8 0x80 counterLE64 RIPEMD.compress128 RIPEMD.iv128 RIPEMD.toArray) :=
  same (md _ _ _ _ _ _ _) (mdTotal (by decide) _ writesLE64 _ _ _)
theorem C48_RIPEMD_160 :
    RIPEMD.RIPEMD_160.SameBuild (mdApiR 64 8 0x80 counterLE64 RIPEMD.compress160 RIPEMD.iv160 RIPEMD.toArray) :=
  same (md _ _ _ _ _ _ _) (mdTotal (by decide) _ writesLE64 _ _ _)
theorem C48_RIPEMD_256 :
    RIPEMD.RIPEMD_256.SameBuild (mdApiR 64 8 0x80 counterLE64 RIPEMD.compress256 RIPEMD.iv256 RIPEMD.toArray) :=
  same (md _ _ _ _ _ _ _) (mdTotal (by decide) _ writesLE64 _ _ _)
theorem C48_RIPEMD_320 :
    RIPEMD.RIPEMD_320.SameBuild (mdApiR 64 8 0x80 counterLE64 RIPEMD.compress320 RIPEMD.iv320 RIPEMD.toArray) :=
  same (md _ _ _ _ _ _ _) (mdTotal (by decide) _ writesLE64 _ _ _)
theorem C48_HAS_160 :
    HAS160.HAS_160.SameBuild (mdApiR 64 8 0x80 counterLE64 HAS160.compress HAS160.iv HAS160.toArray) :=
  same (md _ _ _ _ _ _ _) (mdTotal (by decide) _ writesLE64 _ _ _)
theorem C48_SM3 :
    SM3.SM3.SameBuild (mdApiR 64 8 0x80 counterBE64 SM3.compress SM3.iv SM3.toArray) :=
  same (md _ _ _ _ _ _ _) (mdTotal (by decide) _ writesBE64 _ _ _)
theorem C48_Tiger (V D : Nat) :
    (Tiger.Tiger V D).SameBuild (mdApiR 64 8 (if V = 1 then 1 else 1 <<< 7) counterLE64 Tiger.compress Tiger.iv (Tiger.toArray D)) :=
  same (md _ _ _ _ _ _ _) (mdTotal (by decide) _ writesLE64 _ _ _)
theorem C48_Whirlpool :
    Whirlpool.Whirlpool.SameBuild (mdApiR 64 32 (1 <<< 7) counterBE128 Whirlpool.compress Whirlpool.iv Whirlpool.toArray) :=
  same (md _ _ _ _ _ _ _) (mdTotal (by decide) _ writesBE128_32 _ _ _)
theorem C48_SHA3_224 :
    SHA3.SHA3_224.SameBuild (SHA3.KeccakR 144 0x06 28) :=
  same (sha3 _ _ _) (sha3Total 144 0x06 28)
theorem C48_SHA3_256 :
    SHA3.SHA3_256.SameBuild (SHA3.KeccakR 136 0x06 32) :=
  same (sha3 _ _ _) (sha3Total 136 0x06 32)
theorem C48_SHA3_384 :
    SHA3.SHA3_384.SameBuild (SHA3.KeccakR 104 0x06 48) :=
  same (sha3 _ _ _) (sha3Total 104 0x06 48)
theorem C48_SHA3_512 :
    SHA3.SHA3_512.SameBuild (SHA3.KeccakR 72 0x06 64) :=
  same (sha3 _ _ _) (sha3Total 72 0x06 64)
theorem C48_SHAKE_128 (d : Nat) :
    (SHA3.SHAKE_128 d).SameBuild (SHA3.KeccakR 168 0x1F d) :=
  same (sha3 _ _ _) (sha3Total 168 0x1F d)
theorem C48_SHAKE_256 (d : Nat) :
    (SHA3.SHAKE_256 d).SameBuild (SHA3.KeccakR 136 0x1F d) :=
  same (sha3 _ _ _) (sha3Total 136 0x1F d)
theorem C48_MD2 :
    MD2.MD2.SameBuild (MD2.MD2R) :=
  same (md2) (md2Total)
theorem C48_Blake1_224 :
    BLAKE.Blake1_224.SameBuild (BLAKE.api32R BLAKE.cfg224 false BLAKE.iv224 7 28) :=
  same (blake32 _ _ _ _ _) (blake32Total _ _ _ _ _)
theorem C48_Blake1_256 :
    BLAKE.Blake1_256.SameBuild (BLAKE.api32R BLAKE.cfg256 true BLAKE.iv256 8 32) :=
  same (blake32 _ _ _ _ _) (blake32Total _ _ _ _ _)
theorem C48_Blake1_384 :
    BLAKE.Blake1_384.SameBuild (BLAKE.api64R BLAKE.cfg512 false BLAKE.iv384 6 48) :=
  same (blake64 _ _ _ _ _) (blake64Total _ _ _ _ _)
theorem C48_Blake1_512 :
    BLAKE.Blake1_512.SameBuild (BLAKE.api64R BLAKE.cfg512 true BLAKE.iv512 8 64) :=
  same (blake64 _ _ _ _ _) (blake64Total _ _ _ _ _)
theorem C48_Blake2 :
    BLAKE2.Blake2.SameBuild (BLAKE2.apiR BLAKE2.cfg2 8 64) :=
  same (blake2 _ _ _) (blake2Total (by decide) BLAKE2.cfg2 8 64)
theorem C48_Blake2s :
    BLAKE2.Blake2s.SameBuild (BLAKE2.apiR BLAKE2.cfg2s 4 32) :=
  same (blake2 _ _ _) (blake2Total (by decide) BLAKE2.cfg2s 4 32)
theorem C48_SipHash (C D : Nat) (key : Block 16) :
    (SipHash.SipHashCD C D key).SameBuild (SipHash.SipHashCDR C D key) :=
  same (sip C D key) (sipTotal C D key)

/-! ### SipHash: the key -/

/-- With a key of 16 bytes both builds construct the same object. -/
theorem C48_SipHash_key (key : List Byte) (h : key.length = 16) :
    ∃ o, SipHash.construct key = .ok o ∧ SipHash.constructR key = .ok o := by
  refine ⟨SipHash.constructKey ⟨key.toArray, h⟩, by unfold SipHash.construct; rw [dif_pos h], ?_⟩
  unfold SipHash.constructR
  rw [show blockAt 16 key 0 = .ok ⟨key.toArray, h⟩ from ?_]
  · rfl
  · have : (key.drop 0).take 16 = key := by rw [List.drop_zero, List.take_of_length_le (by omega)]
    unfold blockAt
    rw [dif_pos (by omega)]
    simp only [this]

/-- The builds differ in what they do with other keys: debug builds stop, release builds use the first 16 bytes of
a longer key and read past the end of a shorter one. -/
theorem C48_SipHash_wrong_key (key : List Byte) :
    (key.length ≠ 16 → SipHash.construct key = .error .assertion) ∧
    (16 < key.length → SipHash.constructR key = SipHash.construct (key.take 16)) ∧
    (key.length < 16 → ∃ e, SipHash.constructR key = .error e) := by
  refine ⟨fun h => by unfold SipHash.construct; rw [dif_neg h], fun h => ?_, fun h => ?_⟩
  · have h' : (key.take 16).length = 16 := by rw [List.length_take]; omega
    obtain ⟨o, e, e'⟩ := C48_SipHash_key _ h'
    rw [e, ← e']
    unfold SipHash.constructR blockAt
    rw [dif_pos (by omega), dif_pos (by omega)]
    simp only [List.drop_zero, List.take_take, Nat.min_self]
  · unfold SipHash.constructR blockAt
    rw [dif_neg (by omega)]
    exact ⟨_, rfl⟩

/-! ### cSHAKE and TupleHash

`nb` is the value of the floating-point expression for the number of bytes of a length (Model/CShake.lean). -/

section
open CShake

/-- Where the debug build gets through the release build does the same. Missing: the debug build gets through only
for strings below 2^53 - 256 bytes (`C42_CSHAKE_128_partial`, `C42_CSHAKE_256_partial`); for longer ones the
release build writes past the end of a buffer. -/
theorem C48_CSHAKE_partial (R : Nat) [SHA3.RateOK R] (nb : Nat → Nat) (name custom : List Byte) (d : Int)
    (ops : List Op) (o o' : CShake R) (hc : construct nb R d name custom = .ok o) (hr : CShake.run o ops = .ok o') :
    constructR nb R d name custom = .ok o ∧ runR o ops = .ok o' :=
  ⟨Proof.Release.construct nb d name custom o hc, crun ops o o' hr⟩

theorem C48_TupleHash_partial (R : Nat) [SHA3.RateOK R] (nb : Nat → Nat) (custom : List Byte) (d : Int)
    (ops : List Op) (o o' : TupleHash R) (hc : tupleConstruct nb R d custom = .ok o)
    (hr : tupleRun nb o ops = .ok o') : tupleConstructR nb R d custom = .ok o ∧ tupleRunR nb o ops = .ok o' :=
  ⟨tconstruct nb d custom o hc, trun nb ops o o' hr⟩

/-- the hypotheses are met for every string and tuple below the bounds -/
example (nb : Nat → Nat) (hnb : Spec.SP800185.ExactLog nb) (name custom : List Byte) (hn : name.length < 2 ^ 53 - 256)
    (hc : custom.length < 2 ^ 53 - 256) (d : Nat) (ops : List Op) (h : AnyOrder ops) :
    ∃ o o', constructR nb 168 d name custom = .ok o ∧ runR o ops = .ok o' := by
  obtain ⟨o, o', _, e, r, _⟩ := C42_CSHAKE_128_partial nb hnb name custom hn hc d ops h
  exact ⟨o, o', C48_CSHAKE_partial 168 nb name custom d ops o o' e r⟩
example (nb : Nat → Nat) (hnb : Spec.SP800185.ExactLog nb) (custom : List Byte) (hc : custom.length < 2 ^ 53 - 256) (d : Nat)
    (hd : d < 2 ^ 28) (ops : List Op) (hs : ∀ x, Op.add x ∈ ops → x.length < 2 ^ 53 - 256) :
    ∃ o o', tupleConstructR nb 136 d custom = .ok o ∧ tupleRunR nb o ops = .ok o' := by
  obtain ⟨o, o', _, e, r, _⟩ := C42_TupleHash_256_partial nb hnb custom hc d hd ops hs
  exact ⟨o, o', C48_TupleHash_partial 136 nb custom d ops o o' e r⟩

end

/-- calls in a wrong order, with data that crosses a block boundary -/
example : AnyOrder [.finalize, .add (List.replicate 100 0x61), .reset, .add [1, 2], .finalize, .finalize] := by
  intro d h
  simp at h
  rcases h with h | h <;> subst h <;> simp

example := C48_SipHash_key ((List.range 16).map (BitVec.ofNat 8)) (by decide)

end Verif.Props
