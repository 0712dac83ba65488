import Verif.Proof.StdSpans
import Verif.Props.Memory

/-!
# C58: the builds with `std::span` and with `gsl::span` compute the same

Generated by tools/gen_stdspan.py. `API.SameWithStdSpan` is defined in Core/StdSpan.lean.
-/

namespace Verif.Props
open Model Proof.StdSpans

theorem C58_SHA1 (self : Nat) (hs : self ≠ 0) :
    SHA1.SHA1.SameWithStdSpan (addDataAt 64 (mdImplAt 64 counterBE64 SHA1.compress) self)
      (addDataStd 64 (mdImplStd 64 counterBE64 SHA1.compress) self) :=
  same (fun o mem s => addData_gets (mdGets _ _ _) self o mem s) (C47_SHA1 self hs)
theorem C58_SHA2_224 (self : Nat) (hs : self ≠ 0) :
    SHA2.SHA2_224.SameWithStdSpan (addDataAt 64 (mdImplAt 64 counterBE64 (SHA2.compress SHA2.cfg32 (by decide))) self)
      (addDataStd 64 (mdImplStd 64 counterBE64 (SHA2.compress SHA2.cfg32 (by decide))) self) :=
  same (fun o mem s => addData_gets (mdGets _ _ _) self o mem s) (C47_SHA2_224 self hs)
theorem C58_SHA2_256 (self : Nat) (hs : self ≠ 0) :
    SHA2.SHA2_256.SameWithStdSpan (addDataAt 64 (mdImplAt 64 counterBE64 (SHA2.compress SHA2.cfg32 (by decide))) self)
      (addDataStd 64 (mdImplStd 64 counterBE64 (SHA2.compress SHA2.cfg32 (by decide))) self) :=
  same (fun o mem s => addData_gets (mdGets _ _ _) self o mem s) (C47_SHA2_256 self hs)
theorem C58_SHA2_384 (self : Nat) (hs : self ≠ 0) :
    SHA2.SHA2_384.SameWithStdSpan (addDataAt 128 (mdImplAt 128 counterBE128 (SHA2.compress SHA2.cfg64 (by decide))) self)
      (addDataStd 128 (mdImplStd 128 counterBE128 (SHA2.compress SHA2.cfg64 (by decide))) self) :=
  same (fun o mem s => addData_gets (mdGets _ _ _) self o mem s) (C47_SHA2_384 self hs)
theorem C58_SHA2_512 (self : Nat) (hs : self ≠ 0) :
    SHA2.SHA2_512.SameWithStdSpan (addDataAt 128 (mdImplAt 128 counterBE128 (SHA2.compress SHA2.cfg64 (by decide))) self)
      (addDataStd 128 (mdImplStd 128 counterBE128 (SHA2.compress SHA2.cfg64 (by decide))) self) :=
  same (fun o mem s => addData_gets (mdGets _ _ _) self o mem s) (C47_SHA2_512 self hs)
theorem C58_SHA2_512_224 (self : Nat) (hs : self ≠ 0) :
    SHA2.SHA2_512_224.SameWithStdSpan (addDataAt 128 (mdImplAt 128 counterBE128 (SHA2.compress SHA2.cfg64 (by decide))) self)
      (addDataStd 128 (mdImplStd 128 counterBE128 (SHA2.compress SHA2.cfg64 (by decide))) self) :=
  same (fun o mem s => addData_gets (mdGets _ _ _) self o mem s) (C47_SHA2_512_224 self hs)
theorem C58_SHA2_512_256 (self : Nat) (hs : self ≠ 0) :
    SHA2.SHA2_512_256.SameWithStdSpan (addDataAt 128 (mdImplAt 128 counterBE128 (SHA2.compress SHA2.cfg64 (by decide))) self)
      (addDataStd 128 (mdImplStd 128 counterBE128 (SHA2.compress SHA2.cfg64 (by decide))) self) :=
  same (fun o mem s => addData_gets (mdGets _ _ _) self o mem s) (C47_SHA2_512_256 self hs)
theorem C58_MD4 (self : Nat) (hs : self ≠ 0) :
    MD4.MD4.SameWithStdSpan (addDataAt 64 (mdImplAt 64 counterLE64 MD4.compress) self)
      (addDataStd 64 (mdImplStd 64 counterLE64 MD4.compress) self) :=
  same (fun o mem s => addData_gets (mdGets _ _ _) self o mem s) (C47_MD4 self hs)
theorem C58_MD5 (self : Nat) (hs : self ≠ 0) :
    MD5.MD5.SameWithStdSpan (addDataAt 64 (mdImplAt 64 counterLE64 MD5.compress) self)
      (addDataStd 64 (mdImplStd 64 counterLE64 MD5.compress) self) :=
  same (fun o mem s => addData_gets (mdGets _ _ _) self o mem s) (C47_MD5 self hs)
theorem C58_RIPEMD_128 (self : Nat) (hs : self ≠ 0) :
    RIPEMD.RIPEMD_128.SameWithStdSpan (addDataAt 64 (mdImplAt 64 counterLE64 RIPEMD.compress128) self)
      (addDataStd 64 (mdImplStd 64 counterLE64 RIPEMD.compress128) self) :=
  same (fun o mem s => addData_gets (mdGets _ _ _) self o mem s) (C47_RIPEMD_128 self hs)
theorem C58_RIPEMD_160 (self : Nat) (hs : self ≠ 0) :
    RIPEMD.RIPEMD_160.SameWithStdSpan (addDataAt 64 (mdImplAt 64 counterLE64 RIPEMD.compress160) self)
      (addDataStd 64 (mdImplStd 64 counterLE64 RIPEMD.compress160) self) :=
  same (fun o mem s => addData_gets (mdGets _ _ _) self o mem s) (C47_RIPEMD_160 self hs)
theorem C58_RIPEMD_256 (self : Nat) (hs : self ≠ 0) :
    RIPEMD.RIPEMD_256.SameWithStdSpan (addDataAt 64 (mdImplAt 64 counterLE64 RIPEMD.compress256) self)
      (addDataStd 64 (mdImplStd 64 counterLE64 RIPEMD.compress256) self) :=
  same (fun o mem s => addData_gets (mdGets _ _ _) self o mem s) (C47_RIPEMD_256 self hs)
theorem C58_RIPEMD_320 (self : Nat) (hs : self ≠ 0) :
    RIPEMD.RIPEMD_320.SameWithStdSpan (addDataAt 64 (mdImplAt 64 counterLE64 RIPEMD.compress320) self)
      (addDataStd 64 (mdImplStd 64 counterLE64 RIPEMD.compress320) self) :=
  same (fun o mem s => addData_gets (mdGets _ _ _) self o mem s) (C47_RIPEMD_320 self hs)
theorem C58_HAS_160 (self : Nat) (hs : self ≠ 0) :
    HAS160.HAS_160.SameWithStdSpan (addDataAt 64 (mdImplAt 64 counterLE64 HAS160.compress) self)
      (addDataStd 64 (mdImplStd 64 counterLE64 HAS160.compress) self) :=
  same (fun o mem s => addData_gets (mdGets _ _ _) self o mem s) (C47_HAS_160 self hs)
theorem C58_SM3 (self : Nat) (hs : self ≠ 0) :
    SM3.SM3.SameWithStdSpan (addDataAt 64 (mdImplAt 64 counterBE64 SM3.compress) self)
      (addDataStd 64 (mdImplStd 64 counterBE64 SM3.compress) self) :=
  same (fun o mem s => addData_gets (mdGets _ _ _) self o mem s) (C47_SM3 self hs)
theorem C58_Tiger (V D : Nat) (self : Nat) (hs : self ≠ 0) :
    (Tiger.Tiger V D).SameWithStdSpan (addDataAt 64 (mdImplAt 64 counterLE64 Tiger.compress) self)
      (addDataStd 64 (mdImplStd 64 counterLE64 Tiger.compress) self) :=
  same (fun o mem s => addData_gets (mdGets _ _ _) self o mem s) (C47_Tiger V D self hs)
theorem C58_Whirlpool (self : Nat) (hs : self ≠ 0) :
    Whirlpool.Whirlpool.SameWithStdSpan (addDataAt 64 (mdImplAt 64 counterBE128 Whirlpool.compress) self)
      (addDataStd 64 (mdImplStd 64 counterBE128 Whirlpool.compress) self) :=
  same (fun o mem s => addData_gets (mdGets _ _ _) self o mem s) (C47_Whirlpool self hs)
theorem C58_SHA3_224 (self : Nat) (hs : self ≠ 0) :
    SHA3.SHA3_224.SameWithStdSpan (addDataAt 144 (SHA3.implAt 144) self)
      (addDataStd 144 (SHA3.implStd 144) self) :=
  same (fun o mem s => addData_gets (sha3Gets _) self o mem s) (C47_SHA3_224 self hs)
theorem C58_SHA3_256 (self : Nat) (hs : self ≠ 0) :
    SHA3.SHA3_256.SameWithStdSpan (addDataAt 136 (SHA3.implAt 136) self)
      (addDataStd 136 (SHA3.implStd 136) self) :=
  same (fun o mem s => addData_gets (sha3Gets _) self o mem s) (C47_SHA3_256 self hs)
theorem C58_SHA3_384 (self : Nat) (hs : self ≠ 0) :
    SHA3.SHA3_384.SameWithStdSpan (addDataAt 104 (SHA3.implAt 104) self)
      (addDataStd 104 (SHA3.implStd 104) self) :=
  same (fun o mem s => addData_gets (sha3Gets _) self o mem s) (C47_SHA3_384 self hs)
theorem C58_SHA3_512 (self : Nat) (hs : self ≠ 0) :
    SHA3.SHA3_512.SameWithStdSpan (addDataAt 72 (SHA3.implAt 72) self)
      (addDataStd 72 (SHA3.implStd 72) self) :=
  same (fun o mem s => addData_gets (sha3Gets _) self o mem s) (C47_SHA3_512 self hs)
theorem C58_SHAKE_128 (d : Nat) (self : Nat) (hs : self ≠ 0) :
    (SHA3.SHAKE_128 d).SameWithStdSpan (addDataAt 168 (SHA3.implAt 168) self)
      (addDataStd 168 (SHA3.implStd 168) self) :=
  same (fun o mem s => addData_gets (sha3Gets _) self o mem s) (C47_SHAKE_128 d self hs)
theorem C58_SHAKE_256 (d : Nat) (self : Nat) (hs : self ≠ 0) :
    (SHA3.SHAKE_256 d).SameWithStdSpan (addDataAt 136 (SHA3.implAt 136) self)
      (addDataStd 136 (SHA3.implStd 136) self) :=
  same (fun o mem s => addData_gets (sha3Gets _) self o mem s) (C47_SHAKE_256 d self hs)
theorem C58_MD2 (self : Nat) (hs : self ≠ 0) :
    MD2.MD2.SameWithStdSpan (addDataAt 16 (MD2.implAt) self)
      (addDataStd 16 (MD2.implStd) self) :=
  same (fun o mem s => addData_gets (md2Gets) self o mem s) (C47_MD2 self hs)
theorem C58_Blake1_224 (self : Nat) (hs : self ≠ 0) :
    BLAKE.Blake1_224.SameWithStdSpan (addDataAt 64 (BLAKE.implAt BLAKE.cfg224 0) self)
      (addDataStd 64 (BLAKE.implStd BLAKE.cfg224 0) self) :=
  same (fun o mem s => addData_gets (blakeGets _ _) self o mem s) (C47_Blake1_224 self hs)
theorem C58_Blake1_256 (self : Nat) (hs : self ≠ 0) :
    BLAKE.Blake1_256.SameWithStdSpan (addDataAt 64 (BLAKE.implAt BLAKE.cfg256 0) self)
      (addDataStd 64 (BLAKE.implStd BLAKE.cfg256 0) self) :=
  same (fun o mem s => addData_gets (blakeGets _ _) self o mem s) (C47_Blake1_256 self hs)
theorem C58_Blake1_384 (self : Nat) (hs : self ≠ 0) :
    BLAKE.Blake1_384.SameWithStdSpan (addDataAt 128 (BLAKE.implAt BLAKE.cfg512 0) self)
      (addDataStd 128 (BLAKE.implStd BLAKE.cfg512 0) self) :=
  same (fun o mem s => addData_gets (blakeGets _ _) self o mem s) (C47_Blake1_384 self hs)
theorem C58_Blake1_512 (self : Nat) (hs : self ≠ 0) :
    BLAKE.Blake1_512.SameWithStdSpan (addDataAt 128 (BLAKE.implAt BLAKE.cfg512 0) self)
      (addDataStd 128 (BLAKE.implStd BLAKE.cfg512 0) self) :=
  same (fun o mem s => addData_gets (blakeGets _ _) self o mem s) (C47_Blake1_512 self hs)
theorem C58_SipHash (C D : Nat) (key : Block 16) (self : Nat) (hs : self ≠ 0) :
    (SipHash.SipHashCD C D key).SameWithStdSpan (addDataAt 8 (SipHash.implAt C) self)
      (addDataStd 8 (SipHash.implStd C) self) :=
  same (fun o mem s => addData_gets (sipGets _) self o mem s) (C47_SipHash C D key self hs)
theorem C58_Blake2 (self : Nat) (hs : self ≠ 0) :
    BLAKE2.Blake2.SameWithStdSpan (fun o mem s => BLAKE2.addDataAt 128 (BLAKE2.implAt BLAKE2.cfg2 false 0) self mem s.size o s)
      (fun o mem s => BLAKE2.addDataStd 128 (BLAKE2.implStd BLAKE2.cfg2 false 0) self mem s.size o s) :=
  same (fun o mem s => blake2_gets (blake2Gets _ _ _) self mem _ o s) (C47_Blake2 self hs)
theorem C58_Blake2s (self : Nat) (hs : self ≠ 0) :
    BLAKE2.Blake2s.SameWithStdSpan (fun o mem s => BLAKE2.addDataAt 64 (BLAKE2.implAt BLAKE2.cfg2s false 0) self mem s.size o s)
      (fun o mem s => BLAKE2.addDataStd 64 (BLAKE2.implStd BLAKE2.cfg2s false 0) self mem s.size o s) :=
  same (fun o mem s => blake2_gets (blake2Gets _ _ _) self mem _ o s) (C47_Blake2s self hs)
theorem C58_CRC_32 : CRC32.CRC_32.SameWithStdSpan (CRC32.addDataAt) (CRC32.addDataStd) := same (crcGets) C47_CRC_32
theorem C58_FNV32_0 : FNV.FNV32_0.SameWithStdSpan (FNV.addDataAt 0) (FNV.addDataStd 0) := same (fnvGets _) C47_FNV32_0
theorem C58_FNV32_1 : FNV.FNV32_1.SameWithStdSpan (FNV.addDataAt 1) (FNV.addDataStd 1) := same (fnvGets _) C47_FNV32_1
theorem C58_FNV32_1a : FNV.FNV32_1a.SameWithStdSpan (FNV.addDataAt 2) (FNV.addDataStd 2) := same (fnvGets _) C47_FNV32_1a
theorem C58_FNV64_0 : FNV.FNV64_0.SameWithStdSpan (FNV.addDataAt 0) (FNV.addDataStd 0) := same (fnvGets _) C47_FNV64_0
theorem C58_FNV64_1 : FNV.FNV64_1.SameWithStdSpan (FNV.addDataAt 1) (FNV.addDataStd 1) := same (fnvGets _) C47_FNV64_1
theorem C58_FNV64_1a : FNV.FNV64_1a.SameWithStdSpan (FNV.addDataAt 2) (FNV.addDataStd 2) := same (fnvGets _) C47_FNV64_1a

section
open CShake Spec SP800185

/-- C58 for cSHAKE -/
theorem C58_CSHAKE (R : Nat) [SHA3.RateOK R] (self : Nat) (o o' : CShake R) (calls : List MemOp)
    (h : CShake.runAt self o calls = .ok o') : CShake.runStd self o calls = .ok o' := cshakeRun_gets self calls o o' h

/-- C58 for cSHAKE, for names and customization strings that the constructor can encode (C29). -/
theorem C58_CSHAKE_short (R : Nat) [SHA3.RateOK R] (h8 : R % 8 = 0) (nb : Nat → Nat) (hnb : ExactLog nb)
    (name custom : List Byte) (hn : name.length < 2 ^ 53 - 256) (hc : custom.length < 2 ^ 53 - 256) (d : Nat)
    (self : Nat) (hs : self ≠ 0) (calls : List MemOp) (ops : List Op) (h : HandsAll calls ops) :
    ∃ o o', construct nb R d name custom = .ok o ∧ CShake.runStd self o calls = .ok o' ∧ CShake.run o ops = .ok o' := by
  obtain ⟨o, o', e, e1, e2⟩ := C47_CSHAKE_short R h8 nb hnb name custom hn hc d self hs calls ops h
  exact ⟨o, o', e, cshakeRun_gets self calls o o' e1, e2⟩

/-- C58 for TupleHash -/
theorem C58_TupleHash (R : Nat) [SHA3.RateOK R] (nb : Nat → Nat) (self loc : Nat) (o o' : TupleHash R) (calls : List MemOp)
    (h : tupleRunAt nb self loc o calls = .ok o') : tupleRunStd nb self loc o calls = .ok o' :=
  tupleRun_gets nb self loc calls o o' h

/-- C58 for TupleHash, for digest lengths below 2^28 and elements below 2^53 - 256 bytes (C22, C29) -/
theorem C58_TupleHash_short (R : Nat) [SHA3.RateOK R] (h8 : R % 8 = 0) (nb : Nat → Nat) (hnb : ExactLog nb)
    (custom : List Byte) (hc : custom.length < 2 ^ 53 - 256) (d : Nat) (hd : d < 2 ^ 28)
    (self loc : Nat) (hs : self ≠ 0) (hl : loc ≠ 0) (calls : List MemOp) (ops : List Op) (h : HandsAll calls ops)
    (hsm : ∀ x, Op.add x ∈ ops → x.length < 2 ^ 53 - 256) :
    ∃ o o', tupleConstruct nb R d custom = .ok o ∧ tupleRunStd nb self loc o calls = .ok o' ∧ tupleRun nb o ops = .ok o' := by
  obtain ⟨o, o', e, e1, e2⟩ := C47_TupleHash_short R h8 nb hnb custom hc d hd self loc hs hl calls ops h hsm
  exact ⟨o, o', e, tupleRun_gets nb self loc calls o o' e1, e2⟩

end

/-- The key of a SipHash object -/
theorem C58_SipHash_key (mem : Mem) (p : Nat) (key : List Byte)
    (h : ∀ i (hi : i < key.length), mem (p + i) = some key[i]) :
    SipHash.constructStd mem ⟨p, key.length⟩ = SipHash.construct key := C47_SipHash_key mem p key h

/-- The converse does not hold: `gsl::span` ends the program when it is given a null pointer and a length; `std::span` reads
there, and if the address can be read nobody notices. -/
theorem C58_null_pointer_differs : ∃ calls o, CRC32.CRC_32.runStd CRC32.addDataStd CRC32.CRC_32.fresh calls = .ok o ∧
    CRC32.CRC_32.runAt CRC32.addDataAt CRC32.CRC_32.fresh calls = .error .spanBounds :=
  ⟨[.add (fun _ => some 7) 0 1], _, rfl, rfl⟩

/-! A history: the second call finds other bytes at the address of the first. -/
example := (C58_SHA1 4096 (by decide)).2
  [.add (fun a => if a = 1000 then some 1 else if a = 1001 then some 2 else none) 1000 2,
    .add (fun a => if a = 1000 then some 7 else none) 1000 1, .finalize] [.add [1, 2], .add [7], .finalize] (by
  refine ⟨⟨rfl, by decide, by decide, ?_⟩, ⟨rfl, by decide, by decide, ?_⟩, trivial, trivial⟩
  · intro i h
    match i, h with
    | 0, _ => rfl
    | 1, _ => rfl
  · intro i h
    match i, h with
    | 0, _ => rfl)

end Verif.Props
