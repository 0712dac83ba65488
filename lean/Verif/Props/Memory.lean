import Verif.Proof.Spans
import Verif.Props.Misuse

/-!
# C47: `addData` reads the bytes it is given and nothing else, and keeps no pointer to them

Generated by tools/gen_memory.py. `API.MemorySafe` is defined in Core/Memory.lean: a history of calls with
pointers, each in a memory of its own in which only the caller's bytes need to be readable, succeeds and leaves
the same object as the history with the bytes as lists. `self` is the address of the buffer in the object.
-/

namespace Verif.Props
open Model Proof.Misuse Proof.Memory

theorem C47_SHA1 (self : Nat) (hs : self ≠ 0) :
    SHA1.SHA1.MemorySafe (addDataAt 64 (mdImplAt 64 counterBE64 SHA1.compress) self) :=
  blockSafe (B := 64) (P := fun _ => True) (mdTotal (by decide) _ writesBE64 _ _ _) (fun _ h => h) rfl (by decide) (by decide) (mdAgrees _ _ _) hs
theorem C47_SHA2_224 (self : Nat) (hs : self ≠ 0) :
    SHA2.SHA2_224.MemorySafe (addDataAt 64 (mdImplAt 64 counterBE64 (SHA2.compress SHA2.cfg32 (by decide))) self) :=
  blockSafe (B := 64) (P := fun _ => True) (mdTotal (by decide) _ writesBE64 _ _ _) (fun _ h => h) rfl (by decide) (by decide) (mdAgrees _ _ _) hs
theorem C47_SHA2_256 (self : Nat) (hs : self ≠ 0) :
    SHA2.SHA2_256.MemorySafe (addDataAt 64 (mdImplAt 64 counterBE64 (SHA2.compress SHA2.cfg32 (by decide))) self) :=
  blockSafe (B := 64) (P := fun _ => True) (mdTotal (by decide) _ writesBE64 _ _ _) (fun _ h => h) rfl (by decide) (by decide) (mdAgrees _ _ _) hs
theorem C47_SHA2_384 (self : Nat) (hs : self ≠ 0) :
    SHA2.SHA2_384.MemorySafe (addDataAt 128 (mdImplAt 128 counterBE128 (SHA2.compress SHA2.cfg64 (by decide))) self) :=
  blockSafe (B := 128) (P := fun _ => True) (mdTotal (by decide) _ writesBE128 _ _ _) (fun _ h => h) rfl (by decide) (by decide) (mdAgrees _ _ _) hs
theorem C47_SHA2_512 (self : Nat) (hs : self ≠ 0) :
    SHA2.SHA2_512.MemorySafe (addDataAt 128 (mdImplAt 128 counterBE128 (SHA2.compress SHA2.cfg64 (by decide))) self) :=
  blockSafe (B := 128) (P := fun _ => True) (mdTotal (by decide) _ writesBE128 _ _ _) (fun _ h => h) rfl (by decide) (by decide) (mdAgrees _ _ _) hs
theorem C47_SHA2_512_224 (self : Nat) (hs : self ≠ 0) :
    SHA2.SHA2_512_224.MemorySafe (addDataAt 128 (mdImplAt 128 counterBE128 (SHA2.compress SHA2.cfg64 (by decide))) self) :=
  blockSafe (B := 128) (P := fun _ => True) (mdTotal (by decide) _ writesBE128 _ _ _) (fun _ h => h) rfl (by decide) (by decide) (mdAgrees _ _ _) hs
theorem C47_SHA2_512_256 (self : Nat) (hs : self ≠ 0) :
    SHA2.SHA2_512_256.MemorySafe (addDataAt 128 (mdImplAt 128 counterBE128 (SHA2.compress SHA2.cfg64 (by decide))) self) :=
  blockSafe (B := 128) (P := fun _ => True) (mdTotal (by decide) _ writesBE128 _ _ _) (fun _ h => h) rfl (by decide) (by decide) (mdAgrees _ _ _) hs
theorem C47_MD4 (self : Nat) (hs : self ≠ 0) :
    MD4.MD4.MemorySafe (addDataAt 64 (mdImplAt 64 counterLE64 MD4.compress) self) :=
  blockSafe (B := 64) (P := fun _ => True) (mdTotal (by decide) _ writesLE64 _ _ _) (fun _ h => h) rfl (by decide) (by decide) (mdAgrees _ _ _) hs
theorem C47_MD5 (self : Nat) (hs : self ≠ 0) :
    MD5.MD5.MemorySafe (addDataAt 64 (mdImplAt 64 counterLE64 MD5.compress) self) :=
  blockSafe (B := 64) (P := fun _ => True) (mdTotal (by decide) _ writesLE64 _ _ _) (fun _ h => h) rfl (by decide) (by decide) (mdAgrees _ _ _) hs
theorem C47_RIPEMD_128 (self : Nat) (hs : self ≠ 0) :
    RIPEMD.RIPEMD_128.MemorySafe (addDataAt 64 (mdImplAt 64 counterLE64 RIPEMD.compress128) self) :=
  blockSafe (B := 64) (P := fun _ => True) (mdTotal (by decide) _ writesLE64 _ _ _) (fun _ h => h) rfl (by decide) (by decide) (mdAgrees _ _ _) hs
theorem C47_RIPEMD_160 (self : Nat) (hs : self ≠ 0) :
    RIPEMD.RIPEMD_160.MemorySafe (addDataAt 64 (mdImplAt 64 counterLE64 RIPEMD.compress160) self) :=
  blockSafe (B := 64) (P := fun _ => True) (mdTotal (by decide) _ writesLE64 _ _ _) (fun _ h => h) rfl (by decide) (by decide) (mdAgrees _ _ _) hs
theorem C47_RIPEMD_256 (self : Nat) (hs : self ≠ 0) :
    RIPEMD.RIPEMD_256.MemorySafe (addDataAt 64 (mdImplAt 64 counterLE64 RIPEMD.compress256) self) :=
  blockSafe (B := 64) (P := fun _ => True) (mdTotal (by decide) _ writesLE64 _ _ _) (fun _ h => h) rfl (by decide) (by decide) (mdAgrees _ _ _) hs
theorem C47_RIPEMD_320 (self : Nat) (hs : self ≠ 0) :
    RIPEMD.RIPEMD_320.MemorySafe (addDataAt 64 (mdImplAt 64 counterLE64 RIPEMD.compress320) self) :=
  blockSafe (B := 64) (P := fun _ => True) (mdTotal (by decide) _ writesLE64 _ _ _) (fun _ h => h) rfl (by decide) (by decide) (mdAgrees _ _ _) hs
theorem C47_HAS_160 (self : Nat) (hs : self ≠ 0) :
    HAS160.HAS_160.MemorySafe (addDataAt 64 (mdImplAt 64 counterLE64 HAS160.compress) self) :=
  blockSafe (B := 64) (P := fun _ => True) (mdTotal (by decide) _ writesLE64 _ _ _) (fun _ h => h) rfl (by decide) (by decide) (mdAgrees _ _ _) hs
theorem C47_SM3 (self : Nat) (hs : self ≠ 0) :
    SM3.SM3.MemorySafe (addDataAt 64 (mdImplAt 64 counterBE64 SM3.compress) self) :=
  blockSafe (B := 64) (P := fun _ => True) (mdTotal (by decide) _ writesBE64 _ _ _) (fun _ h => h) rfl (by decide) (by decide) (mdAgrees _ _ _) hs
theorem C47_Tiger (V D : Nat) (self : Nat) (hs : self ≠ 0) :
    (Tiger.Tiger V D).MemorySafe (addDataAt 64 (mdImplAt 64 counterLE64 Tiger.compress) self) :=
  blockSafe (B := 64) (P := fun _ => True) (mdTotal (by decide) _ writesLE64 _ _ _) (fun _ h => h) rfl (by decide) (by decide) (mdAgrees _ _ _) hs
theorem C47_Whirlpool (self : Nat) (hs : self ≠ 0) :
    Whirlpool.Whirlpool.MemorySafe (addDataAt 64 (mdImplAt 64 counterBE128 Whirlpool.compress) self) :=
  blockSafe (B := 64) (P := fun _ => True) (mdTotal (by decide) _ writesBE128_32 _ _ _) (fun _ h => h) rfl (by decide) (by decide) (mdAgrees _ _ _) hs
theorem C47_SHA3_224 (self : Nat) (hs : self ≠ 0) :
    SHA3.SHA3_224.MemorySafe (addDataAt 144 (SHA3.implAt 144) self) :=
  blockSafe (B := 144) (P := fun _ => True) (sha3Total 144 0x06 28) (fun _ h => h) rfl (by decide) (by decide) (sha3Agrees 144) hs
theorem C47_SHA3_256 (self : Nat) (hs : self ≠ 0) :
    SHA3.SHA3_256.MemorySafe (addDataAt 136 (SHA3.implAt 136) self) :=
  blockSafe (B := 136) (P := fun _ => True) (sha3Total 136 0x06 32) (fun _ h => h) rfl (by decide) (by decide) (sha3Agrees 136) hs
theorem C47_SHA3_384 (self : Nat) (hs : self ≠ 0) :
    SHA3.SHA3_384.MemorySafe (addDataAt 104 (SHA3.implAt 104) self) :=
  blockSafe (B := 104) (P := fun _ => True) (sha3Total 104 0x06 48) (fun _ h => h) rfl (by decide) (by decide) (sha3Agrees 104) hs
theorem C47_SHA3_512 (self : Nat) (hs : self ≠ 0) :
    SHA3.SHA3_512.MemorySafe (addDataAt 72 (SHA3.implAt 72) self) :=
  blockSafe (B := 72) (P := fun _ => True) (sha3Total 72 0x06 64) (fun _ h => h) rfl (by decide) (by decide) (sha3Agrees 72) hs
theorem C47_SHAKE_128 (d : Nat) (self : Nat) (hs : self ≠ 0) :
    (SHA3.SHAKE_128 d).MemorySafe (addDataAt 168 (SHA3.implAt 168) self) :=
  blockSafe (B := 168) (P := fun _ => True) (sha3Total 168 0x1F d) (fun _ h => h) rfl (by decide) (by decide) (sha3Agrees 168) hs
theorem C47_SHAKE_256 (d : Nat) (self : Nat) (hs : self ≠ 0) :
    (SHA3.SHAKE_256 d).MemorySafe (addDataAt 136 (SHA3.implAt 136) self) :=
  blockSafe (B := 136) (P := fun _ => True) (sha3Total 136 0x1F d) (fun _ h => h) rfl (by decide) (by decide) (sha3Agrees 136) hs
theorem C47_MD2 (self : Nat) (hs : self ≠ 0) :
    MD2.MD2.MemorySafe (addDataAt 16 (MD2.implAt) self) :=
  blockSafe (B := 16) (P := fun _ => True) (md2Total) (fun _ h => h) rfl (by decide) (by decide) (md2Agrees) hs
theorem C47_Blake1_224 (self : Nat) (hs : self ≠ 0) :
    BLAKE.Blake1_224.MemorySafe (addDataAt 64 (BLAKE.implAt BLAKE.cfg224 0) self) :=
  blockSafe (B := 64) (P := fun _ => True) (blake32Total _ _ _ _ _) (fun _ h => h) rfl (by decide) (by decide) (blakeAgrees _ _) hs
theorem C47_Blake1_256 (self : Nat) (hs : self ≠ 0) :
    BLAKE.Blake1_256.MemorySafe (addDataAt 64 (BLAKE.implAt BLAKE.cfg256 0) self) :=
  blockSafe (B := 64) (P := fun _ => True) (blake32Total _ _ _ _ _) (fun _ h => h) rfl (by decide) (by decide) (blakeAgrees _ _) hs
theorem C47_Blake1_384 (self : Nat) (hs : self ≠ 0) :
    BLAKE.Blake1_384.MemorySafe (addDataAt 128 (BLAKE.implAt BLAKE.cfg512 0) self) :=
  blockSafe (B := 128) (P := fun _ => True) (blake64Total _ _ _ _ _) (fun _ h => h) rfl (by decide) (by decide) (blakeAgrees _ _) hs
theorem C47_Blake1_512 (self : Nat) (hs : self ≠ 0) :
    BLAKE.Blake1_512.MemorySafe (addDataAt 128 (BLAKE.implAt BLAKE.cfg512 0) self) :=
  blockSafe (B := 128) (P := fun _ => True) (blake64Total _ _ _ _ _) (fun _ h => h) rfl (by decide) (by decide) (blakeAgrees _ _) hs
theorem C47_SipHash (C D : Nat) (key : Block 16) (self : Nat) (hs : self ≠ 0) :
    (SipHash.SipHashCD C D key).MemorySafe (addDataAt 8 (SipHash.implAt C) self) :=
  blockSafe (B := 8) (P := fun s => s.key = #v[loadLE64 key 0, loadLE64 key 1]) (sipTotal C D key) (fun _ h => h) rfl (by decide) (by decide) (sipAgrees C) hs
theorem C47_Blake2 (self : Nat) (hs : self ≠ 0) :
    BLAKE2.Blake2.MemorySafe (fun o mem s => BLAKE2.addDataAt 128 (BLAKE2.implAt BLAKE2.cfg2 false 0) self mem s.size o s) :=
  memorySafe (blake2Total (by decide) BLAKE2.cfg2 8 64) fun o ho _ p d hm hp hd =>
    blake2At_eq (blake2Agrees BLAKE2.cfg2 false 0) (by decide) hs d.length o p d ho (Nat.le_refl _) hm hp hd
theorem C47_Blake2s (self : Nat) (hs : self ≠ 0) :
    BLAKE2.Blake2s.MemorySafe (fun o mem s => BLAKE2.addDataAt 64 (BLAKE2.implAt BLAKE2.cfg2s false 0) self mem s.size o s) :=
  memorySafe (blake2Total (by decide) BLAKE2.cfg2s 4 32) fun o ho _ p d hm hp hd =>
    blake2At_eq (blake2Agrees BLAKE2.cfg2s false 0) (by decide) hs d.length o p d ho (Nat.le_refl _) hm hp hd
theorem C47_CRC_32 : CRC32.CRC_32.MemorySafe (CRC32.addDataAt) := memorySafe crcTotal fun o _ mem p d => crcAgrees o mem p d
theorem C47_FNV32_0 : FNV.FNV32_0.MemorySafe (FNV.addDataAt 0) := memorySafe (fnvTotal 32 0) fun o _ mem p d => fnvAgrees 32 0 o mem p d
theorem C47_FNV32_1 : FNV.FNV32_1.MemorySafe (FNV.addDataAt 1) := memorySafe (fnvTotal 32 1) fun o _ mem p d => fnvAgrees 32 1 o mem p d
theorem C47_FNV32_1a : FNV.FNV32_1a.MemorySafe (FNV.addDataAt 2) := memorySafe (fnvTotal 32 2) fun o _ mem p d => fnvAgrees 32 2 o mem p d
theorem C47_FNV64_0 : FNV.FNV64_0.MemorySafe (FNV.addDataAt 0) := memorySafe (fnvTotal 64 0) fun o _ mem p d => fnvAgrees 64 0 o mem p d
theorem C47_FNV64_1 : FNV.FNV64_1.MemorySafe (FNV.addDataAt 1) := memorySafe (fnvTotal 64 1) fun o _ mem p d => fnvAgrees 64 1 o mem p d
theorem C47_FNV64_1a : FNV.FNV64_1a.MemorySafe (FNV.addDataAt 2) := memorySafe (fnvTotal 64 2) fun o _ mem p d => fnvAgrees 64 2 o mem p d

/-- The key of a SipHash object is copied: the constructor reads its 16 bytes and keeps none of its address.
A key of another size fails the assertion before anything is read. -/
theorem C47_SipHash_key (mem : Mem) (p : Nat) (key : List Byte)
    (h : ∀ i (hi : i < key.length), mem (p + i) = some key[i]) :
    SipHash.constructAt mem ⟨p, key.length⟩ = SipHash.construct key := sipConstructAt h

section
open CShake Spec SP800185

/-- C47 for cSHAKE, for names and customization strings that the constructor can encode (C29). -/
theorem C47_CSHAKE_short (R : Nat) [SHA3.RateOK R] (h8 : R % 8 = 0) (nb : Nat → Nat) (hnb : ExactLog nb)
    (name custom : List Byte) (hn : name.length < 2 ^ 53 - 256) (hc : custom.length < 2 ^ 53 - 256) (d : Nat)
    (self : Nat) (hs : self ≠ 0) (calls : List MemOp) (ops : List Op) (h : HandsAll calls ops) :
    ∃ o o', construct nb R d name custom = .ok o ∧ CShake.runAt self o calls = .ok o' ∧
      CShake.run o ops = .ok o' := by
  obtain ⟨c, x, e, r⟩ := cshake_start R h8 nb hnb name custom hn hc d
  obtain ⟨o', e1, e2⟩ := cshakeSafe hs calls ops _ ⟨x, rfl, r⟩ h
  exact ⟨_, o', e, e1, e2⟩

/-- C47 for TupleHash, for digest lengths below 2^28 and elements below 2^53 - 256 bytes (C22, C29). `loc` is where
the local variable with the encoded length lies. -/
theorem C47_TupleHash_short (R : Nat) [SHA3.RateOK R] (h8 : R % 8 = 0) (nb : Nat → Nat) (hnb : ExactLog nb)
    (custom : List Byte) (hc : custom.length < 2 ^ 53 - 256) (d : Nat) (hd : d < 2 ^ 28)
    (self loc : Nat) (hs : self ≠ 0) (hl : loc ≠ 0) (calls : List MemOp) (ops : List Op) (h : HandsAll calls ops)
    (hsm : ∀ x, Op.add x ∈ ops → x.length < 2 ^ 53 - 256) :
    ∃ o o', tupleConstruct nb R d custom = .ok o ∧ tupleRunAt nb self loc o calls = .ok o' ∧
      tupleRun nb o ops = .ok o' := by
  have hname : CShake.tupleHashName = SP800185.tupleHashName := by decide +kernel
  obtain ⟨c, x, e, r⟩ := cshake_start R h8 nb hnb SP800185.tupleHashName custom (by decide +kernel) hc d
  obtain ⟨o', e1, e2⟩ := tupleSafe nb hnb hd hs hl calls ops _ ⟨x, rfl, r⟩ hsm h
  refine ⟨⟨Proof.CShake.mk c ⟨d, x⟩, d⟩, o', ?_, e1, e2⟩
  unfold tupleConstruct
  rw [hname, e]
  rfl

end

/-! A history meets the hypotheses: the second call finds other bytes at the address of the first, and the bytes of
the first are gone; the third hands over nothing, with a null pointer. -/
example : HandsAll
    [.add (fun a => if a = 1000 then some 1 else if a = 1001 then some 2 else none) 1000 2,
      .add (fun a => if a = 1000 then some 7 else none) 1000 1, .add (fun _ => none) 0 0, .finalize]
    [.add [1, 2], .add [7], .add [], .finalize] := by
  refine ⟨⟨rfl, by decide, by decide, ?_⟩, ⟨rfl, by decide, by decide, ?_⟩, ⟨rfl, by decide, by decide, ?_⟩, trivial, trivial⟩
  · intro i h
    match i, h with
    | 0, _ => rfl
    | 1, _ => rfl
  · intro i h
    match i, h with
    | 0, _ => rfl
  · intro i h; cases h

/-- A null pointer with a length that is not zero ends the program: the span may not be made. -/
theorem C47_null_pointer {O : Type} (A : API O) (addAt : O → Mem → GSpan → Except Fault O) (o : O) (mem : Mem)
    (n : Nat) (h : n ≠ 0) : A.stepAt addAt o (.add mem 0 n) = .error .spanBounds := by
  have : GSpan.make 0 n = .error .spanBounds := by
    unfold GSpan.make expects
    by_cases h2 : n = 2 ^ 64 - 1
    · subst h2; rfl
    · have h3 : (n != 2 ^ 64 - 1) = true := by simpa using h2
      have h4 : (0 != 0 || n == 0) = false := by simpa using h
      simp only [h3, h4, if_true]
      rfl
  simp only [API.stepAt, this]
  rfl

end Verif.Props
