import Verif.Proof.OpsDefinedRun

/-!
# C63: no shift is undefined

Generated by tools/gen_ops.py. In C++ `x << s` and `x >> s` are undefined if `s` is the number of bits of `x` or more; a
rotation by 0 written as two shifts is the classical case. The classes with a log (C61) write down every shift that their
block functions execute, with the width of the word and the amount. Each theorem says that the block function makes no
undefined shift on any state and block, and that no program that uses the class, legal or not, has made one.
That the classes with a log compute what the classes compute is C61.
-/

namespace Verif.Props
open Model

theorem C63_SHA1 : DefinedSteps SHA1.compressO ∧
    (mdApiO 64 8 0x80 counterBE64 SHA1.compressO SHA1.iv SHA1.toArray).Defined (fun o => o.chain.h.2) :=
  ⟨Proof.OpsDefined.sha1, Proof.OpsDefined.md _ Proof.OpsDefined.sha1 _ _ _⟩

theorem C63_SHA2_224 : DefinedSteps (SHA2.compressO SHA2.cfgO32 (by decide)) ∧
    (mdApiO 64 8 0x80 counterBE64 (SHA2.compressO SHA2.cfgO32 (by decide)) SHA2.iv224 (SHA2.toArray 4 7 28 fun _ => [])).Defined (fun o => o.chain.h.2) :=
  ⟨Proof.OpsDefined.sha2_32, Proof.OpsDefined.md _ Proof.OpsDefined.sha2_32 _ _ _⟩

theorem C63_SHA2_256 : DefinedSteps (SHA2.compressO SHA2.cfgO32 (by decide)) ∧
    (mdApiO 64 8 0x80 counterBE64 (SHA2.compressO SHA2.cfgO32 (by decide)) SHA2.iv256 (SHA2.toArray 4 8 32 fun _ => [])).Defined (fun o => o.chain.h.2) :=
  ⟨Proof.OpsDefined.sha2_32, Proof.OpsDefined.md _ Proof.OpsDefined.sha2_32 _ _ _⟩

theorem C63_SHA2_384 : DefinedSteps (SHA2.compressO SHA2.cfgO64 (by decide)) ∧
    (mdApiO 128 16 0x80 counterBE128 (SHA2.compressO SHA2.cfgO64 (by decide)) SHA2.iv384 (SHA2.toArray 8 6 48 fun _ => [])).Defined (fun o => o.chain.h.2) :=
  ⟨Proof.OpsDefined.sha2_64, Proof.OpsDefined.md _ Proof.OpsDefined.sha2_64 _ _ _⟩

theorem C63_SHA2_512 : DefinedSteps (SHA2.compressO SHA2.cfgO64 (by decide)) ∧
    (mdApiO 128 16 0x80 counterBE128 (SHA2.compressO SHA2.cfgO64 (by decide)) SHA2.iv512 (SHA2.toArray 8 8 64 fun _ => [])).Defined (fun o => o.chain.h.2) :=
  ⟨Proof.OpsDefined.sha2_64, Proof.OpsDefined.md _ Proof.OpsDefined.sha2_64 _ _ _⟩

theorem C63_SHA2_512_224 : DefinedSteps (SHA2.compressO SHA2.cfgO64 (by decide)) ∧
    (mdApiO 128 16 0x80 counterBE128 (SHA2.compressO SHA2.cfgO64 (by decide)) SHA2.iv512_224 (SHA2.toArray 8 3 28 fun mh =>
      [ror 8 mh[3] 56, ror 8 mh[3] 48, ror 8 mh[3] 40, ror 8 mh[3] 32])).Defined (fun o => o.chain.h.2) :=
  ⟨Proof.OpsDefined.sha2_64, Proof.OpsDefined.md _ Proof.OpsDefined.sha2_64 _ _ _⟩

theorem C63_SHA2_512_256 : DefinedSteps (SHA2.compressO SHA2.cfgO64 (by decide)) ∧
    (mdApiO 128 16 0x80 counterBE128 (SHA2.compressO SHA2.cfgO64 (by decide)) SHA2.iv512_256 (SHA2.toArray 8 4 32 fun _ => [])).Defined (fun o => o.chain.h.2) :=
  ⟨Proof.OpsDefined.sha2_64, Proof.OpsDefined.md _ Proof.OpsDefined.sha2_64 _ _ _⟩

theorem C63_MD4 : DefinedSteps MD4.compressO ∧
    (mdApiO 64 8 0x80 counterLE64 MD4.compressO MD4.iv MD4.toArray).Defined (fun o => o.chain.h.2) :=
  ⟨Proof.OpsDefined.md4, Proof.OpsDefined.md _ Proof.OpsDefined.md4 _ _ _⟩

theorem C63_MD5 : DefinedSteps MD5.compressO ∧
    (mdApiO 64 8 0x80 counterLE64 MD5.compressO MD5.iv MD5.toArray).Defined (fun o => o.chain.h.2) :=
  ⟨Proof.OpsDefined.md5, Proof.OpsDefined.md _ Proof.OpsDefined.md5 _ _ _⟩

theorem C63_HAS_160 : DefinedSteps HAS160.compressO ∧
    (mdApiO 64 8 0x80 counterLE64 HAS160.compressO HAS160.iv HAS160.toArray).Defined (fun o => o.chain.h.2) :=
  ⟨Proof.OpsDefined.has160, Proof.OpsDefined.md _ Proof.OpsDefined.has160 _ _ _⟩

theorem C63_HAS_V_320 : DefinedSteps HASV.compressO ∧
    (mdApiO 128 9 (1 <<< 7) HASV.counter HASV.compressO HASV.iv HASV.toArray).Defined (fun o => o.chain.h.2) :=
  ⟨Proof.OpsDefined.hasv, Proof.OpsDefined.md _ Proof.OpsDefined.hasv _ _ _⟩

theorem C63_SM3 : DefinedSteps SM3.compressO ∧
    (mdApiO 64 8 0x80 counterBE64 SM3.compressO SM3.iv SM3.toArray).Defined (fun o => o.chain.h.2) :=
  ⟨Proof.OpsDefined.sm3, Proof.OpsDefined.md _ Proof.OpsDefined.sm3 _ _ _⟩

theorem C63_RIPEMD_128 : DefinedSteps RIPEMD.compress128O ∧
    (mdApiO 64 8 0x80 counterLE64 RIPEMD.compress128O RIPEMD.iv128 RIPEMD.toArray).Defined (fun o => o.chain.h.2) :=
  ⟨Proof.OpsDefined.ripemd128, Proof.OpsDefined.md _ Proof.OpsDefined.ripemd128 _ _ _⟩

theorem C63_RIPEMD_160 : DefinedSteps RIPEMD.compress160O ∧
    (mdApiO 64 8 0x80 counterLE64 RIPEMD.compress160O RIPEMD.iv160 RIPEMD.toArray).Defined (fun o => o.chain.h.2) :=
  ⟨Proof.OpsDefined.ripemd160, Proof.OpsDefined.md _ Proof.OpsDefined.ripemd160 _ _ _⟩

theorem C63_RIPEMD_256 : DefinedSteps RIPEMD.compress256O ∧
    (mdApiO 64 8 0x80 counterLE64 RIPEMD.compress256O RIPEMD.iv256 RIPEMD.toArray).Defined (fun o => o.chain.h.2) :=
  ⟨Proof.OpsDefined.ripemd256, Proof.OpsDefined.md _ Proof.OpsDefined.ripemd256 _ _ _⟩

theorem C63_RIPEMD_320 : DefinedSteps RIPEMD.compress320O ∧
    (mdApiO 64 8 0x80 counterLE64 RIPEMD.compress320O RIPEMD.iv320 RIPEMD.toArray).Defined (fun o => o.chain.h.2) :=
  ⟨Proof.OpsDefined.ripemd320, Proof.OpsDefined.md _ Proof.OpsDefined.ripemd320 _ _ _⟩

/-- `p` is the number of bytes of padding, which decides how the counter is mixed in. -/
theorem C63_Blake1_224 : (∀ p, DefinedSteps (BLAKE.bodyO BLAKE.cfgO224 p)) ∧
    (BLAKE.apiO BLAKE.cfgO224 8 false cntAdd64 lenWritesBE64 ⟨0, BLAKE.iv224⟩ 4 7 28).Defined
      (fun o => o.chain.2) :=
  ⟨Proof.OpsDefined.blake224, Proof.OpsDefined.blakeClass Proof.OpsDefined.blake224 _ _ _ _ _ _ _ _⟩

/-- `p` is the number of bytes of padding, which decides how the counter is mixed in. -/
theorem C63_Blake1_256 : (∀ p, DefinedSteps (BLAKE.bodyO BLAKE.cfgO256 p)) ∧
    (BLAKE.apiO BLAKE.cfgO256 8 true cntAdd64 lenWritesBE64 ⟨0, BLAKE.iv256⟩ 4 8 32).Defined
      (fun o => o.chain.2) :=
  ⟨Proof.OpsDefined.blake256, Proof.OpsDefined.blakeClass Proof.OpsDefined.blake256 _ _ _ _ _ _ _ _⟩

/-- `p` is the number of bytes of padding, which decides how the counter is mixed in. -/
theorem C63_Blake1_384 : (∀ p, DefinedSteps (BLAKE.bodyO BLAKE.cfgO512 p)) ∧
    (BLAKE.apiO BLAKE.cfgO512 16 false cntAdd128 lenWritesBE128 ⟨{}, BLAKE.iv384⟩ 8 6 48).Defined
      (fun o => o.chain.2) :=
  ⟨Proof.OpsDefined.blake512, Proof.OpsDefined.blakeClass Proof.OpsDefined.blake512 _ _ _ _ _ _ _ _⟩

/-- `p` is the number of bytes of padding, which decides how the counter is mixed in. -/
theorem C63_Blake1_512 : (∀ p, DefinedSteps (BLAKE.bodyO BLAKE.cfgO512 p)) ∧
    (BLAKE.apiO BLAKE.cfgO512 16 true cntAdd128 lenWritesBE128 ⟨{}, BLAKE.iv512⟩ 8 8 64).Defined
      (fun o => o.chain.2) :=
  ⟨Proof.OpsDefined.blake512, Proof.OpsDefined.blakeClass Proof.OpsDefined.blake512 _ _ _ _ _ _ _ _⟩

/-- `f` tells the last block from the others, `p` is its number of bytes of padding. -/
theorem C63_Blake2 : (∀ f p, DefinedSteps (BLAKE2.bodyO BLAKE2.cfgO2 f p)) ∧
    (BLAKE2.apiO BLAKE2.cfgO2 8 64).Defined (fun o => o.chain.2) :=
  ⟨Proof.OpsDefined.blake2b, Proof.OpsDefined.blake2Class Proof.OpsDefined.blake2b _ _⟩

/-- `f` tells the last block from the others, `p` is its number of bytes of padding. -/
theorem C63_Blake2s : (∀ f p, DefinedSteps (BLAKE2.bodyO BLAKE2.cfgO2s f p)) ∧
    (BLAKE2.apiO BLAKE2.cfgO2s 4 32).Defined (fun o => o.chain.2) :=
  ⟨Proof.OpsDefined.blake2s, Proof.OpsDefined.blake2Class Proof.OpsDefined.blake2s _ _⟩

/-- SHA3 and SHAKE: every rate, padding byte and length of the output -/
theorem C63_Keccak (R : Nat) [SHA3.RateOK R] (P : Byte) (d : Nat) : DefinedSteps (SHA3.bodyO (R := R)) ∧
    (SHA3.KeccakO R P d).Defined (fun o => o.chain.2) :=
  ⟨Proof.OpsDefined.sha3, Proof.OpsDefined.keccakClass P d⟩

theorem C63_SHA3_224 : (SHA3.KeccakO 144 0x06 28).Defined (fun o => o.chain.2) := (C63_Keccak 144 0x06 28).2

theorem C63_SHA3_256 : (SHA3.KeccakO 136 0x06 32).Defined (fun o => o.chain.2) := (C63_Keccak 136 0x06 32).2

theorem C63_SHA3_384 : (SHA3.KeccakO 104 0x06 48).Defined (fun o => o.chain.2) := (C63_Keccak 104 0x06 48).2

theorem C63_SHA3_512 : (SHA3.KeccakO 72 0x06 64).Defined (fun o => o.chain.2) := (C63_Keccak 72 0x06 64).2

theorem C63_SHAKE_128 (d : Nat) : (SHA3.KeccakO 168 0x1F d).Defined (fun o => o.chain.2) := (C63_Keccak 168 0x1F d).2

theorem C63_SHAKE_256 (d : Nat) : (SHA3.KeccakO 136 0x1F d).Defined (fun o => o.chain.2) := (C63_Keccak 136 0x1F d).2

/-- `SipHash<C, D>` with any key; the constructor and `reset()` load the words of the key. -/
theorem C63_SipHash (C D : Nat) (key : Block 16) : DefinedSteps (SipHash.bodyO C) ∧
    (SipHash.SipHashCDO C D key).Defined (fun o => o.chain.2) :=
  ⟨Proof.OpsDefined.sip C, Proof.OpsDefined.sipClass C D key⟩

/-- the FNV classes -/
theorem C63_FNV (w v : Nat) : DefinedSteps (FNV.bodyO (w := w) v) ∧ (FNV.FNVHashO w v).Defined Prod.snd :=
  ⟨Proof.OpsDefined.fnv w v, Proof.OpsDefined.fnvClass w v⟩

theorem C63_CRC_32 : DefinedSteps CRC32.bodyO ∧ DefinedSteps CRC32.tailByteO ∧ CRC32.CRC_32O.Defined Prod.snd :=
  ⟨Proof.OpsDefined.crc32, Proof.OpsDefined.crc32Tail, Proof.OpsDefined.crc32Class⟩

theorem C63_MD2 : DefinedSteps MD2.bodyO ∧ MD2.MD2O.Defined (fun o => o.chain.2) :=
  ⟨Proof.OpsDefined.md2, Proof.OpsDefined.md2Class⟩

/-- `Tiger<V, D>`, for every `V` and `D` -/
theorem C63_Tiger (V D : Nat) : DefinedSteps Tiger.compressO ∧
    (mdApiO 64 8 (if V = 1 then 1 else 1 <<< 7) counterLE64 Tiger.compressO Tiger.iv (Tiger.toArray D)).Defined
      (fun o => o.chain.h.2) :=
  ⟨Proof.OpsDefined.tiger, Proof.OpsDefined.md _ Proof.OpsDefined.tiger _ _ _⟩

theorem C63_Whirlpool : DefinedSteps Whirlpool.compressO ∧
    (mdApiO 64 32 (1 <<< 7) counterBE128 Whirlpool.compressO Whirlpool.iv Whirlpool.toArray).Defined (fun o => o.chain.h.2) :=
  ⟨Proof.OpsDefined.whirlpool, Proof.OpsDefined.md _ Proof.OpsDefined.whirlpool _ _ _⟩

section
open Model.CShake
variable (nb : Nat → Nat) (R : Nat) [SHA3.RateOK R] (d : Int)

/-- cSHAKE: in the logs of both objects that the class may own -/
theorem C63_CSHAKE (name customize : List Byte) (ops : List Op) (o : CShakeO R)
    (h : (do runO (← constructO nb R d name customize) ops) = .ok o) : ∀ i ∈ o.log.1 ++ o.log.2, i.Defined := by
  have hg := Proof.OpsDefined.good_bind (Proof.OpsDefined.construct_fine nb (R := R) d name customize)
    (Proof.OpsDefined.crun_fine ops)
  have := hg o h
  intro i hi
  rcases List.mem_append.1 hi with hi | hi
  · exact this.1 i hi
  · exact this.2 i hi

/-- TupleHash, where `.add` is `nextData` -/
theorem C63_TupleHash (customize : List Byte) (ops : List Op) (o : TupleHashO R)
    (h : (do tupleRunO nb (← tupleConstructO nb R d customize) ops) = .ok o) :
    ∀ i ∈ o.cshake.log.1 ++ o.cshake.log.2, i.Defined := by
  have hg := Proof.OpsDefined.good_bind (I := fun o : TupleHashO R => Proof.OpsDefined.CFine o.cshake)
    (x := tupleConstructO nb R d customize)
    (Proof.OpsDefined.good_bind (Proof.OpsDefined.construct_fine nb (R := R) d Model.CShake.tupleHashName customize)
      fun c hc => Proof.OpsDefined.good_ok hc) (Proof.OpsDefined.tupleRun_fine nb ops)
  have := hg o h
  intro i hi
  rcases List.mem_append.1 hi with hi | hi
  · exact this.1 i hi
  · exact this.2 i hi

end

/-! ## Cases that meet the hypotheses -/

/-- the amounts of the shifts to the left -/
def leftShifts (l : List Instr) : List Nat := l.filterMap fun
  | .shl _ s => some s
  | _ => none

/-- a run that has shifted: the key is loaded and one word of 8 bytes is taken in -/
example : (Except.map (fun o => (leftShifts o.chain.2).eraseDups) ((SipHash.SipHashCDO 2 4 (Vector.replicate 16 7)).run
    (SipHash.SipHashCDO 2 4 (Vector.replicate 16 7)).fresh [.add (List.replicate 9 1)])).toOption =
      some [0, 8, 16, 24, 32, 40, 48, 56, 13, 17, 21] := by decide +kernel

/-- the words of one block of SHA-1 are loaded and rotated by 1, 2, 5 and 30 -/
example : (leftShifts (SHA1.compressO SHA1.iv (Vector.replicate 64 0)).ops).eraseDups = [24, 16, 8, 0, 5, 30, 1, 2] := by
  decide +kernel

/-- A rotation by 0 without the test for 0 is undefined. -/
example : ¬ DefinedSteps (fun (s : W32) (_ : Unit) => (Ops.var s <<< 0) ||| (Ops.var s >>> 32)) := fun h => by
  have := h 0 () (.shr 32 32) (by decide)
  exact absurd this (by decide)

/-- With the test it is not, and a rotation by more than the width is. -/
example : DefinedSteps (fun (s : W32) (_ : Unit) => (Ops.var s).rotl 0) := fun _ _ i hi => by
  simp [Ops.rotl, Ops.var] at hi

example : ¬ DefinedSteps (fun (s : W32) (_ : Unit) => (Ops.var s).rotl 33) := fun h => by
  have := h 0 () (.shl 32 33) (by decide)
  exact absurd this (by decide)

/-- One that shifts by an amount from the data may be undefined. -/
example : ¬ DefinedSteps (fun (s : W32) (m : W32) => Ops.var s <<< m.toNat) := fun h => by
  have := h 0 32 (.shl 32 32) (by decide)
  exact absurd this (by decide)

end Verif.Props
