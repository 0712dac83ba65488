import Verif.Proof.OpsTables

/-!
# C61: what is executed does not depend on the data

Generated by tools/gen_ops.py. A class with a log appends to it every operation that its block function executes
(Core/Ops.lean, Model/Ops.lean, Model/OpsTables.lean): arithmetic, shifts with their amounts, and the element of every
array that is read or written. Each theorem says that the block function with the log computes what the block function of
the class computes, that its log is the same for every state and block, that the class with the log is the class
otherwise, and that the log of an object is a function of the calls and of the lengths of the data.
-/

namespace Verif.Props
open Model

theorem C61_SHA1 : Steady SHA1.compress SHA1.compressO ∧
    SHA1.SHA1.Oblivious (mdApiO 64 8 0x80 counterBE64 SHA1.compressO SHA1.iv SHA1.toArray)
      mdUnlogged (fun o => o.chain.h.2) :=
  ⟨Proof.Ops.sha1, Proof.Ops.oblivious (Proof.Ops.mdSame _ Proof.Ops.sha1 _ _ _)⟩

theorem C61_SHA2_224 : Steady (SHA2.compress SHA2.cfg32 (by decide)) (SHA2.compressO SHA2.cfgO32 (by decide)) ∧
    SHA2.SHA2_224.Oblivious (mdApiO 64 8 0x80 counterBE64 (SHA2.compressO SHA2.cfgO32 (by decide)) SHA2.iv224 (SHA2.toArray 4 7 28 fun _ => []))
      mdUnlogged (fun o => o.chain.h.2) :=
  ⟨(Proof.Ops.sha2 Proof.Ops.sha2OK32 (by decide)), Proof.Ops.oblivious (Proof.Ops.mdSame _ (Proof.Ops.sha2 Proof.Ops.sha2OK32 (by decide)) _ _ _)⟩

theorem C61_SHA2_256 : Steady (SHA2.compress SHA2.cfg32 (by decide)) (SHA2.compressO SHA2.cfgO32 (by decide)) ∧
    SHA2.SHA2_256.Oblivious (mdApiO 64 8 0x80 counterBE64 (SHA2.compressO SHA2.cfgO32 (by decide)) SHA2.iv256 (SHA2.toArray 4 8 32 fun _ => []))
      mdUnlogged (fun o => o.chain.h.2) :=
  ⟨(Proof.Ops.sha2 Proof.Ops.sha2OK32 (by decide)), Proof.Ops.oblivious (Proof.Ops.mdSame _ (Proof.Ops.sha2 Proof.Ops.sha2OK32 (by decide)) _ _ _)⟩

theorem C61_SHA2_384 : Steady (SHA2.compress SHA2.cfg64 (by decide)) (SHA2.compressO SHA2.cfgO64 (by decide)) ∧
    SHA2.SHA2_384.Oblivious (mdApiO 128 16 0x80 counterBE128 (SHA2.compressO SHA2.cfgO64 (by decide)) SHA2.iv384 (SHA2.toArray 8 6 48 fun _ => []))
      mdUnlogged (fun o => o.chain.h.2) :=
  ⟨(Proof.Ops.sha2 Proof.Ops.sha2OK64 (by decide)), Proof.Ops.oblivious (Proof.Ops.mdSame _ (Proof.Ops.sha2 Proof.Ops.sha2OK64 (by decide)) _ _ _)⟩

theorem C61_SHA2_512 : Steady (SHA2.compress SHA2.cfg64 (by decide)) (SHA2.compressO SHA2.cfgO64 (by decide)) ∧
    SHA2.SHA2_512.Oblivious (mdApiO 128 16 0x80 counterBE128 (SHA2.compressO SHA2.cfgO64 (by decide)) SHA2.iv512 (SHA2.toArray 8 8 64 fun _ => []))
      mdUnlogged (fun o => o.chain.h.2) :=
  ⟨(Proof.Ops.sha2 Proof.Ops.sha2OK64 (by decide)), Proof.Ops.oblivious (Proof.Ops.mdSame _ (Proof.Ops.sha2 Proof.Ops.sha2OK64 (by decide)) _ _ _)⟩

theorem C61_SHA2_512_224 : Steady (SHA2.compress SHA2.cfg64 (by decide)) (SHA2.compressO SHA2.cfgO64 (by decide)) ∧
    SHA2.SHA2_512_224.Oblivious (mdApiO 128 16 0x80 counterBE128 (SHA2.compressO SHA2.cfgO64 (by decide)) SHA2.iv512_224 (SHA2.toArray 8 3 28 fun mh =>
      [ror 8 mh[3] 56, ror 8 mh[3] 48, ror 8 mh[3] 40, ror 8 mh[3] 32]))
      mdUnlogged (fun o => o.chain.h.2) :=
  ⟨(Proof.Ops.sha2 Proof.Ops.sha2OK64 (by decide)), Proof.Ops.oblivious (Proof.Ops.mdSame _ (Proof.Ops.sha2 Proof.Ops.sha2OK64 (by decide)) _ _ _)⟩

theorem C61_SHA2_512_256 : Steady (SHA2.compress SHA2.cfg64 (by decide)) (SHA2.compressO SHA2.cfgO64 (by decide)) ∧
    SHA2.SHA2_512_256.Oblivious (mdApiO 128 16 0x80 counterBE128 (SHA2.compressO SHA2.cfgO64 (by decide)) SHA2.iv512_256 (SHA2.toArray 8 4 32 fun _ => []))
      mdUnlogged (fun o => o.chain.h.2) :=
  ⟨(Proof.Ops.sha2 Proof.Ops.sha2OK64 (by decide)), Proof.Ops.oblivious (Proof.Ops.mdSame _ (Proof.Ops.sha2 Proof.Ops.sha2OK64 (by decide)) _ _ _)⟩

theorem C61_MD4 : Steady MD4.compress MD4.compressO ∧
    MD4.MD4.Oblivious (mdApiO 64 8 0x80 counterLE64 MD4.compressO MD4.iv MD4.toArray)
      mdUnlogged (fun o => o.chain.h.2) :=
  ⟨Proof.Ops.md4, Proof.Ops.oblivious (Proof.Ops.mdSame _ Proof.Ops.md4 _ _ _)⟩

theorem C61_MD5 : Steady MD5.compress MD5.compressO ∧
    MD5.MD5.Oblivious (mdApiO 64 8 0x80 counterLE64 MD5.compressO MD5.iv MD5.toArray)
      mdUnlogged (fun o => o.chain.h.2) :=
  ⟨Proof.Ops.md5, Proof.Ops.oblivious (Proof.Ops.mdSame _ Proof.Ops.md5 _ _ _)⟩

theorem C61_HAS_160 : Steady HAS160.compress HAS160.compressO ∧
    HAS160.HAS_160.Oblivious (mdApiO 64 8 0x80 counterLE64 HAS160.compressO HAS160.iv HAS160.toArray)
      mdUnlogged (fun o => o.chain.h.2) :=
  ⟨Proof.Ops.has160, Proof.Ops.oblivious (Proof.Ops.mdSame _ Proof.Ops.has160 _ _ _)⟩

theorem C61_HAS_V_320 : Steady HASV.compress HASV.compressO ∧
    HASV.HAS_V_320.Oblivious (mdApiO 128 9 (1 <<< 7) HASV.counter HASV.compressO HASV.iv HASV.toArray)
      mdUnlogged (fun o => o.chain.h.2) :=
  ⟨Proof.Ops.hasv, Proof.Ops.oblivious (Proof.Ops.mdSame _ Proof.Ops.hasv _ _ _)⟩

theorem C61_SM3 : Steady SM3.compress SM3.compressO ∧
    SM3.SM3.Oblivious (mdApiO 64 8 0x80 counterBE64 SM3.compressO SM3.iv SM3.toArray)
      mdUnlogged (fun o => o.chain.h.2) :=
  ⟨Proof.Ops.sm3, Proof.Ops.oblivious (Proof.Ops.mdSame _ Proof.Ops.sm3 _ _ _)⟩

theorem C61_RIPEMD_128 : Steady RIPEMD.compress128 RIPEMD.compress128O ∧
    RIPEMD.RIPEMD_128.Oblivious (mdApiO 64 8 0x80 counterLE64 RIPEMD.compress128O RIPEMD.iv128 RIPEMD.toArray)
      mdUnlogged (fun o => o.chain.h.2) :=
  ⟨Proof.Ops.ripemd128, Proof.Ops.oblivious (Proof.Ops.mdSame _ Proof.Ops.ripemd128 _ _ _)⟩

theorem C61_RIPEMD_160 : Steady RIPEMD.compress160 RIPEMD.compress160O ∧
    RIPEMD.RIPEMD_160.Oblivious (mdApiO 64 8 0x80 counterLE64 RIPEMD.compress160O RIPEMD.iv160 RIPEMD.toArray)
      mdUnlogged (fun o => o.chain.h.2) :=
  ⟨Proof.Ops.ripemd160, Proof.Ops.oblivious (Proof.Ops.mdSame _ Proof.Ops.ripemd160 _ _ _)⟩

theorem C61_RIPEMD_256 : Steady RIPEMD.compress256 RIPEMD.compress256O ∧
    RIPEMD.RIPEMD_256.Oblivious (mdApiO 64 8 0x80 counterLE64 RIPEMD.compress256O RIPEMD.iv256 RIPEMD.toArray)
      mdUnlogged (fun o => o.chain.h.2) :=
  ⟨Proof.Ops.ripemd256, Proof.Ops.oblivious (Proof.Ops.mdSame _ Proof.Ops.ripemd256 _ _ _)⟩

theorem C61_RIPEMD_320 : Steady RIPEMD.compress320 RIPEMD.compress320O ∧
    RIPEMD.RIPEMD_320.Oblivious (mdApiO 64 8 0x80 counterLE64 RIPEMD.compress320O RIPEMD.iv320 RIPEMD.toArray)
      mdUnlogged (fun o => o.chain.h.2) :=
  ⟨Proof.Ops.ripemd320, Proof.Ops.oblivious (Proof.Ops.mdSame _ Proof.Ops.ripemd320 _ _ _)⟩

/-- `p` is the number of bytes of padding, which decides how the counter is mixed in. -/
theorem C61_Blake1_224 : (∀ p, Steady (BLAKE.body BLAKE.cfg224 p) (BLAKE.bodyO BLAKE.cfgO224 p)) ∧
    BLAKE.Blake1_224.Oblivious (BLAKE.apiO BLAKE.cfgO224 8 false cntAdd64 lenWritesBE64 ⟨0, BLAKE.iv224⟩ 4 7 28)
      Obj.unlogged (fun o => o.chain.2) :=
  ⟨Proof.Ops.BLAKE.steady Proof.Ops.BLAKE.ok224, Proof.Ops.oblivious (Proof.Ops.BLAKE.same Proof.Ops.BLAKE.ok224 _ _ _ _ _ _ _ _)⟩

/-- `p` is the number of bytes of padding, which decides how the counter is mixed in. -/
theorem C61_Blake1_256 : (∀ p, Steady (BLAKE.body BLAKE.cfg256 p) (BLAKE.bodyO BLAKE.cfgO256 p)) ∧
    BLAKE.Blake1_256.Oblivious (BLAKE.apiO BLAKE.cfgO256 8 true cntAdd64 lenWritesBE64 ⟨0, BLAKE.iv256⟩ 4 8 32)
      Obj.unlogged (fun o => o.chain.2) :=
  ⟨Proof.Ops.BLAKE.steady Proof.Ops.BLAKE.ok256, Proof.Ops.oblivious (Proof.Ops.BLAKE.same Proof.Ops.BLAKE.ok256 _ _ _ _ _ _ _ _)⟩

/-- `p` is the number of bytes of padding, which decides how the counter is mixed in. -/
theorem C61_Blake1_384 : (∀ p, Steady (BLAKE.body BLAKE.cfg512 p) (BLAKE.bodyO BLAKE.cfgO512 p)) ∧
    BLAKE.Blake1_384.Oblivious (BLAKE.apiO BLAKE.cfgO512 16 false cntAdd128 lenWritesBE128 ⟨{}, BLAKE.iv384⟩ 8 6 48)
      Obj.unlogged (fun o => o.chain.2) :=
  ⟨Proof.Ops.BLAKE.steady Proof.Ops.BLAKE.ok512, Proof.Ops.oblivious (Proof.Ops.BLAKE.same Proof.Ops.BLAKE.ok512 _ _ _ _ _ _ _ _)⟩

/-- `p` is the number of bytes of padding, which decides how the counter is mixed in. -/
theorem C61_Blake1_512 : (∀ p, Steady (BLAKE.body BLAKE.cfg512 p) (BLAKE.bodyO BLAKE.cfgO512 p)) ∧
    BLAKE.Blake1_512.Oblivious (BLAKE.apiO BLAKE.cfgO512 16 true cntAdd128 lenWritesBE128 ⟨{}, BLAKE.iv512⟩ 8 8 64)
      Obj.unlogged (fun o => o.chain.2) :=
  ⟨Proof.Ops.BLAKE.steady Proof.Ops.BLAKE.ok512, Proof.Ops.oblivious (Proof.Ops.BLAKE.same Proof.Ops.BLAKE.ok512 _ _ _ _ _ _ _ _)⟩

/-- `f` tells the last block from the others, `p` is its number of bytes of padding. -/
theorem C61_Blake2 : (∀ f p, Steady (BLAKE2.body BLAKE2.cfg2 f p) (BLAKE2.bodyO BLAKE2.cfgO2 f p)) ∧
    BLAKE2.Blake2.Oblivious (BLAKE2.apiO BLAKE2.cfgO2 8 64) Obj.unlogged (fun o => o.chain.2) :=
  ⟨Proof.Ops.BLAKE2.steady Proof.Ops.BLAKE2.ok2, Proof.Ops.oblivious (Proof.Ops.BLAKE2.same Proof.Ops.BLAKE2.ok2 _ _)⟩

/-- `f` tells the last block from the others, `p` is its number of bytes of padding. -/
theorem C61_Blake2s : (∀ f p, Steady (BLAKE2.body BLAKE2.cfg2s f p) (BLAKE2.bodyO BLAKE2.cfgO2s f p)) ∧
    BLAKE2.Blake2s.Oblivious (BLAKE2.apiO BLAKE2.cfgO2s 4 32) Obj.unlogged (fun o => o.chain.2) :=
  ⟨Proof.Ops.BLAKE2.steady Proof.Ops.BLAKE2.ok2s, Proof.Ops.oblivious (Proof.Ops.BLAKE2.same Proof.Ops.BLAKE2.ok2s _ _)⟩

/-- every rate, padding byte and length of the output -/
theorem C61_Keccak (R : Nat) [SHA3.RateOK R] (P : Byte) (d : Nat) : Steady (SHA3.body (R := R)) (SHA3.bodyO (R := R)) ∧
    (SHA3.Keccak R P d).Oblivious (SHA3.KeccakO R P d) Obj.unlogged (fun o => o.chain.2) :=
  ⟨Proof.Ops.SHA3.steady, Proof.Ops.oblivious (Proof.Ops.SHA3.same P d)⟩

theorem C61_SHA3_224 : SHA3.SHA3_224.Oblivious (SHA3.KeccakO 144 0x06 28) Obj.unlogged (fun o => o.chain.2) :=
  (C61_Keccak 144 0x06 28).2

theorem C61_SHA3_256 : SHA3.SHA3_256.Oblivious (SHA3.KeccakO 136 0x06 32) Obj.unlogged (fun o => o.chain.2) :=
  (C61_Keccak 136 0x06 32).2

theorem C61_SHA3_384 : SHA3.SHA3_384.Oblivious (SHA3.KeccakO 104 0x06 48) Obj.unlogged (fun o => o.chain.2) :=
  (C61_Keccak 104 0x06 48).2

theorem C61_SHA3_512 : SHA3.SHA3_512.Oblivious (SHA3.KeccakO 72 0x06 64) Obj.unlogged (fun o => o.chain.2) :=
  (C61_Keccak 72 0x06 64).2

theorem C61_SHAKE_128 (d : Nat) : (SHA3.SHAKE_128 d).Oblivious (SHA3.KeccakO 168 0x1F d) Obj.unlogged
    (fun o => o.chain.2) := (C61_Keccak 168 0x1F d).2

theorem C61_SHAKE_256 (d : Nat) : (SHA3.SHAKE_256 d).Oblivious (SHA3.KeccakO 136 0x1F d) Obj.unlogged
    (fun o => o.chain.2) := (C61_Keccak 136 0x1F d).2

/-- `SipHash<C, D>`: the operations do not depend on the key either; `key` and `key'` are the keys of two objects. The
operations of the constructor and of `reset()` on the key are in the log. -/
theorem C61_SipHash (C D : Nat) (key key' : Block 16) : Steady (SipHash.body C) (SipHash.bodyO C) ∧
    (SipHash.SipHashCD C D key).SameBut (SipHash.SipHashCDO C D key) Obj.unlogged ∧
    (SipHash.SipHashCDO C D key).SameOps (SipHash.SipHashCDO C D key') (fun o => o.chain.2) :=
  ⟨Proof.Ops.SipHash.steady C, Proof.Ops.SipHash.same C D key key'⟩

/-- the FNV classes -/
theorem C61_FNV (w v : Nat) : Steady (FNV.body (w := w) v) (FNV.bodyO v) ∧
    (FNV.FNVHash w v).Oblivious (FNV.FNVHashO w v) Prod.fst Prod.snd :=
  ⟨Proof.Ops.FNV.steady v, Proof.Ops.oblivious (Proof.Ops.FNV.same w v)⟩

/-! ## The classes with table lookups

The tables of CRC-32, MD2, Tiger and Whirlpool are read at an index taken from the data. Everything else is the same. -/

theorem C61_CRC_32_partial : SteadyButLookups CRC32.body CRC32.bodyO ∧ SteadyButLookups CRC32.tailByte CRC32.tailByteO ∧
    CRC32.CRC_32.Oblivious CRC32.CRC_32O Prod.fst (fun o => o.2.map Instr.anywhere) :=
  ⟨Proof.OpsTables.CRC32.body, Proof.OpsTables.CRC32.tailByte, Proof.Ops.oblivious Proof.OpsTables.CRC32.same⟩

theorem C61_MD2_partial : SteadyButLookups MD2.body MD2.bodyO ∧
    MD2.MD2.Oblivious MD2.MD2O Obj.unlogged (fun o => o.chain.2.map Instr.anywhere) :=
  ⟨Proof.OpsTables.MD2.steady, Proof.Ops.oblivious Proof.OpsTables.MD2.same⟩

/-- `Tiger<V, D>`, for every `V` and `D` -/
theorem C61_Tiger_partial (V D : Nat) : SteadyButLookups Tiger.compress Tiger.compressO ∧
    (Tiger.Tiger V D).Oblivious (mdApiO 64 8 (if V = 1 then 1 else 1 <<< 7) counterLE64 Tiger.compressO Tiger.iv (Tiger.toArray D))
      mdUnlogged (fun o => o.chain.h.2.map Instr.anywhere) :=
  ⟨Proof.OpsTables.Tiger.steady, Proof.Ops.oblivious (Proof.Ops.mdSameButLookups _ Proof.OpsTables.Tiger.steady _ _ _)⟩

theorem C61_Whirlpool_partial : SteadyButLookups Whirlpool.compress Whirlpool.compressO ∧
    Whirlpool.Whirlpool.Oblivious (mdApiO 64 32 (1 <<< 7) counterBE128 Whirlpool.compressO Whirlpool.iv Whirlpool.toArray)
      mdUnlogged (fun o => o.chain.h.2.map Instr.anywhere) :=
  ⟨Proof.OpsTables.Whirlpool.steady, Proof.Ops.oblivious (Proof.Ops.mdSameButLookups _ Proof.OpsTables.Whirlpool.steady _ _ _)⟩

/-- the indices of the lookups -/
def lookups (l : List Instr) : List Nat := l.filterMap fun
  | .lookup _ i => some i
  | _ => none

/-- Two messages of one byte are looked up at different places. -/
theorem C61_CRC_32_fails : ¬ CRC32.CRC_32O.SameOps CRC32.CRC_32O Prod.snd := by
  intro h
  have := congrArg lookups (h [.add [0]] [.add [1]] rfl)
  exact absurd this (by decide +kernel)

theorem C61_MD2_fails : ¬ MD2.MD2O.SameOps MD2.MD2O (fun o => o.chain.2) := by
  intro h
  have := h [.add (List.replicate 16 0)] [.add (List.replicate 16 1)] rfl
  exact absurd (congrArg lookups this) (by decide +kernel)

theorem C61_Tiger_fails (V D : Nat) : ¬ (mdApiO 64 8 (if V = 1 then 1 else 1 <<< 7) counterLE64 Tiger.compressO Tiger.iv
    (Tiger.toArray D)).SameOps (mdApiO 64 8 (if V = 1 then 1 else 1 <<< 7) counterLE64 Tiger.compressO Tiger.iv (Tiger.toArray D))
      (fun o => o.chain.h.2) := by
  intro h
  have : [] ++ (Tiger.compressO Tiger.iv (Vector.replicate 64 0)).ops = [] ++ (Tiger.compressO Tiger.iv (Vector.replicate 64 1)).ops :=
    h [.add (List.replicate 64 0)] [.add (List.replicate 64 1)] rfl
  exact absurd (congrArg lookups this) (by decide +kernel)

theorem C61_Whirlpool_fails : ¬ (mdApiO 64 32 (1 <<< 7) counterBE128 Whirlpool.compressO Whirlpool.iv
    Whirlpool.toArray).SameOps (mdApiO 64 32 (1 <<< 7) counterBE128 Whirlpool.compressO Whirlpool.iv Whirlpool.toArray)
      (fun o => o.chain.h.2) := by
  intro h
  have := h [.add (List.replicate 64 0)] [.add (List.replicate 64 1)] rfl
  exact absurd (congrArg lookups this) (by decide +kernel)

/-! ## How long the logs are -/

/-- the number of operations for one block -/
theorem C61_counts :
    (∀ h m, (SHA1.compressO h m).ops.length = 2016) ∧
    (∀ h m, (SHA2.compressO SHA2.cfgO32 (by decide) h m).ops.length = 3904) ∧
    (∀ h m, (SHA2.compressO SHA2.cfgO64 (by decide) h m).ops.length = 5120) ∧
    (∀ h m, (MD4.compressO h m).ops.length = 960) ∧
    (∀ h m, (MD5.compressO h m).ops.length = 1344) ∧
    (∀ h m, (RIPEMD.compress128O h m).ops.length = 2552) ∧
    (∀ h m, (RIPEMD.compress160O h m).ops.length = 3838) ∧
    (∀ h m, (RIPEMD.compress256O h m).ops.length = 2560) ∧
    (∀ h m, (RIPEMD.compress320O h m).ops.length = 3848) ∧
    (∀ h m, (HAS160.compressO h m).ops.length = 1420) ∧
    (∀ h m, (HASV.compressO h m).ops.length = 3824) ∧
    (∀ h m, (SM3.compressO h m).ops.length = 3984) ∧
    (∀ s, (SHA3.permuteO s).ops.length = 11664) ∧
    (∀ v m, (SipHash.bodyO 2 v m).ops.length = 176) := by
  refine ⟨fun h m => ?_, fun h m => ?_, fun h m => ?_, fun h m => ?_, fun h m => ?_, fun h m => ?_, fun h m => ?_,
    fun h m => ?_, fun h m => ?_, fun h m => ?_, fun h m => ?_, fun h m => ?_, fun s => ?_, fun v m => ?_⟩
  · rw [Proof.Ops.sha1.same h m SHA1.iv (Vector.replicate 64 0)]; decide +kernel
  · rw [(Proof.Ops.sha2 Proof.Ops.sha2OK32 (by decide)).same h m SHA2.iv256 (Vector.replicate 64 0)]; decide +kernel
  · rw [(Proof.Ops.sha2 Proof.Ops.sha2OK64 (by decide)).same h m SHA2.iv512 (Vector.replicate 128 0)]; decide +kernel
  · rw [Proof.Ops.md4.same h m MD4.iv (Vector.replicate 64 0)]; decide +kernel
  · rw [Proof.Ops.md5.same h m MD5.iv (Vector.replicate 64 0)]; decide +kernel
  · rw [Proof.Ops.ripemd128.same h m RIPEMD.iv128 (Vector.replicate 64 0)]; decide +kernel
  · rw [Proof.Ops.ripemd160.same h m RIPEMD.iv160 (Vector.replicate 64 0)]; decide +kernel
  · rw [Proof.Ops.ripemd256.same h m RIPEMD.iv256 (Vector.replicate 64 0)]; decide +kernel
  · rw [Proof.Ops.ripemd320.same h m RIPEMD.iv320 (Vector.replicate 64 0)]; decide +kernel
  · rw [Proof.Ops.has160.same h m HAS160.iv (Vector.replicate 64 0)]; decide +kernel
  · rw [Proof.Ops.hasv.same h m HASV.iv (Vector.replicate 128 0)]; decide +kernel
  · rw [Proof.Ops.sm3.same h m SM3.iv (Vector.replicate 64 0)]; decide +kernel
  · rw [Proof.Ops.SHA3.permute_same s (Vector.replicate 25 0)]; decide +kernel
  · rw [(Proof.Ops.SipHash.steady 2).same v m (Vector.replicate 4 0) (Vector.replicate 8 0)]; decide +kernel

/-! ## Cases that meet the hypotheses -/

/-- two programs that make the same calls with different data -/
example : Both (fun o o' => o.chain.2 = o'.chain.2)
    ((SipHash.SipHashCDO 2 4 (Vector.replicate 16 1)).run (SipHash.SipHashCDO 2 4 (Vector.replicate 16 1)).fresh
      [.add [1, 2, 3], .finalize, .reset, .add (List.replicate 20 7)])
    ((SipHash.SipHashCDO 2 4 (Vector.replicate 16 9)).run (SipHash.SipHashCDO 2 4 (Vector.replicate 16 9)).fresh
      [.add [9, 9, 9], .finalize, .reset, .add (List.replicate 20 0)]) :=
  (C61_SipHash 2 4 (Vector.replicate 16 1) (Vector.replicate 16 9)).2.2 _ _ rfl

attribute [local irreducible] Both in
/-- 100 bytes and two calls of `finalize()` -/
example : Both (fun o o' => o.chain.h.2 = o'.chain.h.2)
    ((mdApiO 64 8 0x80 counterBE64 SHA1.compressO SHA1.iv SHA1.toArray).run (mdApiO 64 8 0x80 counterBE64 SHA1.compressO SHA1.iv
      SHA1.toArray).fresh [.add (List.replicate 100 1), .finalize, .finalize])
    ((mdApiO 64 8 0x80 counterBE64 SHA1.compressO SHA1.iv SHA1.toArray).run (mdApiO 64 8 0x80 counterBE64 SHA1.compressO SHA1.iv
      SHA1.toArray).fresh [.add (List.replicate 100 2), .finalize, .finalize]) :=
  C61_SHA1.2.ops _ _ (by decide)

/-- A program that skips an operation for some data is not steady. -/
example : ¬ Steady (fun (s : W32) (m : W32) => if m = 0 then s else s + m)
    (fun s m => if m = 0 then Ops.var s else Ops.var s + Ops.var m) := fun h => by
  have := h.same 0 0 0 1
  exact absurd this (by decide)

/-- One that shifts by an amount from the data is not steady. -/
example : ¬ Steady (fun (s : W32) (m : W32) => s <<< m.toNat) (fun s m => Ops.var s <<< m.toNat) := fun h => by
  have := h.same 0 0 0 1
  exact absurd this (by decide)

/-- One that leaves a loop early, as a comparison of two strings does, is not steady. -/
example : ¬ Steady (fun (s : W32) (m : List W32) => m.foldl (fun a x => if a = x then a else a + x) s)
    (fun s m => Ops.fold (fun a x => if a = x then Ops.var a else Ops.var a + Ops.var x) m s) := fun h => by
  have := h.same 0 [0, 0] 0 [1, 2]
  exact absurd this (by decide)

end Verif.Props
