import Verif.Proof.Store
import Verif.Props.Streaming
import Verif.Props.FNV
import Verif.Props.Tiger

/-!
# C39: copies, for the classes that are copied memberwise

Generated by tools/gen_copies.py. Programs with several objects, their histories and `CopiesIndependent` are
defined in Core/Store.lean; cSHAKE and TupleHash objects, which own heap memory, are in Props/CShake.lean.
-/

namespace Verif.Props
open Model

theorem C39_SHA1 : SHA1.SHA1.CopiesIndependent := Proof.Store.copies _ C02_SHA1
theorem C39_SHA2_224 : SHA2.SHA2_224.CopiesIndependent := Proof.Store.copies _ C02_SHA2_224
theorem C39_SHA2_256 : SHA2.SHA2_256.CopiesIndependent := Proof.Store.copies _ C02_SHA2_256
theorem C39_SHA2_384 : SHA2.SHA2_384.CopiesIndependent := Proof.Store.copies _ C02_SHA2_384
theorem C39_SHA2_512 : SHA2.SHA2_512.CopiesIndependent := Proof.Store.copies _ C02_SHA2_512
theorem C39_SHA2_512_224 : SHA2.SHA2_512_224.CopiesIndependent := Proof.Store.copies _ C02_SHA2_512_224
theorem C39_SHA2_512_256 : SHA2.SHA2_512_256.CopiesIndependent := Proof.Store.copies _ C02_SHA2_512_256
theorem C39_MD4 : MD4.MD4.CopiesIndependent := Proof.Store.copies _ C02_MD4
theorem C39_MD5 : MD5.MD5.CopiesIndependent := Proof.Store.copies _ C02_MD5
theorem C39_RIPEMD_128 : RIPEMD.RIPEMD_128.CopiesIndependent := Proof.Store.copies _ C02_RIPEMD_128
theorem C39_RIPEMD_160 : RIPEMD.RIPEMD_160.CopiesIndependent := Proof.Store.copies _ C02_RIPEMD_160
theorem C39_RIPEMD_256 : RIPEMD.RIPEMD_256.CopiesIndependent := Proof.Store.copies _ C02_RIPEMD_256
theorem C39_RIPEMD_320 : RIPEMD.RIPEMD_320.CopiesIndependent := Proof.Store.copies _ C02_RIPEMD_320
theorem C39_HAS_160 : HAS160.HAS_160.CopiesIndependent := Proof.Store.copies _ C02_HAS_160
theorem C39_SM3 : SM3.SM3.CopiesIndependent := Proof.Store.copies _ C02_SM3
theorem C39_Tiger1_192 : Tiger.Tiger1_192.CopiesIndependent := Proof.Store.copies _ C02_Tiger1_192
theorem C39_Tiger2_192 : Tiger.Tiger2_192.CopiesIndependent := Proof.Store.copies _ C02_Tiger2_192
theorem C39_Whirlpool : Whirlpool.Whirlpool.CopiesIndependent := Proof.Store.copies _ C02_Whirlpool
theorem C39_SHA3_224 : SHA3.SHA3_224.CopiesIndependent := Proof.Store.copies _ C02_SHA3_224
theorem C39_SHA3_256 : SHA3.SHA3_256.CopiesIndependent := Proof.Store.copies _ C02_SHA3_256
theorem C39_SHA3_384 : SHA3.SHA3_384.CopiesIndependent := Proof.Store.copies _ C02_SHA3_384
theorem C39_SHA3_512 : SHA3.SHA3_512.CopiesIndependent := Proof.Store.copies _ C02_SHA3_512
theorem C39_SHAKE_128 (d : Nat) : (SHA3.SHAKE_128 d).CopiesIndependent := Proof.Store.copies _ (C02_SHAKE_128 d)
theorem C39_SHAKE_256 (d : Nat) : (SHA3.SHAKE_256 d).CopiesIndependent := Proof.Store.copies _ (C02_SHAKE_256 d)
theorem C39_MD2 : MD2.MD2.CopiesIndependent := Proof.Store.copies _ C02_MD2
theorem C39_Blake1_224 : BLAKE.Blake1_224.CopiesIndependent := Proof.Store.copies _ C02_Blake1_224
theorem C39_Blake1_256 : BLAKE.Blake1_256.CopiesIndependent := Proof.Store.copies _ C02_Blake1_256
theorem C39_Blake1_384 : BLAKE.Blake1_384.CopiesIndependent := Proof.Store.copies _ C02_Blake1_384
theorem C39_Blake1_512 : BLAKE.Blake1_512.CopiesIndependent := Proof.Store.copies _ C02_Blake1_512
theorem C39_Blake2 : BLAKE2.Blake2.CopiesIndependent := Proof.Store.copies _ C02_Blake2
theorem C39_Blake2s : BLAKE2.Blake2s.CopiesIndependent := Proof.Store.copies _ C02_Blake2s
theorem C39_SipHash (C D : Nat) (key : Block 16) : (SipHash.SipHashCD C D key).CopiesIndependent := Proof.Store.copies _ (C02_SipHash C D key)
theorem C39_FNV32_1 : FNV.FNV32_1.CopiesIndependent := Proof.Store.copies _ C02_FNV32_1
theorem C39_FNV32_1a : FNV.FNV32_1a.CopiesIndependent := Proof.Store.copies _ C02_FNV32_1a
theorem C39_FNV64_1 : FNV.FNV64_1.CopiesIndependent := Proof.Store.copies _ C02_FNV64_1
theorem C39_FNV64_1a : FNV.FNV64_1a.CopiesIndependent := Proof.Store.copies _ C02_FNV64_1a
theorem C39_CRC_32 : CRC32.CRC_32.CopiesIndependent := Proof.Store.copies _ C02_CRC_32
theorem C39_FNV32_0 : FNV.FNV32_0.CopiesIndependent := Proof.Store.copies _ C02_FNV32_0
theorem C39_FNV64_0 : FNV.FNV64_0.CopiesIndependent := Proof.Store.copies _ C02_FNV64_0
theorem C39_Tiger_any (V D : Nat) : (Tiger.Tiger V D).CopiesIndependent := Proof.Store.copies _ (C02_Tiger_any V D)

/-- C39 in terms of digests: an object that is finalised at the end, with whatever copies made from it or into
it before, gives the digest of the message its own history added. -/
theorem C39_digest {O : Type} (A : API O) (spec : List Byte → List Byte) (c : A.Computes spec) (safe : A.Safe)
    (P : List Stmt) (l : LegalProgram P) (i : Nat) (ops : List Op) (h : history P i = some (ops ++ [.finalize]))
    (lo : Legal (ops ++ [.finalize])) :
    ∃ s o, A.exec (fun _ => none) P = .ok s ∧ s i = some o ∧ A.toArray o = .ok (spec (message ops)) := by
  obtain ⟨s, hs, g⟩ := Proof.Store.copies A safe P l
  have gi := g i
  rw [h] at gi
  obtain ⟨o, so, ro⟩ := gi
  obtain ⟨o', ro', t⟩ := c ops lo trivial
  rw [ro'] at ro
  cases ro
  exact ⟨s, _, hs, so, t⟩

/-! A program that meets the hypotheses: the copy is taken in the middle of a message, and both go on. -/
def forked : List Stmt :=
  [.new 0, .call 0 (.add [1, 2]), .copy 0 1, .call 1 (.add [3]), .call 0 (.add [4, 5]), .call 0 .finalize, .copy 0 2,
    .call 1 .finalize, .call 2 .reset]
example : LegalProgram forked ∧ history forked 0 = some ([.add [1, 2], .add [4, 5]] ++ [.finalize]) ∧
    history forked 1 = some ([.add [1, 2], .add [3]] ++ [.finalize]) ∧
    history forked 2 = some [.add [1, 2], .add [4, 5], .finalize, .reset] ∧ history forked 3 = none := by
  refine ⟨⟨⟨_, rfl, by decide⟩, rfl, ⟨_, rfl, by decide⟩, ⟨_, rfl, by decide⟩, ⟨_, rfl, by decide⟩, rfl,
    ⟨_, rfl, by decide⟩, ⟨_, rfl, by decide⟩, trivial⟩, rfl, rfl, rfl, rfl⟩

/-- The digests of the two objects of that program. -/
example : ∃ s o o', SHA1.SHA1.exec (fun _ => none) forked = .ok s ∧ s 0 = some o ∧ s 1 = some o' ∧
    SHA1.SHA1.toArray o = .ok (Spec.SHA1.sha1 [1, 2, 4, 5]) ∧ SHA1.SHA1.toArray o' = .ok (Spec.SHA1.sha1 [1, 2, 3]) := by
  have l : LegalProgram forked := ⟨⟨_, rfl, by decide⟩, rfl, ⟨_, rfl, by decide⟩, ⟨_, rfl, by decide⟩, ⟨_, rfl, by decide⟩,
    rfl, ⟨_, rfl, by decide⟩, ⟨_, rfl, by decide⟩, trivial⟩
  obtain ⟨s, o, e, h, t⟩ := C39_digest _ _ Proof.SHA1.refines.computes C02_SHA1 forked l 0 [.add [1, 2], .add [4, 5]] rfl (by decide)
  obtain ⟨s', o', e', h', t'⟩ := C39_digest _ _ Proof.SHA1.refines.computes C02_SHA1 forked l 1 [.add [1, 2], .add [3]] rfl (by decide)
  rw [e] at e'
  cases e'
  exact ⟨s, o, o', e, h, h', t, t'⟩

end Verif.Props
