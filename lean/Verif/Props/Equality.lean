import Verif.Proof.BLAKE
import Verif.Proof.BLAKE2
import Verif.Proof.CRC32
import Verif.Proof.Equality
import Verif.Proof.FNV
import Verif.Proof.HAS160
import Verif.Proof.KeccakPerm
import Verif.Proof.MD2
import Verif.Proof.MD4
import Verif.Proof.MD5
import Verif.Proof.RIPEMD
import Verif.Proof.SHA1
import Verif.Proof.SHA2
import Verif.Proof.SHA3
import Verif.Proof.SM3
import Verif.Proof.SipHash
import Verif.Proof.TigerGen
import Verif.Proof.Whirlpool

/-!
# C06 (`operator==`), class by class

Generated by tools/gen_equality.py. `EqSound`, `EqExact` and `EqBlind` are defined in Core/Equality.lean.
`EqExact` holds for the classes whose digest is the whole state.
-/

namespace Verif.Props
open Model

private theorem vec8 (k size : Nat) (hk : 0 < k) (hs : 8 * k = size) (h h' : Vector (BitVec (8 * k)) 8) :
    (h == h') = true ↔ SHA2.toArray k 8 size (fun _ => []) h = SHA2.toArray k 8 size (fun _ => []) h' := by
  unfold SHA2.toArray
  simp only [List.append_nil]
  rw [List.take_of_length_le (by simp), List.take_of_length_le (by simp)]
  exact Proof.Equality.vecBE k 8 size hk hs h h'

private theorem take8 {w : Nat} (h : Vector (BitVec w) 8) : h.toList.take 8 = h.toList :=
  List.take_of_length_le (by simp)

theorem C06_SHA1 : SHA1.SHA1.EqSound SHA1.eq :=
  Proof.Equality.sound (Proof.SHA1.refines) (fun o o' m h h' => by have h : o.chain.h = _ := h; have h' : o'.chain.h = _ := h'; exact beq_iff_eq.2 (h.trans h'.symm)) (fun o o' h => by have h : o.chain.h = o'.chain.h := beq_iff_eq.1 h; simp only [SHA1.SHA1, mdApi]; rw [h])
theorem C06_SHA1_exact : SHA1.SHA1.EqExact SHA1.eq :=
  Proof.Equality.exact (Proof.SHA1.refines) fun o o' => Proof.Equality.vecBE 4 5 20 (by decide) rfl _ _
theorem C06_SHA1_blind : SHA1.SHA1.EqBlind SHA1.eq 64 :=
  Proof.Equality.blind (Proof.SHA1.refines) (by decide) fun o o' m m' h h' l l' => beq_iff_eq.2 (congrArg (fun s => s.h) (Proof.Equality.relChain h h' l l'))

theorem C06_SHA2_224 : SHA2.SHA2_224.EqSound SHA2.eq32 :=
  Proof.Equality.sound (Proof.SHA2.r224) (fun o o' m h h' => by have h : o.chain.h = _ := h; have h' : o'.chain.h = _ := h'; exact beq_iff_eq.2 (h.trans h'.symm)) (fun o o' h => by have h : o.chain.h = o'.chain.h := beq_iff_eq.1 h; simp only [SHA2.SHA2_224, SHA2.api32, mdApi]; rw [h])
theorem C06_SHA2_224_blind : SHA2.SHA2_224.EqBlind SHA2.eq32 64 :=
  Proof.Equality.blind (Proof.SHA2.r224) (by decide) fun o o' m m' h h' l l' => beq_iff_eq.2 (congrArg (fun s => s.h) (Proof.Equality.relChain h h' l l'))

theorem C06_SHA2_256 : SHA2.SHA2_256.EqSound SHA2.eq32 :=
  Proof.Equality.sound (Proof.SHA2.r256) (fun o o' m h h' => by have h : o.chain.h = _ := h; have h' : o'.chain.h = _ := h'; exact beq_iff_eq.2 (h.trans h'.symm)) (fun o o' h => by have h : o.chain.h = o'.chain.h := beq_iff_eq.1 h; simp only [SHA2.SHA2_256, SHA2.api32, mdApi]; rw [h])
theorem C06_SHA2_256_exact : SHA2.SHA2_256.EqExact SHA2.eq32 :=
  Proof.Equality.exact (Proof.SHA2.r256) fun o o' => vec8 4 32 (by decide) rfl _ _
theorem C06_SHA2_256_blind : SHA2.SHA2_256.EqBlind SHA2.eq32 64 :=
  Proof.Equality.blind (Proof.SHA2.r256) (by decide) fun o o' m m' h h' l l' => beq_iff_eq.2 (congrArg (fun s => s.h) (Proof.Equality.relChain h h' l l'))

theorem C06_SHA2_384 : SHA2.SHA2_384.EqSound SHA2.eq64 :=
  Proof.Equality.sound (Proof.SHA2.r384) (fun o o' m h h' => by have h : o.chain.h = _ := h; have h' : o'.chain.h = _ := h'; exact beq_iff_eq.2 (h.trans h'.symm)) (fun o o' h => by have h : o.chain.h = o'.chain.h := beq_iff_eq.1 h; simp only [SHA2.SHA2_384, SHA2.api64, mdApi]; rw [h])
theorem C06_SHA2_384_blind : SHA2.SHA2_384.EqBlind SHA2.eq64 128 :=
  Proof.Equality.blind (Proof.SHA2.r384) (by decide) fun o o' m m' h h' l l' => beq_iff_eq.2 (congrArg (fun s => s.h) (Proof.Equality.relChain h h' l l'))

theorem C06_SHA2_512 : SHA2.SHA2_512.EqSound SHA2.eq64 :=
  Proof.Equality.sound (Proof.SHA2.r512) (fun o o' m h h' => by have h : o.chain.h = _ := h; have h' : o'.chain.h = _ := h'; exact beq_iff_eq.2 (h.trans h'.symm)) (fun o o' h => by have h : o.chain.h = o'.chain.h := beq_iff_eq.1 h; simp only [SHA2.SHA2_512, SHA2.api64, mdApi]; rw [h])
theorem C06_SHA2_512_exact : SHA2.SHA2_512.EqExact SHA2.eq64 :=
  Proof.Equality.exact (Proof.SHA2.r512) fun o o' => vec8 8 64 (by decide) rfl _ _
theorem C06_SHA2_512_blind : SHA2.SHA2_512.EqBlind SHA2.eq64 128 :=
  Proof.Equality.blind (Proof.SHA2.r512) (by decide) fun o o' m m' h h' l l' => beq_iff_eq.2 (congrArg (fun s => s.h) (Proof.Equality.relChain h h' l l'))

theorem C06_SHA2_512_224 : SHA2.SHA2_512_224.EqSound SHA2.eq64 :=
  Proof.Equality.sound (Proof.SHA2.r512_224) (fun o o' m h h' => by have h : o.chain.h = _ := h; have h' : o'.chain.h = _ := h'; exact beq_iff_eq.2 (h.trans h'.symm)) (fun o o' h => by have h : o.chain.h = o'.chain.h := beq_iff_eq.1 h; simp only [SHA2.SHA2_512_224, SHA2.api64, mdApi]; rw [h])
theorem C06_SHA2_512_224_blind : SHA2.SHA2_512_224.EqBlind SHA2.eq64 128 :=
  Proof.Equality.blind (Proof.SHA2.r512_224) (by decide) fun o o' m m' h h' l l' => beq_iff_eq.2 (congrArg (fun s => s.h) (Proof.Equality.relChain h h' l l'))

theorem C06_SHA2_512_256 : SHA2.SHA2_512_256.EqSound SHA2.eq64 :=
  Proof.Equality.sound (Proof.SHA2.r512_256) (fun o o' m h h' => by have h : o.chain.h = _ := h; have h' : o'.chain.h = _ := h'; exact beq_iff_eq.2 (h.trans h'.symm)) (fun o o' h => by have h : o.chain.h = o'.chain.h := beq_iff_eq.1 h; simp only [SHA2.SHA2_512_256, SHA2.api64, mdApi]; rw [h])
theorem C06_SHA2_512_256_blind : SHA2.SHA2_512_256.EqBlind SHA2.eq64 128 :=
  Proof.Equality.blind (Proof.SHA2.r512_256) (by decide) fun o o' m m' h h' l l' => beq_iff_eq.2 (congrArg (fun s => s.h) (Proof.Equality.relChain h h' l l'))

theorem C06_MD4 : MD4.MD4.EqSound MD4.eq :=
  Proof.Equality.sound (Proof.MD4.refines) (fun o o' m h h' => by have h : o.chain.h = _ := h; have h' : o'.chain.h = _ := h'; exact beq_iff_eq.2 (h.trans h'.symm)) (fun o o' h => by have h : o.chain.h = o'.chain.h := beq_iff_eq.1 h; simp only [MD4.MD4, mdApi]; rw [h])
theorem C06_MD4_exact : MD4.MD4.EqExact MD4.eq :=
  Proof.Equality.exact (Proof.MD4.refines) fun o o' => Proof.Equality.vecLE 4 4 16 (by decide) rfl _ _
theorem C06_MD4_blind : MD4.MD4.EqBlind MD4.eq 64 :=
  Proof.Equality.blind (Proof.MD4.refines) (by decide) fun o o' m m' h h' l l' => beq_iff_eq.2 (congrArg (fun s => s.h) (Proof.Equality.relChain h h' l l'))

theorem C06_MD5 : MD5.MD5.EqSound MD5.eq :=
  Proof.Equality.sound (Proof.MD5.refines) (fun o o' m h h' => by have h : o.chain.h = _ := h; have h' : o'.chain.h = _ := h'; exact beq_iff_eq.2 (h.trans h'.symm)) (fun o o' h => by have h : o.chain.h = o'.chain.h := beq_iff_eq.1 h; simp only [MD5.MD5, mdApi]; rw [h])
theorem C06_MD5_exact : MD5.MD5.EqExact MD5.eq :=
  Proof.Equality.exact (Proof.MD5.refines) fun o o' => Proof.Equality.vecLE 4 4 16 (by decide) rfl _ _
theorem C06_MD5_blind : MD5.MD5.EqBlind MD5.eq 64 :=
  Proof.Equality.blind (Proof.MD5.refines) (by decide) fun o o' m m' h h' l l' => beq_iff_eq.2 (congrArg (fun s => s.h) (Proof.Equality.relChain h h' l l'))

theorem C06_RIPEMD_128 : RIPEMD.RIPEMD_128.EqSound RIPEMD.eq :=
  Proof.Equality.sound (Proof.RIPEMD.r128) (fun o o' m h h' => by have h : o.chain.h = _ := h; have h' : o'.chain.h = _ := h'; exact beq_iff_eq.2 (h.trans h'.symm)) (fun o o' h => by have h : o.chain.h = o'.chain.h := beq_iff_eq.1 h; simp only [RIPEMD.RIPEMD_128, mdApi]; rw [h])
theorem C06_RIPEMD_128_exact : RIPEMD.RIPEMD_128.EqExact RIPEMD.eq :=
  Proof.Equality.exact (Proof.RIPEMD.r128) fun o o' => Proof.Equality.vecLE 4 4 16 (by decide) rfl _ _
theorem C06_RIPEMD_128_blind : RIPEMD.RIPEMD_128.EqBlind RIPEMD.eq 64 :=
  Proof.Equality.blind (Proof.RIPEMD.r128) (by decide) fun o o' m m' h h' l l' => beq_iff_eq.2 (congrArg (fun s => s.h) (Proof.Equality.relChain h h' l l'))

theorem C06_RIPEMD_160 : RIPEMD.RIPEMD_160.EqSound RIPEMD.eq :=
  Proof.Equality.sound (Proof.RIPEMD.r160) (fun o o' m h h' => by have h : o.chain.h = _ := h; have h' : o'.chain.h = _ := h'; exact beq_iff_eq.2 (h.trans h'.symm)) (fun o o' h => by have h : o.chain.h = o'.chain.h := beq_iff_eq.1 h; simp only [RIPEMD.RIPEMD_160, mdApi]; rw [h])
theorem C06_RIPEMD_160_exact : RIPEMD.RIPEMD_160.EqExact RIPEMD.eq :=
  Proof.Equality.exact (Proof.RIPEMD.r160) fun o o' => Proof.Equality.vecLE 4 5 20 (by decide) rfl _ _
theorem C06_RIPEMD_160_blind : RIPEMD.RIPEMD_160.EqBlind RIPEMD.eq 64 :=
  Proof.Equality.blind (Proof.RIPEMD.r160) (by decide) fun o o' m m' h h' l l' => beq_iff_eq.2 (congrArg (fun s => s.h) (Proof.Equality.relChain h h' l l'))

theorem C06_RIPEMD_256 : RIPEMD.RIPEMD_256.EqSound RIPEMD.eq :=
  Proof.Equality.sound (Proof.RIPEMD.r256) (fun o o' m h h' => by have h : o.chain.h = _ := h; have h' : o'.chain.h = _ := h'; exact beq_iff_eq.2 (h.trans h'.symm)) (fun o o' h => by have h : o.chain.h = o'.chain.h := beq_iff_eq.1 h; simp only [RIPEMD.RIPEMD_256, mdApi]; rw [h])
theorem C06_RIPEMD_256_exact : RIPEMD.RIPEMD_256.EqExact RIPEMD.eq :=
  Proof.Equality.exact (Proof.RIPEMD.r256) fun o o' => Proof.Equality.vecLE 4 8 32 (by decide) rfl _ _
theorem C06_RIPEMD_256_blind : RIPEMD.RIPEMD_256.EqBlind RIPEMD.eq 64 :=
  Proof.Equality.blind (Proof.RIPEMD.r256) (by decide) fun o o' m m' h h' l l' => beq_iff_eq.2 (congrArg (fun s => s.h) (Proof.Equality.relChain h h' l l'))

theorem C06_RIPEMD_320 : RIPEMD.RIPEMD_320.EqSound RIPEMD.eq :=
  Proof.Equality.sound (Proof.RIPEMD.r320) (fun o o' m h h' => by have h : o.chain.h = _ := h; have h' : o'.chain.h = _ := h'; exact beq_iff_eq.2 (h.trans h'.symm)) (fun o o' h => by have h : o.chain.h = o'.chain.h := beq_iff_eq.1 h; simp only [RIPEMD.RIPEMD_320, mdApi]; rw [h])
theorem C06_RIPEMD_320_exact : RIPEMD.RIPEMD_320.EqExact RIPEMD.eq :=
  Proof.Equality.exact (Proof.RIPEMD.r320) fun o o' => Proof.Equality.vecLE 4 10 40 (by decide) rfl _ _
theorem C06_RIPEMD_320_blind : RIPEMD.RIPEMD_320.EqBlind RIPEMD.eq 64 :=
  Proof.Equality.blind (Proof.RIPEMD.r320) (by decide) fun o o' m m' h h' l l' => beq_iff_eq.2 (congrArg (fun s => s.h) (Proof.Equality.relChain h h' l l'))

theorem C06_HAS_160 : HAS160.HAS_160.EqSound HAS160.eq :=
  Proof.Equality.sound (Proof.HAS160.refines) (fun o o' m h h' => by have h : o.chain.h = _ := h; have h' : o'.chain.h = _ := h'; exact beq_iff_eq.2 (h.trans h'.symm)) (fun o o' h => by have h : o.chain.h = o'.chain.h := beq_iff_eq.1 h; simp only [HAS160.HAS_160, mdApi]; rw [h])
theorem C06_HAS_160_exact : HAS160.HAS_160.EqExact HAS160.eq :=
  Proof.Equality.exact (Proof.HAS160.refines) fun o o' => Proof.Equality.vecLE 4 5 20 (by decide) rfl _ _
theorem C06_HAS_160_blind : HAS160.HAS_160.EqBlind HAS160.eq 64 :=
  Proof.Equality.blind (Proof.HAS160.refines) (by decide) fun o o' m m' h h' l l' => beq_iff_eq.2 (congrArg (fun s => s.h) (Proof.Equality.relChain h h' l l'))

theorem C06_SM3 : SM3.SM3.EqSound SM3.eq :=
  Proof.Equality.sound (Proof.SM3.refines) (fun o o' m h h' => by have h : o.chain.h = _ := h; have h' : o'.chain.h = _ := h'; exact beq_iff_eq.2 (h.trans h'.symm)) (fun o o' h => by have h : o.chain.h = o'.chain.h := beq_iff_eq.1 h; simp only [SM3.SM3, mdApi]; rw [h])
theorem C06_SM3_exact : SM3.SM3.EqExact SM3.eq :=
  Proof.Equality.exact (Proof.SM3.refines) fun o o' => Proof.Equality.vecBE 4 8 32 (by decide) rfl _ _
theorem C06_SM3_blind : SM3.SM3.EqBlind SM3.eq 64 :=
  Proof.Equality.blind (Proof.SM3.refines) (by decide) fun o o' m m' h h' l l' => beq_iff_eq.2 (congrArg (fun s => s.h) (Proof.Equality.relChain h h' l l'))

theorem C06_Tiger1_192 : Tiger.Tiger1_192.EqSound Tiger.eq :=
  Proof.Equality.sound (Proof.Tiger.r1) (fun o o' m h h' => by have h : o.chain.h = _ := h; have h' : o'.chain.h = _ := h'; exact beq_iff_eq.2 (h.trans h'.symm)) (fun o o' h => by have h : o.chain.h = o'.chain.h := beq_iff_eq.1 h; simp only [Tiger.Tiger1_192, Tiger.Tiger, mdApi]; rw [h])
theorem C06_Tiger1_192_exact : Tiger.Tiger1_192.EqExact Tiger.eq :=
  Proof.Equality.exact (Proof.Tiger.r1) fun o o' => Proof.Equality.vecLE 8 3 24 (by decide) rfl _ _
theorem C06_Tiger1_192_blind : Tiger.Tiger1_192.EqBlind Tiger.eq 64 :=
  Proof.Equality.blind (Proof.Tiger.r1) (by decide) fun o o' m m' h h' l l' => beq_iff_eq.2 (congrArg (fun s => s.h) (Proof.Equality.relChain h h' l l'))

theorem C06_Tiger2_192 : Tiger.Tiger2_192.EqSound Tiger.eq :=
  Proof.Equality.sound (Proof.Tiger.r2) (fun o o' m h h' => by have h : o.chain.h = _ := h; have h' : o'.chain.h = _ := h'; exact beq_iff_eq.2 (h.trans h'.symm)) (fun o o' h => by have h : o.chain.h = o'.chain.h := beq_iff_eq.1 h; simp only [Tiger.Tiger2_192, Tiger.Tiger, mdApi]; rw [h])
theorem C06_Tiger2_192_exact : Tiger.Tiger2_192.EqExact Tiger.eq :=
  Proof.Equality.exact (Proof.Tiger.r2) fun o o' => Proof.Equality.vecLE 8 3 24 (by decide) rfl _ _
theorem C06_Tiger2_192_blind : Tiger.Tiger2_192.EqBlind Tiger.eq 64 :=
  Proof.Equality.blind (Proof.Tiger.r2) (by decide) fun o o' m m' h h' l l' => beq_iff_eq.2 (congrArg (fun s => s.h) (Proof.Equality.relChain h h' l l'))

theorem C06_Whirlpool : Whirlpool.Whirlpool.EqSound Whirlpool.eq :=
  Proof.Equality.sound (Proof.Whirlpool.refines) (fun o o' m h h' => by have h : o.chain.h = _ := h; have h' : o'.chain.h = _ := h'; exact beq_iff_eq.2 (h.trans h'.symm)) (fun o o' h => by have h : o.chain.h = o'.chain.h := beq_iff_eq.1 h; simp only [Whirlpool.Whirlpool, mdApi]; rw [h])
theorem C06_Whirlpool_exact : Whirlpool.Whirlpool.EqExact Whirlpool.eq :=
  Proof.Equality.exact (Proof.Whirlpool.refines) fun o o' => Proof.Equality.vecBE 8 8 64 (by decide) rfl _ _
theorem C06_Whirlpool_blind : Whirlpool.Whirlpool.EqBlind Whirlpool.eq 64 :=
  Proof.Equality.blind (Proof.Whirlpool.refines) (by decide) fun o o' m m' h h' l l' => beq_iff_eq.2 (congrArg (fun s => s.h) (Proof.Equality.relChain h h' l l'))

theorem C06_MD2 : MD2.MD2.EqSound MD2.eq :=
  Proof.Equality.sound (Proof.MD2.refines) (fun o o' m h h' => by have h : o.chain = _ := h; have h' : o'.chain = _ := h'; exact beq_iff_eq.2 (by rw [h, h'])) (fun o o' h => by have h : o.chain.x = o'.chain.x := beq_iff_eq.1 h; simp only [MD2.MD2, blockApi, MD2.toArray]; rw [h])
theorem C06_MD2_blind : MD2.MD2.EqBlind MD2.eq 16 :=
  Proof.Equality.blind (Proof.MD2.refines) (by decide) fun o o' m m' h h' l l' => beq_iff_eq.2 (congrArg (fun s => s.x) (Proof.Equality.relChain h h' l l'))

theorem C06_Blake1_224 : BLAKE.Blake1_224.EqSound BLAKE.eq32 :=
  Proof.Equality.sound (Proof.BLAKE.refines224) (fun o o' m h h' => by have h : o.chain = _ := h; have h' : o'.chain = _ := h'; exact beq_iff_eq.2 (by rw [h, h'])) (fun o o' h => by have h : o.chain.h = o'.chain.h := beq_iff_eq.1 h; simp only [BLAKE.Blake1_224, BLAKE.api32, blockApi, BLAKE.toArray]; rw [h])
theorem C06_Blake1_224_blind : BLAKE.Blake1_224.EqBlind BLAKE.eq32 64 :=
  Proof.Equality.blind (Proof.BLAKE.refines224) (by decide) fun o o' m m' h h' l l' => beq_iff_eq.2 (congrArg (fun s => s.h) (Proof.Equality.relChain h h' l l'))

theorem C06_Blake1_256 : BLAKE.Blake1_256.EqSound BLAKE.eq32 :=
  Proof.Equality.sound (Proof.BLAKE.refines256) (fun o o' m h h' => by have h : o.chain = _ := h; have h' : o'.chain = _ := h'; exact beq_iff_eq.2 (by rw [h, h'])) (fun o o' h => by have h : o.chain.h = o'.chain.h := beq_iff_eq.1 h; simp only [BLAKE.Blake1_256, BLAKE.api32, blockApi, BLAKE.toArray]; rw [h])
theorem C06_Blake1_256_exact : BLAKE.Blake1_256.EqExact BLAKE.eq32 :=
  Proof.Equality.exact (Proof.BLAKE.refines256) fun o o' => by
    show _ ↔ BLAKE.toArray 4 8 32 o = BLAKE.toArray 4 8 32 o'
    unfold BLAKE.toArray
    rw [take8, take8]
    exact Proof.Equality.vecBE 4 8 32 (by decide) rfl _ _
theorem C06_Blake1_256_blind : BLAKE.Blake1_256.EqBlind BLAKE.eq32 64 :=
  Proof.Equality.blind (Proof.BLAKE.refines256) (by decide) fun o o' m m' h h' l l' => beq_iff_eq.2 (congrArg (fun s => s.h) (Proof.Equality.relChain h h' l l'))

theorem C06_Blake1_384 : BLAKE.Blake1_384.EqSound BLAKE.eq64 :=
  Proof.Equality.sound (Proof.BLAKE.refines384) (fun o o' m h h' => by have h : o.chain = _ := h; have h' : o'.chain = _ := h'; exact beq_iff_eq.2 (by rw [h, h'])) (fun o o' h => by have h : o.chain.h = o'.chain.h := beq_iff_eq.1 h; simp only [BLAKE.Blake1_384, BLAKE.api64, blockApi, BLAKE.toArray]; rw [h])
theorem C06_Blake1_384_blind : BLAKE.Blake1_384.EqBlind BLAKE.eq64 128 :=
  Proof.Equality.blind (Proof.BLAKE.refines384) (by decide) fun o o' m m' h h' l l' => beq_iff_eq.2 (congrArg (fun s => s.h) (Proof.Equality.relChain h h' l l'))

theorem C06_Blake1_512 : BLAKE.Blake1_512.EqSound BLAKE.eq64 :=
  Proof.Equality.sound (Proof.BLAKE.refines512) (fun o o' m h h' => by have h : o.chain = _ := h; have h' : o'.chain = _ := h'; exact beq_iff_eq.2 (by rw [h, h'])) (fun o o' h => by have h : o.chain.h = o'.chain.h := beq_iff_eq.1 h; simp only [BLAKE.Blake1_512, BLAKE.api64, blockApi, BLAKE.toArray]; rw [h])
theorem C06_Blake1_512_exact : BLAKE.Blake1_512.EqExact BLAKE.eq64 :=
  Proof.Equality.exact (Proof.BLAKE.refines512) fun o o' => by
    show _ ↔ BLAKE.toArray 8 8 64 o = BLAKE.toArray 8 8 64 o'
    unfold BLAKE.toArray
    rw [take8, take8]
    exact Proof.Equality.vecBE 8 8 64 (by decide) rfl _ _
theorem C06_Blake1_512_blind : BLAKE.Blake1_512.EqBlind BLAKE.eq64 128 :=
  Proof.Equality.blind (Proof.BLAKE.refines512) (by decide) fun o o' m m' h h' l l' => beq_iff_eq.2 (congrArg (fun s => s.h) (Proof.Equality.relChain h h' l l'))

theorem C06_Blake2 : BLAKE2.Blake2.EqSound BLAKE2.eq2 :=
  Proof.Equality.sound (Proof.BLAKE2.refines2) (fun o o' m h h' => by have h : o.chain.h = _ := h; have h' : o'.chain.h = _ := h'; exact beq_iff_eq.2 (h.trans h'.symm)) (fun o o' h => by have h : o.chain.h = o'.chain.h := beq_iff_eq.1 h; simp only [BLAKE2.Blake2, BLAKE2.api, BLAKE2.toArray]; rw [h])
theorem C06_Blake2_exact : BLAKE2.Blake2.EqExact BLAKE2.eq2 :=
  Proof.Equality.exact (Proof.BLAKE2.refines2) fun o o' => Proof.Equality.vecLE 8 8 64 (by decide) rfl _ _
theorem C06_Blake2_blind : BLAKE2.Blake2.EqBlind BLAKE2.eq2 128 :=
  Proof.Equality.blind (Proof.BLAKE2.refines2) (by decide) fun o o' m m' h h' l l' => beq_iff_eq.2 (congrArg (fun s => s.h) (Proof.BLAKE2.relChain (by decide) h h' l l'))

theorem C06_Blake2s : BLAKE2.Blake2s.EqSound BLAKE2.eq2s :=
  Proof.Equality.sound (Proof.BLAKE2.refines2s) (fun o o' m h h' => by have h : o.chain.h = _ := h; have h' : o'.chain.h = _ := h'; exact beq_iff_eq.2 (h.trans h'.symm)) (fun o o' h => by have h : o.chain.h = o'.chain.h := beq_iff_eq.1 h; simp only [BLAKE2.Blake2s, BLAKE2.api, BLAKE2.toArray]; rw [h])
theorem C06_Blake2s_exact : BLAKE2.Blake2s.EqExact BLAKE2.eq2s :=
  Proof.Equality.exact (Proof.BLAKE2.refines2s) fun o o' => Proof.Equality.vecLE 4 8 32 (by decide) rfl _ _
theorem C06_Blake2s_blind : BLAKE2.Blake2s.EqBlind BLAKE2.eq2s 64 :=
  Proof.Equality.blind (Proof.BLAKE2.refines2s) (by decide) fun o o' m m' h h' l l' => beq_iff_eq.2 (congrArg (fun s => s.h) (Proof.BLAKE2.relChain (by decide) h h' l l'))

theorem C06_SipHash (C D : Nat) (key : Block 16) : (SipHash.SipHashCD C D key).EqSound SipHash.eq :=
  Proof.Equality.sound (Proof.SipHash.refines C D key) (fun o o' m h h' => by exact beq_iff_eq.2 (h.1.2.trans h'.1.2.symm)) (fun o o' h => by have h : o.chain.state = o'.chain.state := beq_iff_eq.1 h; simp only [SipHash.SipHashCD, SipHash.toArray]; rw [h])
theorem C06_SipHash_blind (C D : Nat) (key : Block 16) : (SipHash.SipHashCD C D key).EqBlind SipHash.eq 8 :=
  Proof.Equality.blind (Proof.SipHash.refines C D key) (by decide) fun o o' m m' h h' l l' => beq_iff_eq.2 (congrArg (fun s => s.state) (Proof.Equality.relChain h h' l l'))

theorem C06_FNV32_1 : FNV.FNV32_1.EqSound FNV.eq :=
  Proof.Equality.sound (Proof.FNV.refines32_1) (fun o o' m h h' => by have h : o = _ := h; have h' : o' = _ := h'; exact beq_iff_eq.2 (h.trans h'.symm)) (fun o o' h => by rw [beq_iff_eq.1 h])
theorem C06_FNV32_1_exact : FNV.FNV32_1.EqExact FNV.eq :=
  Proof.Equality.exact (Proof.FNV.refines32_1) fun o o' => Proof.Equality.wordBE 4 _ _

theorem C06_FNV32_1a : FNV.FNV32_1a.EqSound FNV.eq :=
  Proof.Equality.sound (Proof.FNV.refines32_1a) (fun o o' m h h' => by have h : o = _ := h; have h' : o' = _ := h'; exact beq_iff_eq.2 (h.trans h'.symm)) (fun o o' h => by rw [beq_iff_eq.1 h])
theorem C06_FNV32_1a_exact : FNV.FNV32_1a.EqExact FNV.eq :=
  Proof.Equality.exact (Proof.FNV.refines32_1a) fun o o' => Proof.Equality.wordBE 4 _ _

theorem C06_FNV64_1 : FNV.FNV64_1.EqSound FNV.eq :=
  Proof.Equality.sound (Proof.FNV.refines64_1) (fun o o' m h h' => by have h : o = _ := h; have h' : o' = _ := h'; exact beq_iff_eq.2 (h.trans h'.symm)) (fun o o' h => by rw [beq_iff_eq.1 h])
theorem C06_FNV64_1_exact : FNV.FNV64_1.EqExact FNV.eq :=
  Proof.Equality.exact (Proof.FNV.refines64_1) fun o o' => Proof.Equality.wordBE 8 _ _

theorem C06_FNV64_1a : FNV.FNV64_1a.EqSound FNV.eq :=
  Proof.Equality.sound (Proof.FNV.refines64_1a) (fun o o' m h h' => by have h : o = _ := h; have h' : o' = _ := h'; exact beq_iff_eq.2 (h.trans h'.symm)) (fun o o' h => by rw [beq_iff_eq.1 h])
theorem C06_FNV64_1a_exact : FNV.FNV64_1a.EqExact FNV.eq :=
  Proof.Equality.exact (Proof.FNV.refines64_1a) fun o o' => Proof.Equality.wordBE 8 _ _

theorem C06_CRC_32 : CRC32.CRC_32.EqSound CRC32.eq :=
  Proof.Equality.sound (Proof.CRC32.refines) (fun o o' m h h' => by have h : o = _ := h; have h' : o' = _ := h'; exact beq_iff_eq.2 (h.trans h'.symm)) (fun o o' h => by rw [beq_iff_eq.1 h])
theorem C06_CRC_32_exact : CRC32.CRC_32.EqExact CRC32.eq :=
  Proof.Equality.exact (Proof.CRC32.refines) fun o o' => Proof.Equality.wordBE 4 _ _

/-! ### Keccak based classes -/

/-- The converse holds too: equal states absorb to equal digests. -/
private theorem keccak (R : Nat) [SHA3.RateOK R] (hR : R % 8 = 0) (P : Byte) (suf : List Bool)
    (hs : Proof.SHA3.IsSuffix P suf) (d : Nat) : (SHA3.Keccak R P d).EqSound SHA3.eq := by
  intro ops ops' hl hl'
  obtain ⟨o, e, f⟩ := Proof.SHA3.run_final R P d ops hl
  obtain ⟨o', e', f'⟩ := Proof.SHA3.run_final R P d ops' hl'
  refine ⟨o, o', e, e', fun hm => ?_, fun h => ?_⟩
  · rw [hm] at f
    exact beq_iff_eq.2 (f.1.trans f'.1.symm)
  · have key := (Proof.SHA3.eq_iff R hR P suf hs d o o' _ _ f f').1 h
    show SHA3.toVector o = SHA3.toVector o'
    rw [Proof.SHA3.absorb_spec R hR P suf hs, Proof.SHA3.absorb_spec R hR P suf hs] at key
    unfold SHA3.toVector
    rw [f.2, f'.2, Proof.SHA3.bitsOf_inj _ _ key]

theorem C06_SHA3_224 : SHA3.SHA3_224.EqSound SHA3.eq := keccak 144 rfl 0x06 _ Proof.SHA3.suffix_sha3 28
theorem C06_SHA3_224_blind : SHA3.SHA3_224.EqBlind SHA3.eq 144 :=
  Proof.Equality.blind (Proof.SHA3.refines224) (by decide) fun o o' m m' h h' l l' => beq_iff_eq.2 (congrArg (fun s => s.state) (Proof.Equality.relChain h h' l l'))

theorem C06_SHA3_256 : SHA3.SHA3_256.EqSound SHA3.eq := keccak 136 rfl 0x06 _ Proof.SHA3.suffix_sha3 32
theorem C06_SHA3_256_blind : SHA3.SHA3_256.EqBlind SHA3.eq 136 :=
  Proof.Equality.blind (Proof.SHA3.refines256) (by decide) fun o o' m m' h h' l l' => beq_iff_eq.2 (congrArg (fun s => s.state) (Proof.Equality.relChain h h' l l'))

theorem C06_SHA3_384 : SHA3.SHA3_384.EqSound SHA3.eq := keccak 104 rfl 0x06 _ Proof.SHA3.suffix_sha3 48
theorem C06_SHA3_384_blind : SHA3.SHA3_384.EqBlind SHA3.eq 104 :=
  Proof.Equality.blind (Proof.SHA3.refines384) (by decide) fun o o' m m' h h' l l' => beq_iff_eq.2 (congrArg (fun s => s.state) (Proof.Equality.relChain h h' l l'))

theorem C06_SHA3_512 : SHA3.SHA3_512.EqSound SHA3.eq := keccak 72 rfl 0x06 _ Proof.SHA3.suffix_sha3 64
theorem C06_SHA3_512_blind : SHA3.SHA3_512.EqBlind SHA3.eq 72 :=
  Proof.Equality.blind (Proof.SHA3.refines512) (by decide) fun o o' m m' h h' l l' => beq_iff_eq.2 (congrArg (fun s => s.state) (Proof.Equality.relChain h h' l l'))

theorem C06_SHAKE_128 (d : Nat) : (SHA3.SHAKE_128 d).EqSound SHA3.eq := keccak 168 rfl 0x1F _ Proof.SHA3.suffix_shake d
theorem C06_SHAKE_128_blind (d : Nat) : (SHA3.SHAKE_128 d).EqBlind SHA3.eq 168 :=
  Proof.Equality.blind (Proof.SHA3.refinesShake128 d) (by decide) fun o o' m m' h h' l l' => beq_iff_eq.2 (congrArg (fun s => s.state) (Proof.Equality.relChain h h' l l'))

/-- C06 fails between objects of one extendable-output class with different requested lengths: whatever the
message, they compare equal if the lengths need the same number of output blocks, but the digests differ. -/
theorem C06_SHAKE_128_lengths_fails (d d' : Nat) (hd : (d - 1) / 168 = (d' - 1) / 168) (hne : d ≠ d')
    (ops ops' : List Op) (hl : Legal (ops ++ [.finalize])) (hl' : Legal (ops' ++ [.finalize]))
    (hm : message ops = message ops') :
    ∃ o o' v v', (SHA3.SHAKE_128 d).run (SHA3.SHAKE_128 d).fresh (ops ++ [.finalize]) = .ok o ∧
      (SHA3.SHAKE_128 d').run (SHA3.SHAKE_128 d').fresh (ops' ++ [.finalize]) = .ok o' ∧
      SHA3.eq o o' = true ∧ (SHA3.SHAKE_128 d).toArray o = .ok v ∧ (SHA3.SHAKE_128 d').toArray o' = .ok v' ∧
      v ≠ v' := by
  obtain ⟨o, e, f⟩ := (Proof.SHA3.refinesShake128 d).run_finalize ops hl
  obtain ⟨o', e', f'⟩ := (Proof.SHA3.refinesShake128 d').run_finalize ops' hl'
  refine ⟨o, o', _, _, e, e', ?_, (Proof.SHA3.refinesShake128 d).out o _ f,
    (Proof.SHA3.refinesShake128 d').out o' _ f', ?_⟩
  · have g : Proof.SHA3.Final 168 0x1F d o (message ops) := f
    have g' : Proof.SHA3.Final 168 0x1F d' o' (message ops') := f'
    exact beq_iff_eq.2 (by rw [g.1, g'.1, hd, hm])
  · intro h
    have := congrArg List.length h
    rw [Proof.SHA3.shake128_length, Proof.SHA3.shake128_length] at this
    exact hne this

example : (16 - 1) / 168 = (32 - 1) / 168 ∧ 16 ≠ 32 := by decide

theorem C06_SHAKE_256 (d : Nat) : (SHA3.SHAKE_256 d).EqSound SHA3.eq := keccak 136 rfl 0x1F _ Proof.SHA3.suffix_shake d
theorem C06_SHAKE_256_blind (d : Nat) : (SHA3.SHAKE_256 d).EqBlind SHA3.eq 136 :=
  Proof.Equality.blind (Proof.SHA3.refinesShake256 d) (by decide) fun o o' m m' h h' l l' => beq_iff_eq.2 (congrArg (fun s => s.state) (Proof.Equality.relChain h h' l l'))

/-- C06 fails between objects of one extendable-output class with different requested lengths: whatever the
message, they compare equal if the lengths need the same number of output blocks, but the digests differ. -/
theorem C06_SHAKE_256_lengths_fails (d d' : Nat) (hd : (d - 1) / 136 = (d' - 1) / 136) (hne : d ≠ d')
    (ops ops' : List Op) (hl : Legal (ops ++ [.finalize])) (hl' : Legal (ops' ++ [.finalize]))
    (hm : message ops = message ops') :
    ∃ o o' v v', (SHA3.SHAKE_256 d).run (SHA3.SHAKE_256 d).fresh (ops ++ [.finalize]) = .ok o ∧
      (SHA3.SHAKE_256 d').run (SHA3.SHAKE_256 d').fresh (ops' ++ [.finalize]) = .ok o' ∧
      SHA3.eq o o' = true ∧ (SHA3.SHAKE_256 d).toArray o = .ok v ∧ (SHA3.SHAKE_256 d').toArray o' = .ok v' ∧
      v ≠ v' := by
  obtain ⟨o, e, f⟩ := (Proof.SHA3.refinesShake256 d).run_finalize ops hl
  obtain ⟨o', e', f'⟩ := (Proof.SHA3.refinesShake256 d').run_finalize ops' hl'
  refine ⟨o, o', _, _, e, e', ?_, (Proof.SHA3.refinesShake256 d).out o _ f,
    (Proof.SHA3.refinesShake256 d').out o' _ f', ?_⟩
  · have g : Proof.SHA3.Final 136 0x1F d o (message ops) := f
    have g' : Proof.SHA3.Final 136 0x1F d' o' (message ops') := f'
    exact beq_iff_eq.2 (by rw [g.1, g'.1, hd, hm])
  · intro h
    have := congrArg List.length h
    rw [Proof.SHA3.shake256_length, Proof.SHA3.shake256_length] at this
    exact hne this

example : (16 - 1) / 136 = (32 - 1) / 136 ∧ 16 ≠ 32 := by decide

/-- Objects of any class that satisfies `EqSound` and compare equal have the same text, integer value and
`std::hash`. -/
theorem C06_readouts {O : Type} (A : API O) (o o' : O) (h : A.toArray o = A.toArray o') :
    A.toString o = A.toString o' ∧ A.stdHash o = A.stdHash o' ∧ ∀ k, A.toUInt k o = A.toUInt k o' := by
  simp only [API.toString, API.stdHash, API.toUInt, h, and_self, implies_true]

/-! Histories and pieces that meet the hypotheses. -/
example : Legal ([.add [1, 2], .add [3]] ++ [.finalize]) ∧ Legal ([.add [9], .reset, .add [1, 2, 3]] ++ [.finalize]) ∧
    message [.add [1, 2], .add [3]] = message [.add [9], .reset, .add [1, 2, 3]] := by decide
example : ([1, 2, 3] : List Byte).length < 64 ∧ ([] : List Byte).length < 64 := by decide
example := C06_SHAKE_128_lengths_fails 16 32 (by decide) (by decide) [.add [1, 2], .add [3]] [.add [9], .reset, .add [1, 2, 3]]
  (by decide) (by decide) (by decide)
example := C06_SHAKE_256_lengths_fails 16 32 (by decide) (by decide) [.add [1, 2], .add [3]] [.add [9], .reset, .add [1, 2, 3]]
  (by decide) (by decide) (by decide)

end Verif.Props
