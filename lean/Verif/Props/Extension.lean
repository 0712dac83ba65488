import Verif.Proof.Extension
import Verif.Props.Padding

/-!
# C45: length extension

Generated by tools/gen_extension.py. `Extends` and `PublicPadding` are defined in Core/Extension.lean, the paddings in
the specifications. For a class whose digest is the whole state the statement is about digests; the classes that
publish a part of the state (SHA-224, SHA-384, SHA-512/t) are compared with `==`, which looks at the whole state.
-/

namespace Verif.Props
open Model Proof.Extension

theorem C45_SHA1_public : PublicPadding Spec.SHA1.pad :=
  padded_public 64 8 0x80 fun n => Spec.toBE 8 (8 * n)

theorem C45_SHA2_256_public : PublicPadding (Spec.SHA2.pad 64 8) :=
  padded_public 64 8 0x80 fun n => Spec.toBE 8 (8 * n)

theorem C45_SHA2_512_public : PublicPadding (Spec.SHA2.pad 128 16) :=
  padded_public 128 16 0x80 fun n => Spec.toBE 16 (8 * n)

theorem C45_MD4_public : PublicPadding Spec.MD4.pad :=
  padded_public 64 8 0x80 fun n => Spec.toLE 8 (8 * n)

theorem C45_MD5_public : PublicPadding Spec.MD5.pad :=
  padded_public 64 8 0x80 fun n => Spec.toLE 8 (8 * n)

theorem C45_RIPEMD_public : PublicPadding Spec.RIPEMD.pad :=
  padded_public 64 8 0x80 fun n => Spec.toLE 8 (8 * n)

theorem C45_HAS_160_public : PublicPadding Spec.HAS160.pad :=
  padded_public 64 8 0x80 fun n => Spec.toLE 8 (8 * n)

theorem C45_SM3_public : PublicPadding Spec.SM3.pad :=
  padded_public 64 8 0x80 fun n => Spec.toBE 8 (8 * n)

theorem C45_Tiger1_public : PublicPadding (Spec.Tiger.pad 0x01) :=
  padded_public 64 8 0x01 fun n => Spec.toLE 8 (8 * n)

theorem C45_Tiger2_public : PublicPadding (Spec.Tiger.pad 0x80) :=
  padded_public 64 8 0x80 fun n => Spec.toLE 8 (8 * n)

theorem C45_Whirlpool_public : PublicPadding Spec.Whirlpool.pad :=
  padded_public 64 32 0x80 fun n => Spec.toBE 32 (8 * n)

theorem C45_SHA1_state : SHA1.SHA1.Extends (fun o o' => SHA1.eq o o' = true) Spec.SHA1.pad (fun _ => True) :=
  mdExtends Proof.SHA1.refines (fun _ _ _ => trivial) (fun o => o.chain.h) (fun _ _ => beq_iff_eq) (fun _ _ h _ => h) (by decide)
    C27_SHA1 C45_SHA1_public
theorem C45_SHA1 : SHA1.SHA1.Extends (fun o o' => SHA1.SHA1.toArray o = SHA1.SHA1.toArray o')
    Spec.SHA1.pad (fun _ => True) := toDigest C45_SHA1_state C06_SHA1_exact

theorem C45_SHA2_224_state : SHA2.SHA2_224.Extends (fun o o' => SHA2.eq32 o o' = true) (Spec.SHA2.pad 64 8) (fun _ => True) :=
  mdExtends Proof.SHA2.r224 (fun _ _ _ => trivial) (fun o => o.chain.h) (fun _ _ => beq_iff_eq) (fun _ _ h _ => h) (by decide)
    C27_SHA2_256 C45_SHA2_256_public

theorem C45_SHA2_256_state : SHA2.SHA2_256.Extends (fun o o' => SHA2.eq32 o o' = true) (Spec.SHA2.pad 64 8) (fun _ => True) :=
  mdExtends Proof.SHA2.r256 (fun _ _ _ => trivial) (fun o => o.chain.h) (fun _ _ => beq_iff_eq) (fun _ _ h _ => h) (by decide)
    C27_SHA2_256 C45_SHA2_256_public
theorem C45_SHA2_256 : SHA2.SHA2_256.Extends (fun o o' => SHA2.SHA2_256.toArray o = SHA2.SHA2_256.toArray o')
    (Spec.SHA2.pad 64 8) (fun _ => True) := toDigest C45_SHA2_256_state C06_SHA2_256_exact

theorem C45_SHA2_384_state : SHA2.SHA2_384.Extends (fun o o' => SHA2.eq64 o o' = true) (Spec.SHA2.pad 128 16) (fun _ => True) :=
  mdExtends Proof.SHA2.r384 (fun _ _ _ => trivial) (fun o => o.chain.h) (fun _ _ => beq_iff_eq) (fun _ _ h _ => h) (by decide)
    C27_SHA2_512 C45_SHA2_512_public

theorem C45_SHA2_512_state : SHA2.SHA2_512.Extends (fun o o' => SHA2.eq64 o o' = true) (Spec.SHA2.pad 128 16) (fun _ => True) :=
  mdExtends Proof.SHA2.r512 (fun _ _ _ => trivial) (fun o => o.chain.h) (fun _ _ => beq_iff_eq) (fun _ _ h _ => h) (by decide)
    C27_SHA2_512 C45_SHA2_512_public
theorem C45_SHA2_512 : SHA2.SHA2_512.Extends (fun o o' => SHA2.SHA2_512.toArray o = SHA2.SHA2_512.toArray o')
    (Spec.SHA2.pad 128 16) (fun _ => True) := toDigest C45_SHA2_512_state C06_SHA2_512_exact

theorem C45_SHA2_512_224_state : SHA2.SHA2_512_224.Extends (fun o o' => SHA2.eq64 o o' = true) (Spec.SHA2.pad 128 16) (fun _ => True) :=
  mdExtends Proof.SHA2.r512_224 (fun _ _ _ => trivial) (fun o => o.chain.h) (fun _ _ => beq_iff_eq) (fun _ _ h _ => h) (by decide)
    C27_SHA2_512 C45_SHA2_512_public

theorem C45_SHA2_512_256_state : SHA2.SHA2_512_256.Extends (fun o o' => SHA2.eq64 o o' = true) (Spec.SHA2.pad 128 16) (fun _ => True) :=
  mdExtends Proof.SHA2.r512_256 (fun _ _ _ => trivial) (fun o => o.chain.h) (fun _ _ => beq_iff_eq) (fun _ _ h _ => h) (by decide)
    C27_SHA2_512 C45_SHA2_512_public

theorem C45_MD4_state : MD4.MD4.Extends (fun o o' => MD4.eq o o' = true) Spec.MD4.pad (fun _ => True) :=
  mdExtends Proof.MD4.refines (fun _ _ _ => trivial) (fun o => o.chain.h) (fun _ _ => beq_iff_eq) (fun _ _ h _ => h) (by decide)
    C27_MD4 C45_MD4_public
theorem C45_MD4 : MD4.MD4.Extends (fun o o' => MD4.MD4.toArray o = MD4.MD4.toArray o')
    Spec.MD4.pad (fun _ => True) := toDigest C45_MD4_state C06_MD4_exact

theorem C45_MD5_state : MD5.MD5.Extends (fun o o' => MD5.eq o o' = true) Spec.MD5.pad (fun _ => True) :=
  mdExtends Proof.MD5.refines (fun _ _ _ => trivial) (fun o => o.chain.h) (fun _ _ => beq_iff_eq) (fun _ _ h _ => h) (by decide)
    C27_MD5 C45_MD5_public
theorem C45_MD5 : MD5.MD5.Extends (fun o o' => MD5.MD5.toArray o = MD5.MD5.toArray o')
    Spec.MD5.pad (fun _ => True) := toDigest C45_MD5_state C06_MD5_exact

theorem C45_RIPEMD_128_state : RIPEMD.RIPEMD_128.Extends (fun o o' => RIPEMD.eq o o' = true) Spec.RIPEMD.pad (fun _ => True) :=
  mdExtends Proof.RIPEMD.r128 (fun _ _ _ => trivial) (fun o => o.chain.h) (fun _ _ => beq_iff_eq) (fun _ _ h _ => h) (by decide)
    C27_RIPEMD C45_RIPEMD_public
theorem C45_RIPEMD_128 : RIPEMD.RIPEMD_128.Extends (fun o o' => RIPEMD.RIPEMD_128.toArray o = RIPEMD.RIPEMD_128.toArray o')
    Spec.RIPEMD.pad (fun _ => True) := toDigest C45_RIPEMD_128_state C06_RIPEMD_128_exact

theorem C45_RIPEMD_160_state : RIPEMD.RIPEMD_160.Extends (fun o o' => RIPEMD.eq o o' = true) Spec.RIPEMD.pad (fun _ => True) :=
  mdExtends Proof.RIPEMD.r160 (fun _ _ _ => trivial) (fun o => o.chain.h) (fun _ _ => beq_iff_eq) (fun _ _ h _ => h) (by decide)
    C27_RIPEMD C45_RIPEMD_public
theorem C45_RIPEMD_160 : RIPEMD.RIPEMD_160.Extends (fun o o' => RIPEMD.RIPEMD_160.toArray o = RIPEMD.RIPEMD_160.toArray o')
    Spec.RIPEMD.pad (fun _ => True) := toDigest C45_RIPEMD_160_state C06_RIPEMD_160_exact

theorem C45_RIPEMD_256_state : RIPEMD.RIPEMD_256.Extends (fun o o' => RIPEMD.eq o o' = true) Spec.RIPEMD.pad (fun _ => True) :=
  mdExtends Proof.RIPEMD.r256 (fun _ _ _ => trivial) (fun o => o.chain.h) (fun _ _ => beq_iff_eq) (fun _ _ h _ => h) (by decide)
    C27_RIPEMD C45_RIPEMD_public
theorem C45_RIPEMD_256 : RIPEMD.RIPEMD_256.Extends (fun o o' => RIPEMD.RIPEMD_256.toArray o = RIPEMD.RIPEMD_256.toArray o')
    Spec.RIPEMD.pad (fun _ => True) := toDigest C45_RIPEMD_256_state C06_RIPEMD_256_exact

theorem C45_RIPEMD_320_state : RIPEMD.RIPEMD_320.Extends (fun o o' => RIPEMD.eq o o' = true) Spec.RIPEMD.pad (fun _ => True) :=
  mdExtends Proof.RIPEMD.r320 (fun _ _ _ => trivial) (fun o => o.chain.h) (fun _ _ => beq_iff_eq) (fun _ _ h _ => h) (by decide)
    C27_RIPEMD C45_RIPEMD_public
theorem C45_RIPEMD_320 : RIPEMD.RIPEMD_320.Extends (fun o o' => RIPEMD.RIPEMD_320.toArray o = RIPEMD.RIPEMD_320.toArray o')
    Spec.RIPEMD.pad (fun _ => True) := toDigest C45_RIPEMD_320_state C06_RIPEMD_320_exact

theorem C45_HAS_160_state : HAS160.HAS_160.Extends (fun o o' => HAS160.eq o o' = true) Spec.HAS160.pad (fun _ => True) :=
  mdExtends Proof.HAS160.refines (fun _ _ _ => trivial) (fun o => o.chain.h) (fun _ _ => beq_iff_eq) (fun _ _ h _ => h) (by decide)
    C27_HAS_160 C45_HAS_160_public
theorem C45_HAS_160 : HAS160.HAS_160.Extends (fun o o' => HAS160.HAS_160.toArray o = HAS160.HAS_160.toArray o')
    Spec.HAS160.pad (fun _ => True) := toDigest C45_HAS_160_state C06_HAS_160_exact

theorem C45_SM3_state : SM3.SM3.Extends (fun o o' => SM3.eq o o' = true) Spec.SM3.pad (fun _ => True) :=
  mdExtends Proof.SM3.refines (fun _ _ _ => trivial) (fun o => o.chain.h) (fun _ _ => beq_iff_eq) (fun _ _ h _ => h) (by decide)
    C27_SM3 C45_SM3_public
theorem C45_SM3 : SM3.SM3.Extends (fun o o' => SM3.SM3.toArray o = SM3.SM3.toArray o')
    Spec.SM3.pad (fun _ => True) := toDigest C45_SM3_state C06_SM3_exact

theorem C45_Tiger1_192_state : Tiger.Tiger1_192.Extends (fun o o' => Tiger.eq o o' = true) (Spec.Tiger.pad 0x01) (fun _ => True) :=
  mdExtends Proof.Tiger.r1 (fun _ _ _ => trivial) (fun o => o.chain.h) (fun _ _ => beq_iff_eq) (fun _ _ h _ => h) (by decide)
    C27_Tiger1 C45_Tiger1_public
theorem C45_Tiger1_192 : Tiger.Tiger1_192.Extends (fun o o' => Tiger.Tiger1_192.toArray o = Tiger.Tiger1_192.toArray o')
    (Spec.Tiger.pad 0x01) (fun _ => True) := toDigest C45_Tiger1_192_state C06_Tiger1_192_exact

theorem C45_Tiger2_192_state : Tiger.Tiger2_192.Extends (fun o o' => Tiger.eq o o' = true) (Spec.Tiger.pad 0x80) (fun _ => True) :=
  mdExtends Proof.Tiger.r2 (fun _ _ _ => trivial) (fun o => o.chain.h) (fun _ _ => beq_iff_eq) (fun _ _ h _ => h) (by decide)
    C27_Tiger2 C45_Tiger2_public
theorem C45_Tiger2_192 : Tiger.Tiger2_192.Extends (fun o o' => Tiger.Tiger2_192.toArray o = Tiger.Tiger2_192.toArray o')
    (Spec.Tiger.pad 0x80) (fun _ => True) := toDigest C45_Tiger2_192_state C06_Tiger2_192_exact

/-- Whirlpool: below 2^125 bytes the 128-bit counter of the class is the 256-bit length. -/
theorem C45_Whirlpool_state : Whirlpool.Whirlpool.Extends (fun o o' => Whirlpool.eq o o' = true) Spec.Whirlpool.pad
    (fun m => m.length < 2 ^ 125) :=
  mdExtends Proof.Whirlpool.refines (fun m t h => by rw [List.length_append] at h; omega) (fun o => o.chain.h)
    (fun _ _ => beq_iff_eq) (fun o m h l => by
      have h : o.chain.h = mdFold 64 Whirlpool.compress Whirlpool.iv (Proof.Whirlpool.pad128 m) := h
      rw [h, Proof.Whirlpool.pad128_eq m l]) (by decide) C27_Whirlpool
    C45_Whirlpool_public
theorem C45_Whirlpool : Whirlpool.Whirlpool.Extends
    (fun o o' => Whirlpool.Whirlpool.toArray o = Whirlpool.Whirlpool.toArray o') Spec.Whirlpool.pad
    (fun m => m.length < 2 ^ 125) := toDigest C45_Whirlpool_state C06_Whirlpool_exact

/-- X. Wang, D. Feng, X. Lai, H. Yu, 2004 -/
def md5Left : List Byte :=
  [0xd1, 0x31, 0xdd, 0x02, 0xc5, 0xe6, 0xee, 0xc4, 0x69, 0x3d, 0x9a, 0x06, 0x98, 0xaf, 0xf9, 0x5c,
   0x2f, 0xca, 0xb5, 0x87, 0x12, 0x46, 0x7e, 0xab, 0x40, 0x04, 0x58, 0x3e, 0xb8, 0xfb, 0x7f, 0x89,
   0x55, 0xad, 0x34, 0x06, 0x09, 0xf4, 0xb3, 0x02, 0x83, 0xe4, 0x88, 0x83, 0x25, 0x71, 0x41, 0x5a,
   0x08, 0x51, 0x25, 0xe8, 0xf7, 0xcd, 0xc9, 0x9f, 0xd9, 0x1d, 0xbd, 0xf2, 0x80, 0x37, 0x3c, 0x5b,
   0xd8, 0x82, 0x3e, 0x31, 0x56, 0x34, 0x8f, 0x5b, 0xae, 0x6d, 0xac, 0xd4, 0x36, 0xc9, 0x19, 0xc6,
   0xdd, 0x53, 0xe2, 0xb4, 0x87, 0xda, 0x03, 0xfd, 0x02, 0x39, 0x63, 0x06, 0xd2, 0x48, 0xcd, 0xa0,
   0xe9, 0x9f, 0x33, 0x42, 0x0f, 0x57, 0x7e, 0xe8, 0xce, 0x54, 0xb6, 0x70, 0x80, 0xa8, 0x0d, 0x1e,
   0xc6, 0x98, 0x21, 0xbc, 0xb6, 0xa8, 0x83, 0x93, 0x96, 0xf9, 0x65, 0x2b, 0x6f, 0xf7, 0x2a, 0x70]

/-- X. Wang, D. Feng, X. Lai, H. Yu, 2004 -/
def md5Right : List Byte :=
  [0xd1, 0x31, 0xdd, 0x02, 0xc5, 0xe6, 0xee, 0xc4, 0x69, 0x3d, 0x9a, 0x06, 0x98, 0xaf, 0xf9, 0x5c,
   0x2f, 0xca, 0xb5, 0x07, 0x12, 0x46, 0x7e, 0xab, 0x40, 0x04, 0x58, 0x3e, 0xb8, 0xfb, 0x7f, 0x89,
   0x55, 0xad, 0x34, 0x06, 0x09, 0xf4, 0xb3, 0x02, 0x83, 0xe4, 0x88, 0x83, 0x25, 0xf1, 0x41, 0x5a,
   0x08, 0x51, 0x25, 0xe8, 0xf7, 0xcd, 0xc9, 0x9f, 0xd9, 0x1d, 0xbd, 0x72, 0x80, 0x37, 0x3c, 0x5b,
   0xd8, 0x82, 0x3e, 0x31, 0x56, 0x34, 0x8f, 0x5b, 0xae, 0x6d, 0xac, 0xd4, 0x36, 0xc9, 0x19, 0xc6,
   0xdd, 0x53, 0xe2, 0x34, 0x87, 0xda, 0x03, 0xfd, 0x02, 0x39, 0x63, 0x06, 0xd2, 0x48, 0xcd, 0xa0,
   0xe9, 0x9f, 0x33, 0x42, 0x0f, 0x57, 0x7e, 0xe8, 0xce, 0x54, 0xb6, 0x70, 0x80, 0x28, 0x0d, 0x1e,
   0xc6, 0x98, 0x21, 0xbc, 0xb6, 0xa8, 0x83, 0x93, 0x96, 0xf9, 0x65, 0xab, 0x6f, 0xf7, 0x2a, 0x70]

private theorem md5Chain : chain 64 MD5.compress 2 MD5.iv md5Left = chain 64 MD5.compress 2 MD5.iv md5Right := by
  have h0 : (chain 64 MD5.compress 2 MD5.iv md5Left)[0] = (chain 64 MD5.compress 2 MD5.iv md5Right)[0] := by decide +kernel
  have h1 : (chain 64 MD5.compress 2 MD5.iv md5Left)[1] = (chain 64 MD5.compress 2 MD5.iv md5Right)[1] := by decide +kernel
  have h2 : (chain 64 MD5.compress 2 MD5.iv md5Left)[2] = (chain 64 MD5.compress 2 MD5.iv md5Right)[2] := by decide +kernel
  have h3 : (chain 64 MD5.compress 2 MD5.iv md5Left)[3] = (chain 64 MD5.compress 2 MD5.iv md5Right)[3] := by decide +kernel
  generalize chain 64 MD5.compress 2 MD5.iv md5Left = v at *
  generalize chain 64 MD5.compress 2 MD5.iv md5Right = w at *
  apply Vector.ext
  intro i hi
  match i, hi with
  | 0, _ => exact h0
  | 1, _ => exact h1
  | 2, _ => exact h2
  | 3, _ => exact h3

set_option maxRecDepth 10000 in
private theorem md5Length : md5Left.length = 128 ∧ md5Right.length = 128 := by decide

set_option maxRecDepth 10000 in
private theorem md5Differ : md5Left ≠ md5Right := by decide

/-- MD5 is not collision resistant: two different messages, and whatever is appended to both, however the bytes are
added, the digests are equal. -/
theorem C45_MD5_collisions : md5Left ≠ md5Right ∧ ∀ (x : List Byte) (ops ops' : List Op),
    Legal (ops ++ [.finalize]) → Legal (ops' ++ [.finalize]) → message ops = md5Left ++ x →
    message ops' = md5Right ++ x →
    ∃ o o', MD5.MD5.run MD5.MD5.fresh (ops ++ [.finalize]) = .ok o ∧ MD5.MD5.run MD5.MD5.fresh (ops' ++ [.finalize]) = .ok o' ∧
      MD5.MD5.toArray o = MD5.MD5.toArray o' := by
  refine ⟨md5Differ, fun x ops ops' => ?_⟩
  obtain ⟨l, l'⟩ := md5Length
  have e : mdFold 64 MD5.compress MD5.iv md5Left = mdFold 64 MD5.compress MD5.iv md5Right := by
    rw [chain_eq _ (by decide) 2 _ _ l, chain_eq _ (by decide) 2 _ _ l']; exact md5Chain
  generalize md5Left = a at *
  generalize md5Right = a' at *
  refine family Proof.MD5.refines (comp := MD5.compress) (iv := MD5.iv) (fun o => o.chain.h) (fun o o' h => ?_) (fun _ _ h => h)
    (by decide) C45_MD5_public _ _ (l.trans l'.symm) (by rw [l]) e x ops ops'
  show MD5.toArray o.chain.h = MD5.toArray o'.chain.h
  rw [show o.chain.h = o'.chain.h from h]

/-- X. Wang, X. Lai, D. Feng, H. Chen, X. Yu, 2005 -/
def md4Left : List Byte :=
  [0x83, 0x9c, 0x7a, 0x4d, 0x7a, 0x92, 0xcb, 0x56, 0x78, 0xa5, 0xd5, 0xb9, 0xee, 0xa5, 0xa7, 0x57,
   0x3c, 0x8a, 0x74, 0xde, 0xb3, 0x66, 0xc3, 0xdc, 0x20, 0xa0, 0x83, 0xb6, 0x9f, 0x5d, 0x2a, 0x3b,
   0xb3, 0x71, 0x9d, 0xc6, 0x98, 0x91, 0xe9, 0xf9, 0x5e, 0x80, 0x9f, 0xd7, 0xe8, 0xb2, 0x3b, 0xa6,
   0x31, 0x8e, 0xdd, 0x45, 0xe5, 0x1f, 0xe3, 0x97, 0x08, 0xbf, 0x94, 0x27, 0xe9, 0xc3, 0xe8, 0xb9]

/-- X. Wang, X. Lai, D. Feng, H. Chen, X. Yu, 2005 -/
def md4Right : List Byte :=
  [0x83, 0x9c, 0x7a, 0x4d, 0x7a, 0x92, 0xcb, 0xd6, 0x78, 0xa5, 0xd5, 0x29, 0xee, 0xa5, 0xa7, 0x57,
   0x3c, 0x8a, 0x74, 0xde, 0xb3, 0x66, 0xc3, 0xdc, 0x20, 0xa0, 0x83, 0xb6, 0x9f, 0x5d, 0x2a, 0x3b,
   0xb3, 0x71, 0x9d, 0xc6, 0x98, 0x91, 0xe9, 0xf9, 0x5e, 0x80, 0x9f, 0xd7, 0xe8, 0xb2, 0x3b, 0xa6,
   0x31, 0x8e, 0xdc, 0x45, 0xe5, 0x1f, 0xe3, 0x97, 0x08, 0xbf, 0x94, 0x27, 0xe9, 0xc3, 0xe8, 0xb9]

private theorem md4Chain : chain 64 MD4.compress 1 MD4.iv md4Left = chain 64 MD4.compress 1 MD4.iv md4Right := by
  have h0 : (chain 64 MD4.compress 1 MD4.iv md4Left)[0] = (chain 64 MD4.compress 1 MD4.iv md4Right)[0] := by decide +kernel
  have h1 : (chain 64 MD4.compress 1 MD4.iv md4Left)[1] = (chain 64 MD4.compress 1 MD4.iv md4Right)[1] := by decide +kernel
  have h2 : (chain 64 MD4.compress 1 MD4.iv md4Left)[2] = (chain 64 MD4.compress 1 MD4.iv md4Right)[2] := by decide +kernel
  have h3 : (chain 64 MD4.compress 1 MD4.iv md4Left)[3] = (chain 64 MD4.compress 1 MD4.iv md4Right)[3] := by decide +kernel
  generalize chain 64 MD4.compress 1 MD4.iv md4Left = v at *
  generalize chain 64 MD4.compress 1 MD4.iv md4Right = w at *
  apply Vector.ext
  intro i hi
  match i, hi with
  | 0, _ => exact h0
  | 1, _ => exact h1
  | 2, _ => exact h2
  | 3, _ => exact h3

set_option maxRecDepth 10000 in
private theorem md4Length : md4Left.length = 64 ∧ md4Right.length = 64 := by decide

set_option maxRecDepth 10000 in
private theorem md4Differ : md4Left ≠ md4Right := by decide

/-- MD4 is not collision resistant: two different messages, and whatever is appended to both, however the bytes are
added, the digests are equal. -/
theorem C45_MD4_collisions : md4Left ≠ md4Right ∧ ∀ (x : List Byte) (ops ops' : List Op),
    Legal (ops ++ [.finalize]) → Legal (ops' ++ [.finalize]) → message ops = md4Left ++ x →
    message ops' = md4Right ++ x →
    ∃ o o', MD4.MD4.run MD4.MD4.fresh (ops ++ [.finalize]) = .ok o ∧ MD4.MD4.run MD4.MD4.fresh (ops' ++ [.finalize]) = .ok o' ∧
      MD4.MD4.toArray o = MD4.MD4.toArray o' := by
  refine ⟨md4Differ, fun x ops ops' => ?_⟩
  obtain ⟨l, l'⟩ := md4Length
  have e : mdFold 64 MD4.compress MD4.iv md4Left = mdFold 64 MD4.compress MD4.iv md4Right := by
    rw [chain_eq _ (by decide) 1 _ _ l, chain_eq _ (by decide) 1 _ _ l']; exact md4Chain
  generalize md4Left = a at *
  generalize md4Right = a' at *
  refine family Proof.MD4.refines (comp := MD4.compress) (iv := MD4.iv) (fun o => o.chain.h) (fun o o' h => ?_) (fun _ _ h => h)
    (by decide) C45_MD4_public _ _ (l.trans l'.symm) (by rw [l]) e x ops ops'
  show MD4.toArray o.chain.h = MD4.toArray o'.chain.h
  rw [show o.chain.h = o'.chain.h from h]

/-! The hypotheses of `Extends` can be met with different messages: the two messages above. -/
set_option maxRecDepth 10000 in
example : (message [.add md4Left]).length = (message [.add [1], .reset, .add md4Right]).length ∧
    Legal ([.add md4Left] ++ [.finalize]) ∧ Legal ([.add [1], .reset, .add md4Right] ++ [.finalize]) := by decide

/-- So the hypotheses of `C28_MD4_digest` are met: the two messages have equal digests. -/
example : CollisionIn Spec.MD4.compress Spec.MD4.init (Spec.blocks 64 (Spec.MD4.pad (message [.add md4Left])))
    (Spec.blocks 64 (Spec.MD4.pad (message [.add md4Right]))) := by
  obtain ⟨l, l'⟩ := md4Length
  have hl : Legal ([.add md4Left] ++ [.finalize]) := ⟨rfl, by rw [l]; decide, rfl, trivial⟩
  have hl' : Legal ([.add md4Right] ++ [.finalize]) := ⟨rfl, by rw [l']; decide, rfl, trivial⟩
  obtain ⟨hne, h⟩ := C45_MD4_collisions
  obtain ⟨o, o', e, e', hd⟩ := h [] [.add md4Left] [.add md4Right] hl hl' (List.append_nil _).symm (List.append_nil _).symm
  have m : ∀ x, message [.add x] = x := fun _ => rfl
  exact C28_MD4_digest _ _ hl hl' (by rw [m, m]; exact hne) (by rw [m, l]; decide) (by rw [m, l']; decide) o o' e e' hd

end Verif.Props
