import Verif.Proof.Multicollision
import Verif.Props.Extension
import Verif.Props.HASVMore
import Verif.Props.Streaming
import Verif.Props.SHA2
import Verif.Props.MD

/-!
# C72: few collisions are many, and a second digest is no remedy

Generated by tools/gen_multi.py. `Multicollides` and `BesideOther` are defined in Core/Multicollision.lean. `k` collisions,
found one after the other, make `2 ^ k` messages with one digest, whatever is appended to them. If there are more
collisions than another class has digest bits, two of these messages have the same digest in that class too. For the
classes that publish a part of the state (SHA-224, SHA-384, SHA-512/t) "the same" means `==` instead of equal digests.
-/

namespace Verif.Props
open Model Proof.Multicollision

theorem C72_SHA1 : SHA1.SHA1.Multicollides (fun o o' => SHA1.SHA1.toArray o = SHA1.SHA1.toArray o') Spec.SHA1.pad (fun _ => True) :=
  digests Proof.SHA1.refines C45_SHA1 C45_SHA1_public (fun _ _ _ _ => trivial) (fun _ _ _ => trivial)
theorem C72_SHA1_beside : SHA1.SHA1.BesideOther (fun o o' => SHA1.SHA1.toArray o = SHA1.SHA1.toArray o') Spec.SHA1.pad (fun _ => True) := beside C72_SHA1

theorem C72_SHA2_224 : SHA2.SHA2_224.Multicollides (fun o o' => SHA2.eq32 o o' = true) (Spec.SHA2.pad 64 8) (fun _ => True) :=
  states Proof.SHA2.r224 (fun o => o.chain.h) (fun _ _ => beq_iff_eq) (fun _ _ h => h) C45_SHA2_224_state C45_SHA2_256_public
theorem C72_SHA2_224_beside : SHA2.SHA2_224.BesideOther (fun o o' => SHA2.eq32 o o' = true) (Spec.SHA2.pad 64 8) (fun _ => True) := beside C72_SHA2_224

theorem C72_SHA2_256 : SHA2.SHA2_256.Multicollides (fun o o' => SHA2.SHA2_256.toArray o = SHA2.SHA2_256.toArray o') (Spec.SHA2.pad 64 8) (fun _ => True) :=
  digests Proof.SHA2.r256 C45_SHA2_256 C45_SHA2_256_public (fun _ _ _ _ => trivial) (fun _ _ _ => trivial)
theorem C72_SHA2_256_beside : SHA2.SHA2_256.BesideOther (fun o o' => SHA2.SHA2_256.toArray o = SHA2.SHA2_256.toArray o') (Spec.SHA2.pad 64 8) (fun _ => True) := beside C72_SHA2_256

theorem C72_SHA2_384 : SHA2.SHA2_384.Multicollides (fun o o' => SHA2.eq64 o o' = true) (Spec.SHA2.pad 128 16) (fun _ => True) :=
  states Proof.SHA2.r384 (fun o => o.chain.h) (fun _ _ => beq_iff_eq) (fun _ _ h => h) C45_SHA2_384_state C45_SHA2_512_public
theorem C72_SHA2_384_beside : SHA2.SHA2_384.BesideOther (fun o o' => SHA2.eq64 o o' = true) (Spec.SHA2.pad 128 16) (fun _ => True) := beside C72_SHA2_384

theorem C72_SHA2_512 : SHA2.SHA2_512.Multicollides (fun o o' => SHA2.SHA2_512.toArray o = SHA2.SHA2_512.toArray o') (Spec.SHA2.pad 128 16) (fun _ => True) :=
  digests Proof.SHA2.r512 C45_SHA2_512 C45_SHA2_512_public (fun _ _ _ _ => trivial) (fun _ _ _ => trivial)
theorem C72_SHA2_512_beside : SHA2.SHA2_512.BesideOther (fun o o' => SHA2.SHA2_512.toArray o = SHA2.SHA2_512.toArray o') (Spec.SHA2.pad 128 16) (fun _ => True) := beside C72_SHA2_512

theorem C72_SHA2_512_224 : SHA2.SHA2_512_224.Multicollides (fun o o' => SHA2.eq64 o o' = true) (Spec.SHA2.pad 128 16) (fun _ => True) :=
  states Proof.SHA2.r512_224 (fun o => o.chain.h) (fun _ _ => beq_iff_eq) (fun _ _ h => h) C45_SHA2_512_224_state C45_SHA2_512_public
theorem C72_SHA2_512_224_beside : SHA2.SHA2_512_224.BesideOther (fun o o' => SHA2.eq64 o o' = true) (Spec.SHA2.pad 128 16) (fun _ => True) := beside C72_SHA2_512_224

theorem C72_SHA2_512_256 : SHA2.SHA2_512_256.Multicollides (fun o o' => SHA2.eq64 o o' = true) (Spec.SHA2.pad 128 16) (fun _ => True) :=
  states Proof.SHA2.r512_256 (fun o => o.chain.h) (fun _ _ => beq_iff_eq) (fun _ _ h => h) C45_SHA2_512_256_state C45_SHA2_512_public
theorem C72_SHA2_512_256_beside : SHA2.SHA2_512_256.BesideOther (fun o o' => SHA2.eq64 o o' = true) (Spec.SHA2.pad 128 16) (fun _ => True) := beside C72_SHA2_512_256

theorem C72_MD4 : MD4.MD4.Multicollides (fun o o' => MD4.MD4.toArray o = MD4.MD4.toArray o') Spec.MD4.pad (fun _ => True) :=
  digests Proof.MD4.refines C45_MD4 C45_MD4_public (fun _ _ _ _ => trivial) (fun _ _ _ => trivial)
theorem C72_MD4_beside : MD4.MD4.BesideOther (fun o o' => MD4.MD4.toArray o = MD4.MD4.toArray o') Spec.MD4.pad (fun _ => True) := beside C72_MD4

theorem C72_MD5 : MD5.MD5.Multicollides (fun o o' => MD5.MD5.toArray o = MD5.MD5.toArray o') Spec.MD5.pad (fun _ => True) :=
  digests Proof.MD5.refines C45_MD5 C45_MD5_public (fun _ _ _ _ => trivial) (fun _ _ _ => trivial)
theorem C72_MD5_beside : MD5.MD5.BesideOther (fun o o' => MD5.MD5.toArray o = MD5.MD5.toArray o') Spec.MD5.pad (fun _ => True) := beside C72_MD5

theorem C72_RIPEMD_128 : RIPEMD.RIPEMD_128.Multicollides (fun o o' => RIPEMD.RIPEMD_128.toArray o = RIPEMD.RIPEMD_128.toArray o') Spec.RIPEMD.pad (fun _ => True) :=
  digests Proof.RIPEMD.r128 C45_RIPEMD_128 C45_RIPEMD_public (fun _ _ _ _ => trivial) (fun _ _ _ => trivial)
theorem C72_RIPEMD_128_beside : RIPEMD.RIPEMD_128.BesideOther (fun o o' => RIPEMD.RIPEMD_128.toArray o = RIPEMD.RIPEMD_128.toArray o') Spec.RIPEMD.pad (fun _ => True) := beside C72_RIPEMD_128

theorem C72_RIPEMD_160 : RIPEMD.RIPEMD_160.Multicollides (fun o o' => RIPEMD.RIPEMD_160.toArray o = RIPEMD.RIPEMD_160.toArray o') Spec.RIPEMD.pad (fun _ => True) :=
  digests Proof.RIPEMD.r160 C45_RIPEMD_160 C45_RIPEMD_public (fun _ _ _ _ => trivial) (fun _ _ _ => trivial)
theorem C72_RIPEMD_160_beside : RIPEMD.RIPEMD_160.BesideOther (fun o o' => RIPEMD.RIPEMD_160.toArray o = RIPEMD.RIPEMD_160.toArray o') Spec.RIPEMD.pad (fun _ => True) := beside C72_RIPEMD_160

theorem C72_RIPEMD_256 : RIPEMD.RIPEMD_256.Multicollides (fun o o' => RIPEMD.RIPEMD_256.toArray o = RIPEMD.RIPEMD_256.toArray o') Spec.RIPEMD.pad (fun _ => True) :=
  digests Proof.RIPEMD.r256 C45_RIPEMD_256 C45_RIPEMD_public (fun _ _ _ _ => trivial) (fun _ _ _ => trivial)
theorem C72_RIPEMD_256_beside : RIPEMD.RIPEMD_256.BesideOther (fun o o' => RIPEMD.RIPEMD_256.toArray o = RIPEMD.RIPEMD_256.toArray o') Spec.RIPEMD.pad (fun _ => True) := beside C72_RIPEMD_256

theorem C72_RIPEMD_320 : RIPEMD.RIPEMD_320.Multicollides (fun o o' => RIPEMD.RIPEMD_320.toArray o = RIPEMD.RIPEMD_320.toArray o') Spec.RIPEMD.pad (fun _ => True) :=
  digests Proof.RIPEMD.r320 C45_RIPEMD_320 C45_RIPEMD_public (fun _ _ _ _ => trivial) (fun _ _ _ => trivial)
theorem C72_RIPEMD_320_beside : RIPEMD.RIPEMD_320.BesideOther (fun o o' => RIPEMD.RIPEMD_320.toArray o = RIPEMD.RIPEMD_320.toArray o') Spec.RIPEMD.pad (fun _ => True) := beside C72_RIPEMD_320

theorem C72_HAS_160 : HAS160.HAS_160.Multicollides (fun o o' => HAS160.HAS_160.toArray o = HAS160.HAS_160.toArray o') Spec.HAS160.pad (fun _ => True) :=
  digests Proof.HAS160.refines C45_HAS_160 C45_HAS_160_public (fun _ _ _ _ => trivial) (fun _ _ _ => trivial)
theorem C72_HAS_160_beside : HAS160.HAS_160.BesideOther (fun o o' => HAS160.HAS_160.toArray o = HAS160.HAS_160.toArray o') Spec.HAS160.pad (fun _ => True) := beside C72_HAS_160

theorem C72_SM3 : SM3.SM3.Multicollides (fun o o' => SM3.SM3.toArray o = SM3.SM3.toArray o') Spec.SM3.pad (fun _ => True) :=
  digests Proof.SM3.refines C45_SM3 C45_SM3_public (fun _ _ _ _ => trivial) (fun _ _ _ => trivial)
theorem C72_SM3_beside : SM3.SM3.BesideOther (fun o o' => SM3.SM3.toArray o = SM3.SM3.toArray o') Spec.SM3.pad (fun _ => True) := beside C72_SM3

theorem C72_Tiger1_192 : Tiger.Tiger1_192.Multicollides (fun o o' => Tiger.Tiger1_192.toArray o = Tiger.Tiger1_192.toArray o') (Spec.Tiger.pad 0x01) (fun _ => True) :=
  digests Proof.Tiger.r1 C45_Tiger1_192 C45_Tiger1_public (fun _ _ _ _ => trivial) (fun _ _ _ => trivial)
theorem C72_Tiger1_192_beside : Tiger.Tiger1_192.BesideOther (fun o o' => Tiger.Tiger1_192.toArray o = Tiger.Tiger1_192.toArray o') (Spec.Tiger.pad 0x01) (fun _ => True) := beside C72_Tiger1_192

theorem C72_Tiger2_192 : Tiger.Tiger2_192.Multicollides (fun o o' => Tiger.Tiger2_192.toArray o = Tiger.Tiger2_192.toArray o') (Spec.Tiger.pad 0x80) (fun _ => True) :=
  digests Proof.Tiger.r2 C45_Tiger2_192 C45_Tiger2_public (fun _ _ _ _ => trivial) (fun _ _ _ => trivial)
theorem C72_Tiger2_192_beside : Tiger.Tiger2_192.BesideOther (fun o o' => Tiger.Tiger2_192.toArray o = Tiger.Tiger2_192.toArray o') (Spec.Tiger.pad 0x80) (fun _ => True) := beside C72_Tiger2_192

/-- Whirlpool: below 2^125 bytes the 128-bit counter of the class is the 256-bit length. -/
theorem C72_Whirlpool : Whirlpool.Whirlpool.Multicollides (fun o o' => Whirlpool.Whirlpool.toArray o = Whirlpool.Whirlpool.toArray o')
    Spec.Whirlpool.pad (fun m => m.length < 2 ^ 125) :=
  digests Proof.Whirlpool.refines C45_Whirlpool C45_Whirlpool_public (fun m m' h l => by rw [← h]; exact l)
    (fun m t h => by rw [List.length_append] at h; omega)
theorem C72_Whirlpool_beside : Whirlpool.Whirlpool.BesideOther (fun o o' => Whirlpool.Whirlpool.toArray o = Whirlpool.Whirlpool.toArray o')
    Spec.Whirlpool.pad (fun m => m.length < 2 ^ 125) := beside C72_Whirlpool

theorem C72_HAS_V_320 : HASV.HAS_V_320.Multicollides (fun o o' => HASV.HAS_V_320.toArray o = HASV.HAS_V_320.toArray o')
    Spec.HASV.pad (fun _ => True) :=
  digests Proof.HASV.refines C45_HAS_V_320 C45_HAS_V_320_public (fun _ _ _ _ => trivial) (fun _ _ _ => trivial)
theorem C72_HAS_V_320_beside : HASV.HAS_V_320.BesideOther (fun o o' => HASV.HAS_V_320.toArray o = HASV.HAS_V_320.toArray o')
    Spec.HASV.pad (fun _ => True) := beside C72_HAS_V_320

/-! The hypotheses can be met: a collision of MD5 that has been found, and any number of collisions of SHA-256, since there
are more messages than digests. The other class may be any: with 257 collisions of MD5 there are two messages with which
both MD5 and SHA-256 collide. -/
example : MD5.MD5.Collisions (fun o o' => MD5.MD5.toArray o = MD5.MD5.toArray o') Spec.MD5.pad [] [(md5Left, md5Right)] := by
  obtain ⟨hne, h⟩ := C45_MD5_collisions
  refine ⟨hne, by decide +kernel, fun ops ops' l l' e e' => ?_, trivial⟩
  exact h [] ops ops' l l' (by rw [e, List.append_nil]; rfl) (by rw [e', List.append_nil]; rfl)
example (k : Nat) : ∃ ps, ps.length = k ∧
    SHA2.SHA2_256.Collisions (fun o o' => SHA2.SHA2_256.toArray o = SHA2.SHA2_256.toArray o') (Spec.SHA2.pad 64 8) [] ps :=
  exist C08_SHA2_256 C37_SHA2_256 [] k
example : ∃ ps m m', ps.length = 257 ∧
    MD5.MD5.Collisions (fun o o' => MD5.MD5.toArray o = MD5.MD5.toArray o') Spec.MD5.pad [] ps ∧
    m ≠ m' ∧ MD5.MD5.SameDigest m m' ∧ SHA2.SHA2_256.SameDigest m m' := by
  obtain ⟨ps, hk, hc⟩ := exist (pad := Spec.MD5.pad) C12_MD5 C37_MD5 [] 257
  obtain ⟨m, m', hne, _, h1, h2⟩ := C72_MD5_beside _ SHA2.SHA2_256 _ 32 C08_SHA2_256 C37_SHA2_256 ps hc (by rw [hk]; decide)
  exact ⟨ps, m, m', hk, hc, hne, h2 trivial, h1⟩

end Verif.Props
