import Verif.Proof.Padding
import Verif.Proof.HAS160
import Verif.Proof.MD4
import Verif.Proof.MD5
import Verif.Proof.RIPEMD
import Verif.Proof.SHA1
import Verif.Proof.SHA2
import Verif.Proof.SM3
import Verif.Proof.TigerGen
import Verif.Proof.Whirlpool
import Verif.Props.Equality

/-!
# C27 (padding) and C28 (collisions), Merkle-Damgård style classes

Generated by tools/gen_padding.py. `GoodPadding`, `CollisionIn` and `CollisionReduces` are defined in
Core/Padding.lean; paddings and compression functions are those of the specifications. The length limit is the one
of the length field.
-/

namespace Verif.Props
open Model Proof.Padding

/-- With `EqExact`: equal digests exhibit a collision. -/
private theorem digest {O H X : Type} {A : API O} {eq : O → O → Bool} {limit : Nat} {f : H → X → H} {iv : H}
    {inputs : List Byte → List X} (h : A.CollisionReduces eq limit f iv inputs) (he : A.EqExact eq)
    (ops ops' : List Op) (hl : Legal (ops ++ [.finalize])) (hl' : Legal (ops' ++ [.finalize]))
    (hne : message ops ≠ message ops') (hm : (message ops).length < limit) (hm' : (message ops').length < limit)
    (o o' : O) (e : A.run A.fresh (ops ++ [.finalize]) = .ok o) (e' : A.run A.fresh (ops' ++ [.finalize]) = .ok o')
    (hd : A.toArray o = A.toArray o') : CollisionIn f iv (inputs (message ops)) (inputs (message ops')) := by
  obtain ⟨x, x', ex, ex', hc⟩ := h ops ops' hl hl' hne hm hm'
  obtain ⟨y, y', ey, ey', hy⟩ := he ops ops' hl hl'
  rw [e] at ex ey
  rw [e'] at ex' ey'
  injection ex with ex; injection ey with ey; injection ex' with ex'; injection ey' with ey'
  subst ex ey ex' ey'
  exact hc (hy.2 hd)

theorem C27_SHA1 : GoodPadding 64 (1 + 8) Spec.SHA1.pad :=
  padded_good (pb := 0x80) (field := fun n => Spec.toBE 8 (8 * n)) (by decide) (by decide) (fun _ => toBE_length _ _)
    fun n n' _ _ h => by have := toBE_inj_mod 8 _ _ h; omega

theorem C27_SHA2_256 : GoodPadding 64 (1 + 8) (Spec.SHA2.pad 64 8) :=
  padded_good (pb := 0x80) (field := fun n => Spec.toBE 8 (8 * n)) (by decide) (by decide) (fun _ => toBE_length _ _)
    fun n n' _ _ h => by have := toBE_inj_mod 8 _ _ h; omega

theorem C27_SHA2_512 : GoodPadding 128 (1 + 16) (Spec.SHA2.pad 128 16) :=
  padded_good (pb := 0x80) (field := fun n => Spec.toBE 16 (8 * n)) (by decide) (by decide) (fun _ => toBE_length _ _)
    fun n n' _ _ h => by have := toBE_inj_mod 16 _ _ h; omega

theorem C27_MD4 : GoodPadding 64 (1 + 8) Spec.MD4.pad :=
  padded_good (pb := 0x80) (field := fun n => Spec.toLE 8 (8 * n)) (by decide) (by decide) (fun _ => toLE_length _ _)
    fun n n' _ _ h => by have := toLE_inj_mod 8 _ _ h; omega

theorem C27_MD5 : GoodPadding 64 (1 + 8) Spec.MD5.pad :=
  padded_good (pb := 0x80) (field := fun n => Spec.toLE 8 (8 * n)) (by decide) (by decide) (fun _ => toLE_length _ _)
    fun n n' _ _ h => by have := toLE_inj_mod 8 _ _ h; omega

theorem C27_RIPEMD : GoodPadding 64 (1 + 8) Spec.RIPEMD.pad :=
  padded_good (pb := 0x80) (field := fun n => Spec.toLE 8 (8 * n)) (by decide) (by decide) (fun _ => toLE_length _ _)
    fun n n' _ _ h => by have := toLE_inj_mod 8 _ _ h; omega

theorem C27_HAS_160 : GoodPadding 64 (1 + 8) Spec.HAS160.pad :=
  padded_good (pb := 0x80) (field := fun n => Spec.toLE 8 (8 * n)) (by decide) (by decide) (fun _ => toLE_length _ _)
    fun n n' _ _ h => by have := toLE_inj_mod 8 _ _ h; omega

theorem C27_SM3 : GoodPadding 64 (1 + 8) Spec.SM3.pad :=
  padded_good (pb := 0x80) (field := fun n => Spec.toBE 8 (8 * n)) (by decide) (by decide) (fun _ => toBE_length _ _)
    fun n n' _ _ h => by have := toBE_inj_mod 8 _ _ h; omega

theorem C27_Tiger1 : GoodPadding 64 (1 + 8) (Spec.Tiger.pad 0x01) :=
  padded_good (pb := 0x01) (field := fun n => Spec.toLE 8 (8 * n)) (by decide) (by decide) (fun _ => toLE_length _ _)
    fun n n' _ _ h => by have := toLE_inj_mod 8 _ _ h; omega

theorem C27_Tiger2 : GoodPadding 64 (1 + 8) (Spec.Tiger.pad 0x80) :=
  padded_good (pb := 0x80) (field := fun n => Spec.toLE 8 (8 * n)) (by decide) (by decide) (fun _ => toLE_length _ _)
    fun n n' _ _ h => by have := toLE_inj_mod 8 _ _ h; omega

theorem C27_Whirlpool : GoodPadding 64 (1 + 32) Spec.Whirlpool.pad :=
  padded_good (pb := 0x80) (field := fun n => Spec.toBE 32 (8 * n)) (by decide) (by decide) (fun _ => toBE_length _ _)
    fun n n' _ _ h => by have := toBE_inj_mod 32 _ _ h; omega

theorem C28_SHA1 : SHA1.SHA1.CollisionReduces SHA1.eq (2 ^ 61) Spec.SHA1.compress Spec.SHA1.H0
    (fun m => Spec.blocks 64 (Spec.SHA1.pad m)) :=
  reduces Proof.SHA1.refines (fun o o' m m' h h' _ _ e => by
    have h : o.chain.h = _ := h
    have h' : o'.chain.h = _ := h'
    have e : o.chain.h = o'.chain.h := beq_iff_eq.1 e
    rw [h, h'] at e
    have e := congrArg Proof.SHA1.ofVec e
    rw [mdFold_map (f := Proof.SHA1.ofVec) (scomp := Spec.SHA1.compress) Proof.SHA1.compress_eq,
      mdFold_map (f := Proof.SHA1.ofVec) (scomp := Spec.SHA1.compress) Proof.SHA1.compress_eq] at e
    exact e)
  fun m m' => padded_collision (pb := 0x80) (field := fun n => Spec.toBE 8 (8 * n)) _ _ (by decide) (by decide)
    (fun _ => toBE_length _ _) _ (fun n n' hn hn' h => by have := toBE_inj_mod 8 _ _ h; omega) m m'
theorem C28_SHA1_digest (ops ops' : List Op) (hl : Legal (ops ++ [.finalize]))
    (hl' : Legal (ops' ++ [.finalize])) (hne : message ops ≠ message ops') (hm : (message ops).length < 2 ^ 61)
    (hm' : (message ops').length < 2 ^ 61) (o o')
    (e : SHA1.SHA1.run SHA1.SHA1.fresh (ops ++ [.finalize]) = .ok o)
    (e' : SHA1.SHA1.run SHA1.SHA1.fresh (ops' ++ [.finalize]) = .ok o')
    (hd : SHA1.SHA1.toArray o = SHA1.SHA1.toArray o') :
    CollisionIn Spec.SHA1.compress Spec.SHA1.H0 (Spec.blocks 64 (Spec.SHA1.pad (message ops)))
      (Spec.blocks 64 (Spec.SHA1.pad (message ops'))) :=
  digest C28_SHA1 C06_SHA1_exact ops ops' hl hl' hne hm hm' o o' e e' hd

theorem C28_SHA2_224 : SHA2.SHA2_224.CollisionReduces SHA2.eq32 (2 ^ 61) (Spec.SHA2.compress Spec.SHA2.p256) Spec.SHA2.H224
    (fun m => Spec.blocks 64 (Spec.SHA2.pad 64 8 m)) :=
  reduces Proof.SHA2.r224 (fun o o' m m' h h' _ _ e => by
    have h : o.chain.h = _ := h
    have h' : o'.chain.h = _ := h'
    have e : o.chain.h = o'.chain.h := beq_iff_eq.1 e
    rw [h, h'] at e
    have e := congrArg Proof.SHA2.ofVec e
    rw [mdFold_map (f := Proof.SHA2.ofVec) (scomp := (Spec.SHA2.compress Spec.SHA2.p256)) (fun h b => Proof.SHA2.compress_eq Proof.SHA2.cfg32_ok (by decide) h b),
      mdFold_map (f := Proof.SHA2.ofVec) (scomp := (Spec.SHA2.compress Spec.SHA2.p256)) (fun h b => Proof.SHA2.compress_eq Proof.SHA2.cfg32_ok (by decide) h b), Proof.SHA2.iv224_ok] at e
    exact e)
  fun m m' => padded_collision (pb := 0x80) (field := fun n => Spec.toBE 8 (8 * n)) _ _ (by decide) (by decide)
    (fun _ => toBE_length _ _) _ (fun n n' hn hn' h => by have := toBE_inj_mod 8 _ _ h; omega) m m'

theorem C28_SHA2_256 : SHA2.SHA2_256.CollisionReduces SHA2.eq32 (2 ^ 61) (Spec.SHA2.compress Spec.SHA2.p256) Spec.SHA2.H256
    (fun m => Spec.blocks 64 (Spec.SHA2.pad 64 8 m)) :=
  reduces Proof.SHA2.r256 (fun o o' m m' h h' _ _ e => by
    have h : o.chain.h = _ := h
    have h' : o'.chain.h = _ := h'
    have e : o.chain.h = o'.chain.h := beq_iff_eq.1 e
    rw [h, h'] at e
    have e := congrArg Proof.SHA2.ofVec e
    rw [mdFold_map (f := Proof.SHA2.ofVec) (scomp := (Spec.SHA2.compress Spec.SHA2.p256)) (fun h b => Proof.SHA2.compress_eq Proof.SHA2.cfg32_ok (by decide) h b),
      mdFold_map (f := Proof.SHA2.ofVec) (scomp := (Spec.SHA2.compress Spec.SHA2.p256)) (fun h b => Proof.SHA2.compress_eq Proof.SHA2.cfg32_ok (by decide) h b), Proof.SHA2.iv256_ok] at e
    exact e)
  fun m m' => padded_collision (pb := 0x80) (field := fun n => Spec.toBE 8 (8 * n)) _ _ (by decide) (by decide)
    (fun _ => toBE_length _ _) _ (fun n n' hn hn' h => by have := toBE_inj_mod 8 _ _ h; omega) m m'
theorem C28_SHA2_256_digest (ops ops' : List Op) (hl : Legal (ops ++ [.finalize]))
    (hl' : Legal (ops' ++ [.finalize])) (hne : message ops ≠ message ops') (hm : (message ops).length < 2 ^ 61)
    (hm' : (message ops').length < 2 ^ 61) (o o')
    (e : SHA2.SHA2_256.run SHA2.SHA2_256.fresh (ops ++ [.finalize]) = .ok o)
    (e' : SHA2.SHA2_256.run SHA2.SHA2_256.fresh (ops' ++ [.finalize]) = .ok o')
    (hd : SHA2.SHA2_256.toArray o = SHA2.SHA2_256.toArray o') :
    CollisionIn (Spec.SHA2.compress Spec.SHA2.p256) Spec.SHA2.H256 (Spec.blocks 64 (Spec.SHA2.pad 64 8 (message ops)))
      (Spec.blocks 64 (Spec.SHA2.pad 64 8 (message ops'))) :=
  digest C28_SHA2_256 C06_SHA2_256_exact ops ops' hl hl' hne hm hm' o o' e e' hd

theorem C28_SHA2_384 : SHA2.SHA2_384.CollisionReduces SHA2.eq64 (2 ^ 125) (Spec.SHA2.compress Spec.SHA2.p512) Spec.SHA2.H384
    (fun m => Spec.blocks 128 (Spec.SHA2.pad 128 16 m)) :=
  reduces Proof.SHA2.r384 (fun o o' m m' h h' _ _ e => by
    have h : o.chain.h = _ := h
    have h' : o'.chain.h = _ := h'
    have e : o.chain.h = o'.chain.h := beq_iff_eq.1 e
    rw [h, h'] at e
    have e := congrArg Proof.SHA2.ofVec e
    rw [mdFold_map (f := Proof.SHA2.ofVec) (scomp := (Spec.SHA2.compress Spec.SHA2.p512)) (fun h b => Proof.SHA2.compress_eq Proof.SHA2.cfg64_ok (by decide) h b),
      mdFold_map (f := Proof.SHA2.ofVec) (scomp := (Spec.SHA2.compress Spec.SHA2.p512)) (fun h b => Proof.SHA2.compress_eq Proof.SHA2.cfg64_ok (by decide) h b), Proof.SHA2.iv384_ok] at e
    exact e)
  fun m m' => padded_collision (pb := 0x80) (field := fun n => Spec.toBE 16 (8 * n)) _ _ (by decide) (by decide)
    (fun _ => toBE_length _ _) _ (fun n n' hn hn' h => by have := toBE_inj_mod 16 _ _ h; omega) m m'

theorem C28_SHA2_512 : SHA2.SHA2_512.CollisionReduces SHA2.eq64 (2 ^ 125) (Spec.SHA2.compress Spec.SHA2.p512) Spec.SHA2.H512
    (fun m => Spec.blocks 128 (Spec.SHA2.pad 128 16 m)) :=
  reduces Proof.SHA2.r512 (fun o o' m m' h h' _ _ e => by
    have h : o.chain.h = _ := h
    have h' : o'.chain.h = _ := h'
    have e : o.chain.h = o'.chain.h := beq_iff_eq.1 e
    rw [h, h'] at e
    have e := congrArg Proof.SHA2.ofVec e
    rw [mdFold_map (f := Proof.SHA2.ofVec) (scomp := (Spec.SHA2.compress Spec.SHA2.p512)) (fun h b => Proof.SHA2.compress_eq Proof.SHA2.cfg64_ok (by decide) h b),
      mdFold_map (f := Proof.SHA2.ofVec) (scomp := (Spec.SHA2.compress Spec.SHA2.p512)) (fun h b => Proof.SHA2.compress_eq Proof.SHA2.cfg64_ok (by decide) h b), Proof.SHA2.iv512_ok] at e
    exact e)
  fun m m' => padded_collision (pb := 0x80) (field := fun n => Spec.toBE 16 (8 * n)) _ _ (by decide) (by decide)
    (fun _ => toBE_length _ _) _ (fun n n' hn hn' h => by have := toBE_inj_mod 16 _ _ h; omega) m m'
theorem C28_SHA2_512_digest (ops ops' : List Op) (hl : Legal (ops ++ [.finalize]))
    (hl' : Legal (ops' ++ [.finalize])) (hne : message ops ≠ message ops') (hm : (message ops).length < 2 ^ 125)
    (hm' : (message ops').length < 2 ^ 125) (o o')
    (e : SHA2.SHA2_512.run SHA2.SHA2_512.fresh (ops ++ [.finalize]) = .ok o)
    (e' : SHA2.SHA2_512.run SHA2.SHA2_512.fresh (ops' ++ [.finalize]) = .ok o')
    (hd : SHA2.SHA2_512.toArray o = SHA2.SHA2_512.toArray o') :
    CollisionIn (Spec.SHA2.compress Spec.SHA2.p512) Spec.SHA2.H512 (Spec.blocks 128 (Spec.SHA2.pad 128 16 (message ops)))
      (Spec.blocks 128 (Spec.SHA2.pad 128 16 (message ops'))) :=
  digest C28_SHA2_512 C06_SHA2_512_exact ops ops' hl hl' hne hm hm' o o' e e' hd

theorem C28_SHA2_512_224 : SHA2.SHA2_512_224.CollisionReduces SHA2.eq64 (2 ^ 125) (Spec.SHA2.compress Spec.SHA2.p512) (Spec.SHA2.H512t Spec.SHA2.name224)
    (fun m => Spec.blocks 128 (Spec.SHA2.pad 128 16 m)) :=
  reduces Proof.SHA2.r512_224 (fun o o' m m' h h' _ _ e => by
    have h : o.chain.h = _ := h
    have h' : o'.chain.h = _ := h'
    have e : o.chain.h = o'.chain.h := beq_iff_eq.1 e
    rw [h, h'] at e
    have e := congrArg Proof.SHA2.ofVec e
    rw [mdFold_map (f := Proof.SHA2.ofVec) (scomp := (Spec.SHA2.compress Spec.SHA2.p512)) (fun h b => Proof.SHA2.compress_eq Proof.SHA2.cfg64_ok (by decide) h b),
      mdFold_map (f := Proof.SHA2.ofVec) (scomp := (Spec.SHA2.compress Spec.SHA2.p512)) (fun h b => Proof.SHA2.compress_eq Proof.SHA2.cfg64_ok (by decide) h b), Proof.SHA2.iv512_224_ok] at e
    exact e)
  fun m m' => padded_collision (pb := 0x80) (field := fun n => Spec.toBE 16 (8 * n)) _ _ (by decide) (by decide)
    (fun _ => toBE_length _ _) _ (fun n n' hn hn' h => by have := toBE_inj_mod 16 _ _ h; omega) m m'

theorem C28_SHA2_512_256 : SHA2.SHA2_512_256.CollisionReduces SHA2.eq64 (2 ^ 125) (Spec.SHA2.compress Spec.SHA2.p512) (Spec.SHA2.H512t Spec.SHA2.name256)
    (fun m => Spec.blocks 128 (Spec.SHA2.pad 128 16 m)) :=
  reduces Proof.SHA2.r512_256 (fun o o' m m' h h' _ _ e => by
    have h : o.chain.h = _ := h
    have h' : o'.chain.h = _ := h'
    have e : o.chain.h = o'.chain.h := beq_iff_eq.1 e
    rw [h, h'] at e
    have e := congrArg Proof.SHA2.ofVec e
    rw [mdFold_map (f := Proof.SHA2.ofVec) (scomp := (Spec.SHA2.compress Spec.SHA2.p512)) (fun h b => Proof.SHA2.compress_eq Proof.SHA2.cfg64_ok (by decide) h b),
      mdFold_map (f := Proof.SHA2.ofVec) (scomp := (Spec.SHA2.compress Spec.SHA2.p512)) (fun h b => Proof.SHA2.compress_eq Proof.SHA2.cfg64_ok (by decide) h b), Proof.SHA2.iv512_256_ok] at e
    exact e)
  fun m m' => padded_collision (pb := 0x80) (field := fun n => Spec.toBE 16 (8 * n)) _ _ (by decide) (by decide)
    (fun _ => toBE_length _ _) _ (fun n n' hn hn' h => by have := toBE_inj_mod 16 _ _ h; omega) m m'

theorem C28_MD4 : MD4.MD4.CollisionReduces MD4.eq (2 ^ 61) Spec.MD4.compress Spec.MD4.init
    (fun m => Spec.blocks 64 (Spec.MD4.pad m)) :=
  reduces Proof.MD4.refines (fun o o' m m' h h' _ _ e => by
    have h : o.chain.h = _ := h
    have h' : o'.chain.h = _ := h'
    have e : o.chain.h = o'.chain.h := beq_iff_eq.1 e
    rw [h, h'] at e
    have e := congrArg tup4 e
    rw [mdFold_map (f := tup4) (scomp := Spec.MD4.compress) Proof.MD4.compress_eq,
      mdFold_map (f := tup4) (scomp := Spec.MD4.compress) Proof.MD4.compress_eq] at e
    exact e)
  fun m m' => padded_collision (pb := 0x80) (field := fun n => Spec.toLE 8 (8 * n)) _ _ (by decide) (by decide)
    (fun _ => toLE_length _ _) _ (fun n n' hn hn' h => by have := toLE_inj_mod 8 _ _ h; omega) m m'
theorem C28_MD4_digest (ops ops' : List Op) (hl : Legal (ops ++ [.finalize]))
    (hl' : Legal (ops' ++ [.finalize])) (hne : message ops ≠ message ops') (hm : (message ops).length < 2 ^ 61)
    (hm' : (message ops').length < 2 ^ 61) (o o')
    (e : MD4.MD4.run MD4.MD4.fresh (ops ++ [.finalize]) = .ok o)
    (e' : MD4.MD4.run MD4.MD4.fresh (ops' ++ [.finalize]) = .ok o')
    (hd : MD4.MD4.toArray o = MD4.MD4.toArray o') :
    CollisionIn Spec.MD4.compress Spec.MD4.init (Spec.blocks 64 (Spec.MD4.pad (message ops)))
      (Spec.blocks 64 (Spec.MD4.pad (message ops'))) :=
  digest C28_MD4 C06_MD4_exact ops ops' hl hl' hne hm hm' o o' e e' hd

theorem C28_MD5 : MD5.MD5.CollisionReduces MD5.eq (2 ^ 61) Spec.MD5.compress Spec.MD5.init
    (fun m => Spec.blocks 64 (Spec.MD5.pad m)) :=
  reduces Proof.MD5.refines (fun o o' m m' h h' _ _ e => by
    have h : o.chain.h = _ := h
    have h' : o'.chain.h = _ := h'
    have e : o.chain.h = o'.chain.h := beq_iff_eq.1 e
    rw [h, h'] at e
    have e := congrArg tup4 e
    rw [mdFold_map (f := tup4) (scomp := Spec.MD5.compress) Proof.MD5.compress_eq,
      mdFold_map (f := tup4) (scomp := Spec.MD5.compress) Proof.MD5.compress_eq] at e
    exact e)
  fun m m' => padded_collision (pb := 0x80) (field := fun n => Spec.toLE 8 (8 * n)) _ _ (by decide) (by decide)
    (fun _ => toLE_length _ _) _ (fun n n' hn hn' h => by have := toLE_inj_mod 8 _ _ h; omega) m m'
theorem C28_MD5_digest (ops ops' : List Op) (hl : Legal (ops ++ [.finalize]))
    (hl' : Legal (ops' ++ [.finalize])) (hne : message ops ≠ message ops') (hm : (message ops).length < 2 ^ 61)
    (hm' : (message ops').length < 2 ^ 61) (o o')
    (e : MD5.MD5.run MD5.MD5.fresh (ops ++ [.finalize]) = .ok o)
    (e' : MD5.MD5.run MD5.MD5.fresh (ops' ++ [.finalize]) = .ok o')
    (hd : MD5.MD5.toArray o = MD5.MD5.toArray o') :
    CollisionIn Spec.MD5.compress Spec.MD5.init (Spec.blocks 64 (Spec.MD5.pad (message ops)))
      (Spec.blocks 64 (Spec.MD5.pad (message ops'))) :=
  digest C28_MD5 C06_MD5_exact ops ops' hl hl' hne hm hm' o o' e e' hd

theorem C28_RIPEMD_128 : RIPEMD.RIPEMD_128.CollisionReduces RIPEMD.eq (2 ^ 61) Spec.RIPEMD.compress128 Spec.RIPEMD.init128
    (fun m => Spec.blocks 64 (Spec.RIPEMD.pad m)) :=
  reduces Proof.RIPEMD.r128 (fun o o' m m' h h' _ _ e => by
    have h : o.chain.h = _ := h
    have h' : o'.chain.h = _ := h'
    have e : o.chain.h = o'.chain.h := beq_iff_eq.1 e
    rw [h, h'] at e
    have e := congrArg tup4 e
    rw [mdFold_map (f := tup4) (scomp := Spec.RIPEMD.compress128) Proof.RIPEMD.compress128_eq,
      mdFold_map (f := tup4) (scomp := Spec.RIPEMD.compress128) Proof.RIPEMD.compress128_eq] at e
    exact e)
  fun m m' => padded_collision (pb := 0x80) (field := fun n => Spec.toLE 8 (8 * n)) _ _ (by decide) (by decide)
    (fun _ => toLE_length _ _) _ (fun n n' hn hn' h => by have := toLE_inj_mod 8 _ _ h; omega) m m'
theorem C28_RIPEMD_128_digest (ops ops' : List Op) (hl : Legal (ops ++ [.finalize]))
    (hl' : Legal (ops' ++ [.finalize])) (hne : message ops ≠ message ops') (hm : (message ops).length < 2 ^ 61)
    (hm' : (message ops').length < 2 ^ 61) (o o')
    (e : RIPEMD.RIPEMD_128.run RIPEMD.RIPEMD_128.fresh (ops ++ [.finalize]) = .ok o)
    (e' : RIPEMD.RIPEMD_128.run RIPEMD.RIPEMD_128.fresh (ops' ++ [.finalize]) = .ok o')
    (hd : RIPEMD.RIPEMD_128.toArray o = RIPEMD.RIPEMD_128.toArray o') :
    CollisionIn Spec.RIPEMD.compress128 Spec.RIPEMD.init128 (Spec.blocks 64 (Spec.RIPEMD.pad (message ops)))
      (Spec.blocks 64 (Spec.RIPEMD.pad (message ops'))) :=
  digest C28_RIPEMD_128 C06_RIPEMD_128_exact ops ops' hl hl' hne hm hm' o o' e e' hd

theorem C28_RIPEMD_160 : RIPEMD.RIPEMD_160.CollisionReduces RIPEMD.eq (2 ^ 61) Spec.RIPEMD.compress160 Spec.RIPEMD.init160
    (fun m => Spec.blocks 64 (Spec.RIPEMD.pad m)) :=
  reduces Proof.RIPEMD.r160 (fun o o' m m' h h' _ _ e => by
    have h : o.chain.h = _ := h
    have h' : o'.chain.h = _ := h'
    have e : o.chain.h = o'.chain.h := beq_iff_eq.1 e
    rw [h, h'] at e
    have e := congrArg Proof.RIPEMD.tup5 e
    rw [mdFold_map (f := Proof.RIPEMD.tup5) (scomp := Spec.RIPEMD.compress160) Proof.RIPEMD.compress160_eq,
      mdFold_map (f := Proof.RIPEMD.tup5) (scomp := Spec.RIPEMD.compress160) Proof.RIPEMD.compress160_eq] at e
    exact e)
  fun m m' => padded_collision (pb := 0x80) (field := fun n => Spec.toLE 8 (8 * n)) _ _ (by decide) (by decide)
    (fun _ => toLE_length _ _) _ (fun n n' hn hn' h => by have := toLE_inj_mod 8 _ _ h; omega) m m'
theorem C28_RIPEMD_160_digest (ops ops' : List Op) (hl : Legal (ops ++ [.finalize]))
    (hl' : Legal (ops' ++ [.finalize])) (hne : message ops ≠ message ops') (hm : (message ops).length < 2 ^ 61)
    (hm' : (message ops').length < 2 ^ 61) (o o')
    (e : RIPEMD.RIPEMD_160.run RIPEMD.RIPEMD_160.fresh (ops ++ [.finalize]) = .ok o)
    (e' : RIPEMD.RIPEMD_160.run RIPEMD.RIPEMD_160.fresh (ops' ++ [.finalize]) = .ok o')
    (hd : RIPEMD.RIPEMD_160.toArray o = RIPEMD.RIPEMD_160.toArray o') :
    CollisionIn Spec.RIPEMD.compress160 Spec.RIPEMD.init160 (Spec.blocks 64 (Spec.RIPEMD.pad (message ops)))
      (Spec.blocks 64 (Spec.RIPEMD.pad (message ops'))) :=
  digest C28_RIPEMD_160 C06_RIPEMD_160_exact ops ops' hl hl' hne hm hm' o o' e e' hd

theorem C28_RIPEMD_256 : RIPEMD.RIPEMD_256.CollisionReduces RIPEMD.eq (2 ^ 61) Spec.RIPEMD.compress256 Spec.RIPEMD.init256
    (fun m => Spec.blocks 64 (Spec.RIPEMD.pad m)) :=
  reduces Proof.RIPEMD.r256 (fun o o' m m' h h' _ _ e => by
    have h : o.chain.h = _ := h
    have h' : o'.chain.h = _ := h'
    have e : o.chain.h = o'.chain.h := beq_iff_eq.1 e
    rw [h, h'] at e
    have e := congrArg Proof.RIPEMD.two4 e
    rw [mdFold_map (f := Proof.RIPEMD.two4) (scomp := Spec.RIPEMD.compress256) Proof.RIPEMD.compress256_eq,
      mdFold_map (f := Proof.RIPEMD.two4) (scomp := Spec.RIPEMD.compress256) Proof.RIPEMD.compress256_eq] at e
    exact e)
  fun m m' => padded_collision (pb := 0x80) (field := fun n => Spec.toLE 8 (8 * n)) _ _ (by decide) (by decide)
    (fun _ => toLE_length _ _) _ (fun n n' hn hn' h => by have := toLE_inj_mod 8 _ _ h; omega) m m'
theorem C28_RIPEMD_256_digest (ops ops' : List Op) (hl : Legal (ops ++ [.finalize]))
    (hl' : Legal (ops' ++ [.finalize])) (hne : message ops ≠ message ops') (hm : (message ops).length < 2 ^ 61)
    (hm' : (message ops').length < 2 ^ 61) (o o')
    (e : RIPEMD.RIPEMD_256.run RIPEMD.RIPEMD_256.fresh (ops ++ [.finalize]) = .ok o)
    (e' : RIPEMD.RIPEMD_256.run RIPEMD.RIPEMD_256.fresh (ops' ++ [.finalize]) = .ok o')
    (hd : RIPEMD.RIPEMD_256.toArray o = RIPEMD.RIPEMD_256.toArray o') :
    CollisionIn Spec.RIPEMD.compress256 Spec.RIPEMD.init256 (Spec.blocks 64 (Spec.RIPEMD.pad (message ops)))
      (Spec.blocks 64 (Spec.RIPEMD.pad (message ops'))) :=
  digest C28_RIPEMD_256 C06_RIPEMD_256_exact ops ops' hl hl' hne hm hm' o o' e e' hd

theorem C28_RIPEMD_320 : RIPEMD.RIPEMD_320.CollisionReduces RIPEMD.eq (2 ^ 61) Spec.RIPEMD.compress320 Spec.RIPEMD.init320
    (fun m => Spec.blocks 64 (Spec.RIPEMD.pad m)) :=
  reduces Proof.RIPEMD.r320 (fun o o' m m' h h' _ _ e => by
    have h : o.chain.h = _ := h
    have h' : o'.chain.h = _ := h'
    have e : o.chain.h = o'.chain.h := beq_iff_eq.1 e
    rw [h, h'] at e
    have e := congrArg Proof.RIPEMD.two5 e
    rw [mdFold_map (f := Proof.RIPEMD.two5) (scomp := Spec.RIPEMD.compress320) Proof.RIPEMD.compress320_eq,
      mdFold_map (f := Proof.RIPEMD.two5) (scomp := Spec.RIPEMD.compress320) Proof.RIPEMD.compress320_eq] at e
    exact e)
  fun m m' => padded_collision (pb := 0x80) (field := fun n => Spec.toLE 8 (8 * n)) _ _ (by decide) (by decide)
    (fun _ => toLE_length _ _) _ (fun n n' hn hn' h => by have := toLE_inj_mod 8 _ _ h; omega) m m'
theorem C28_RIPEMD_320_digest (ops ops' : List Op) (hl : Legal (ops ++ [.finalize]))
    (hl' : Legal (ops' ++ [.finalize])) (hne : message ops ≠ message ops') (hm : (message ops).length < 2 ^ 61)
    (hm' : (message ops').length < 2 ^ 61) (o o')
    (e : RIPEMD.RIPEMD_320.run RIPEMD.RIPEMD_320.fresh (ops ++ [.finalize]) = .ok o)
    (e' : RIPEMD.RIPEMD_320.run RIPEMD.RIPEMD_320.fresh (ops' ++ [.finalize]) = .ok o')
    (hd : RIPEMD.RIPEMD_320.toArray o = RIPEMD.RIPEMD_320.toArray o') :
    CollisionIn Spec.RIPEMD.compress320 Spec.RIPEMD.init320 (Spec.blocks 64 (Spec.RIPEMD.pad (message ops)))
      (Spec.blocks 64 (Spec.RIPEMD.pad (message ops'))) :=
  digest C28_RIPEMD_320 C06_RIPEMD_320_exact ops ops' hl hl' hne hm hm' o o' e e' hd

theorem C28_HAS_160 : HAS160.HAS_160.CollisionReduces HAS160.eq (2 ^ 61) Spec.HAS160.compress Spec.HAS160.init
    (fun m => Spec.blocks 64 (Spec.HAS160.pad m)) :=
  reduces Proof.HAS160.refines (fun o o' m m' h h' _ _ e => by
    have h : o.chain.h = _ := h
    have h' : o'.chain.h = _ := h'
    have e : o.chain.h = o'.chain.h := beq_iff_eq.1 e
    rw [h, h'] at e
    have e := congrArg Proof.HAS160.tup e
    rw [mdFold_map (f := Proof.HAS160.tup) (scomp := Spec.HAS160.compress) Proof.HAS160.compress_eq,
      mdFold_map (f := Proof.HAS160.tup) (scomp := Spec.HAS160.compress) Proof.HAS160.compress_eq] at e
    exact e)
  fun m m' => padded_collision (pb := 0x80) (field := fun n => Spec.toLE 8 (8 * n)) _ _ (by decide) (by decide)
    (fun _ => toLE_length _ _) _ (fun n n' hn hn' h => by have := toLE_inj_mod 8 _ _ h; omega) m m'
theorem C28_HAS_160_digest (ops ops' : List Op) (hl : Legal (ops ++ [.finalize]))
    (hl' : Legal (ops' ++ [.finalize])) (hne : message ops ≠ message ops') (hm : (message ops).length < 2 ^ 61)
    (hm' : (message ops').length < 2 ^ 61) (o o')
    (e : HAS160.HAS_160.run HAS160.HAS_160.fresh (ops ++ [.finalize]) = .ok o)
    (e' : HAS160.HAS_160.run HAS160.HAS_160.fresh (ops' ++ [.finalize]) = .ok o')
    (hd : HAS160.HAS_160.toArray o = HAS160.HAS_160.toArray o') :
    CollisionIn Spec.HAS160.compress Spec.HAS160.init (Spec.blocks 64 (Spec.HAS160.pad (message ops)))
      (Spec.blocks 64 (Spec.HAS160.pad (message ops'))) :=
  digest C28_HAS_160 C06_HAS_160_exact ops ops' hl hl' hne hm hm' o o' e e' hd

theorem C28_SM3 : SM3.SM3.CollisionReduces SM3.eq (2 ^ 61) Spec.SM3.compress Spec.SM3.init
    (fun m => Spec.blocks 64 (Spec.SM3.pad m)) :=
  reduces Proof.SM3.refines (fun o o' m m' h h' _ _ e => by
    have h : o.chain.h = _ := h
    have h' : o'.chain.h = _ := h'
    have e : o.chain.h = o'.chain.h := beq_iff_eq.1 e
    rw [h, h'] at e
    have e := congrArg Proof.SM3.two e
    rw [mdFold_map (f := Proof.SM3.two) (scomp := Spec.SM3.compress) Proof.SM3.compress_eq,
      mdFold_map (f := Proof.SM3.two) (scomp := Spec.SM3.compress) Proof.SM3.compress_eq] at e
    exact e)
  fun m m' => padded_collision (pb := 0x80) (field := fun n => Spec.toBE 8 (8 * n)) _ _ (by decide) (by decide)
    (fun _ => toBE_length _ _) _ (fun n n' hn hn' h => by have := toBE_inj_mod 8 _ _ h; omega) m m'
theorem C28_SM3_digest (ops ops' : List Op) (hl : Legal (ops ++ [.finalize]))
    (hl' : Legal (ops' ++ [.finalize])) (hne : message ops ≠ message ops') (hm : (message ops).length < 2 ^ 61)
    (hm' : (message ops').length < 2 ^ 61) (o o')
    (e : SM3.SM3.run SM3.SM3.fresh (ops ++ [.finalize]) = .ok o)
    (e' : SM3.SM3.run SM3.SM3.fresh (ops' ++ [.finalize]) = .ok o')
    (hd : SM3.SM3.toArray o = SM3.SM3.toArray o') :
    CollisionIn Spec.SM3.compress Spec.SM3.init (Spec.blocks 64 (Spec.SM3.pad (message ops)))
      (Spec.blocks 64 (Spec.SM3.pad (message ops'))) :=
  digest C28_SM3 C06_SM3_exact ops ops' hl hl' hne hm hm' o o' e e' hd

theorem C28_Tiger1_192 : Tiger.Tiger1_192.CollisionReduces Tiger.eq (2 ^ 61) (Spec.Tiger.compress Spec.Tiger.S) Spec.Tiger.init
    (fun m => Spec.blocks 64 (Spec.Tiger.pad 0x01 m)) :=
  reduces Proof.Tiger.r1 (fun o o' m m' h h' _ _ e => by
    have h : o.chain.h = _ := h
    have h' : o'.chain.h = _ := h'
    have e : o.chain.h = o'.chain.h := beq_iff_eq.1 e
    rw [h, h'] at e
    have e := congrArg Proof.Tiger.tup3 e
    rw [mdFold_map (f := Proof.Tiger.tup3) (scomp := (Spec.Tiger.compress Spec.Tiger.S)) (fun h m => by rw [Proof.Tiger.compress_eq, Proof.Tiger.compress_congr]),
      mdFold_map (f := Proof.Tiger.tup3) (scomp := (Spec.Tiger.compress Spec.Tiger.S)) (fun h m => by rw [Proof.Tiger.compress_eq, Proof.Tiger.compress_congr])] at e
    exact e)
  fun m m' => padded_collision (pb := 0x01) (field := fun n => Spec.toLE 8 (8 * n)) _ _ (by decide) (by decide)
    (fun _ => toLE_length _ _) _ (fun n n' hn hn' h => by have := toLE_inj_mod 8 _ _ h; omega) m m'
theorem C28_Tiger1_192_digest (ops ops' : List Op) (hl : Legal (ops ++ [.finalize]))
    (hl' : Legal (ops' ++ [.finalize])) (hne : message ops ≠ message ops') (hm : (message ops).length < 2 ^ 61)
    (hm' : (message ops').length < 2 ^ 61) (o o')
    (e : Tiger.Tiger1_192.run Tiger.Tiger1_192.fresh (ops ++ [.finalize]) = .ok o)
    (e' : Tiger.Tiger1_192.run Tiger.Tiger1_192.fresh (ops' ++ [.finalize]) = .ok o')
    (hd : Tiger.Tiger1_192.toArray o = Tiger.Tiger1_192.toArray o') :
    CollisionIn (Spec.Tiger.compress Spec.Tiger.S) Spec.Tiger.init (Spec.blocks 64 (Spec.Tiger.pad 0x01 (message ops)))
      (Spec.blocks 64 (Spec.Tiger.pad 0x01 (message ops'))) :=
  digest C28_Tiger1_192 C06_Tiger1_192_exact ops ops' hl hl' hne hm hm' o o' e e' hd

theorem C28_Tiger2_192 : Tiger.Tiger2_192.CollisionReduces Tiger.eq (2 ^ 61) (Spec.Tiger.compress Spec.Tiger.S) Spec.Tiger.init
    (fun m => Spec.blocks 64 (Spec.Tiger.pad 0x80 m)) :=
  reduces Proof.Tiger.r2 (fun o o' m m' h h' _ _ e => by
    have h : o.chain.h = _ := h
    have h' : o'.chain.h = _ := h'
    have e : o.chain.h = o'.chain.h := beq_iff_eq.1 e
    rw [h, h'] at e
    have e := congrArg Proof.Tiger.tup3 e
    rw [mdFold_map (f := Proof.Tiger.tup3) (scomp := (Spec.Tiger.compress Spec.Tiger.S)) (fun h m => by rw [Proof.Tiger.compress_eq, Proof.Tiger.compress_congr]),
      mdFold_map (f := Proof.Tiger.tup3) (scomp := (Spec.Tiger.compress Spec.Tiger.S)) (fun h m => by rw [Proof.Tiger.compress_eq, Proof.Tiger.compress_congr])] at e
    exact e)
  fun m m' => padded_collision (pb := 0x80) (field := fun n => Spec.toLE 8 (8 * n)) _ _ (by decide) (by decide)
    (fun _ => toLE_length _ _) _ (fun n n' hn hn' h => by have := toLE_inj_mod 8 _ _ h; omega) m m'
theorem C28_Tiger2_192_digest (ops ops' : List Op) (hl : Legal (ops ++ [.finalize]))
    (hl' : Legal (ops' ++ [.finalize])) (hne : message ops ≠ message ops') (hm : (message ops).length < 2 ^ 61)
    (hm' : (message ops').length < 2 ^ 61) (o o')
    (e : Tiger.Tiger2_192.run Tiger.Tiger2_192.fresh (ops ++ [.finalize]) = .ok o)
    (e' : Tiger.Tiger2_192.run Tiger.Tiger2_192.fresh (ops' ++ [.finalize]) = .ok o')
    (hd : Tiger.Tiger2_192.toArray o = Tiger.Tiger2_192.toArray o') :
    CollisionIn (Spec.Tiger.compress Spec.Tiger.S) Spec.Tiger.init (Spec.blocks 64 (Spec.Tiger.pad 0x80 (message ops)))
      (Spec.blocks 64 (Spec.Tiger.pad 0x80 (message ops'))) :=
  digest C28_Tiger2_192 C06_Tiger2_192_exact ops ops' hl hl' hne hm hm' o o' e e' hd

/-- Whirlpool: below 2^125 bytes the 128-bit counter of the class is the 256-bit length. -/
theorem C28_Whirlpool : Whirlpool.Whirlpool.CollisionReduces Whirlpool.eq (2 ^ 125) Spec.Whirlpool.compress (fun _ _ => 0)
    (fun m => Spec.blocks 64 (Spec.Whirlpool.pad m)) :=
  reduces Proof.Whirlpool.refines (fun o o' m m' h h' l l' e => by
    have h : o.chain.h = mdFold 64 Whirlpool.compress Whirlpool.iv (Proof.Whirlpool.pad128 m) := h
    have h' : o'.chain.h = mdFold 64 Whirlpool.compress Whirlpool.iv (Proof.Whirlpool.pad128 m') := h'
    have e : o.chain.h = o'.chain.h := beq_iff_eq.1 e
    rw [h, h', Proof.Whirlpool.pad128_eq m l, Proof.Whirlpool.pad128_eq m' l'] at e
    have e := congrArg Proof.Whirlpool.matOf e
    rw [mdFold_map (f := Proof.Whirlpool.matOf) Proof.Whirlpool.compress_eq,
      mdFold_map (f := Proof.Whirlpool.matOf) Proof.Whirlpool.compress_eq, Proof.Whirlpool.matOf_iv] at e
    exact e)
  fun m m' => padded_collision (pb := 0x80) (field := fun n => Spec.toBE 32 (8 * n)) _ _ (by decide) (by decide)
    (fun _ => toBE_length _ _) _ (fun n n' hn hn' h => by have := toBE_inj_mod 32 _ _ h; omega) m m'
theorem C28_Whirlpool_digest (ops ops' : List Op) (hl : Legal (ops ++ [.finalize]))
    (hl' : Legal (ops' ++ [.finalize])) (hne : message ops ≠ message ops') (hm : (message ops).length < 2 ^ 125)
    (hm' : (message ops').length < 2 ^ 125) (o o')
    (e : Whirlpool.Whirlpool.run Whirlpool.Whirlpool.fresh (ops ++ [.finalize]) = .ok o)
    (e' : Whirlpool.Whirlpool.run Whirlpool.Whirlpool.fresh (ops' ++ [.finalize]) = .ok o')
    (hd : Whirlpool.Whirlpool.toArray o = Whirlpool.Whirlpool.toArray o') :
    CollisionIn Spec.Whirlpool.compress (fun _ _ => 0) (Spec.blocks 64 (Spec.Whirlpool.pad (message ops)))
      (Spec.blocks 64 (Spec.Whirlpool.pad (message ops'))) :=
  digest C28_Whirlpool C06_Whirlpool_exact ops ops' hl hl' hne hm hm' o o' e e' hd

/-! Hypotheses are met by real histories, and `CollisionIn` is not trivially true or false: a step that forgets the
block collides, and xor on one-block sequences does not. -/
example : Legal ([.add [1, 2], .add [3]] ++ [.finalize]) ∧ Legal ([.add [9], .reset, .add [1, 2]] ++ [.finalize]) ∧
    message [.add [1, 2], .add [3]] ≠ message [.add [9], .reset, .add [1, 2]] := by decide
example : CollisionIn (fun (h : Nat) (_ : Nat) => h + 1) 0 [5, 6] [7, 6] :=
  ⟨[], 5, [6], [], 7, [6], rfl, rfl, by decide, rfl⟩
example : ¬ CollisionIn (fun (h : Nat) (x : Nat) => 2 * h + x) 0 [0] [1] := by
  rintro ⟨p, b, q, p', b', q', e, e', hn, he⟩
  cases p with
  | nil =>
    cases p' with
    | nil =>
      simp at e e' he hn
      omega
    | cons x p' => simp at e'
  | cons x p => simp at e

end Verif.Props
