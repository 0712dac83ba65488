import Verif.Props.Equality

/-!
# C43 (objects as keys of unordered containers), class by class

Generated by tools/gen_equality.py. `KeyLike` and `KeyLikeFinal` are defined in Core/Equality.lean.
-/

namespace Verif.Props
open Model

/-- an `operator==` that compares one member, on which the digest depends -/
private theorem keyLike {O β : Type} [BEq β] [LawfulBEq β] (A : API O) (eq : O → O → Bool) (f : O → β)
    (he : ∀ o o', eq o o' = (f o == f o')) (hd : ∀ o o', f o = f o' → A.toArray o = A.toArray o') : A.KeyLike eq where
  refl o := by rw [he]; exact beq_self_eq_true _
  symm o o' h := by rw [he] at h ⊢; exact beq_iff_eq.2 (beq_iff_eq.1 h).symm
  trans o o' o'' h h' := by rw [he] at h h' ⊢; exact beq_iff_eq.2 ((beq_iff_eq.1 h).trans (beq_iff_eq.1 h'))
  digest o o' h := by rw [he] at h; exact hd o o' (beq_iff_eq.1 h)
  hash o o' h := by
    rw [he] at h
    simp only [API.stdHash, API.toUInt, hd o o' (beq_iff_eq.1 h)]

theorem C43_SHA1 : SHA1.SHA1.KeyLike SHA1.eq :=
  keyLike _ _ (fun o => o.chain.h) (fun _ _ => rfl) fun o o' h => by simp only [SHA1.SHA1, mdApi]; rw [h]
theorem C43_SHA2_224 : SHA2.SHA2_224.KeyLike SHA2.eq32 :=
  keyLike _ _ (fun o => o.chain.h) (fun _ _ => rfl) fun o o' h => by simp only [SHA2.SHA2_224, SHA2.api32, mdApi]; rw [h]
theorem C43_SHA2_256 : SHA2.SHA2_256.KeyLike SHA2.eq32 :=
  keyLike _ _ (fun o => o.chain.h) (fun _ _ => rfl) fun o o' h => by simp only [SHA2.SHA2_256, SHA2.api32, mdApi]; rw [h]
theorem C43_SHA2_384 : SHA2.SHA2_384.KeyLike SHA2.eq64 :=
  keyLike _ _ (fun o => o.chain.h) (fun _ _ => rfl) fun o o' h => by simp only [SHA2.SHA2_384, SHA2.api64, mdApi]; rw [h]
theorem C43_SHA2_512 : SHA2.SHA2_512.KeyLike SHA2.eq64 :=
  keyLike _ _ (fun o => o.chain.h) (fun _ _ => rfl) fun o o' h => by simp only [SHA2.SHA2_512, SHA2.api64, mdApi]; rw [h]
theorem C43_SHA2_512_224 : SHA2.SHA2_512_224.KeyLike SHA2.eq64 :=
  keyLike _ _ (fun o => o.chain.h) (fun _ _ => rfl) fun o o' h => by simp only [SHA2.SHA2_512_224, SHA2.api64, mdApi]; rw [h]
theorem C43_SHA2_512_256 : SHA2.SHA2_512_256.KeyLike SHA2.eq64 :=
  keyLike _ _ (fun o => o.chain.h) (fun _ _ => rfl) fun o o' h => by simp only [SHA2.SHA2_512_256, SHA2.api64, mdApi]; rw [h]
theorem C43_MD4 : MD4.MD4.KeyLike MD4.eq :=
  keyLike _ _ (fun o => o.chain.h) (fun _ _ => rfl) fun o o' h => by simp only [MD4.MD4, mdApi]; rw [h]
theorem C43_MD5 : MD5.MD5.KeyLike MD5.eq :=
  keyLike _ _ (fun o => o.chain.h) (fun _ _ => rfl) fun o o' h => by simp only [MD5.MD5, mdApi]; rw [h]
theorem C43_RIPEMD_128 : RIPEMD.RIPEMD_128.KeyLike RIPEMD.eq :=
  keyLike _ _ (fun o => o.chain.h) (fun _ _ => rfl) fun o o' h => by simp only [RIPEMD.RIPEMD_128, mdApi]; rw [h]
theorem C43_RIPEMD_160 : RIPEMD.RIPEMD_160.KeyLike RIPEMD.eq :=
  keyLike _ _ (fun o => o.chain.h) (fun _ _ => rfl) fun o o' h => by simp only [RIPEMD.RIPEMD_160, mdApi]; rw [h]
theorem C43_RIPEMD_256 : RIPEMD.RIPEMD_256.KeyLike RIPEMD.eq :=
  keyLike _ _ (fun o => o.chain.h) (fun _ _ => rfl) fun o o' h => by simp only [RIPEMD.RIPEMD_256, mdApi]; rw [h]
theorem C43_RIPEMD_320 : RIPEMD.RIPEMD_320.KeyLike RIPEMD.eq :=
  keyLike _ _ (fun o => o.chain.h) (fun _ _ => rfl) fun o o' h => by simp only [RIPEMD.RIPEMD_320, mdApi]; rw [h]
theorem C43_HAS_160 : HAS160.HAS_160.KeyLike HAS160.eq :=
  keyLike _ _ (fun o => o.chain.h) (fun _ _ => rfl) fun o o' h => by simp only [HAS160.HAS_160, mdApi]; rw [h]
theorem C43_SM3 : SM3.SM3.KeyLike SM3.eq :=
  keyLike _ _ (fun o => o.chain.h) (fun _ _ => rfl) fun o o' h => by simp only [SM3.SM3, mdApi]; rw [h]
theorem C43_Whirlpool : Whirlpool.Whirlpool.KeyLike Whirlpool.eq :=
  keyLike _ _ (fun o => o.chain.h) (fun _ _ => rfl) fun o o' h => by simp only [Whirlpool.Whirlpool, mdApi]; rw [h]
theorem C43_MD2 : MD2.MD2.KeyLike MD2.eq :=
  keyLike _ _ (fun o => o.chain.x) (fun _ _ => rfl) fun o o' h => by simp only [MD2.MD2, blockApi, MD2.toArray]; rw [h]
theorem C43_Blake1_224 : BLAKE.Blake1_224.KeyLike BLAKE.eq32 :=
  keyLike _ _ (fun o => o.chain.h) (fun _ _ => rfl) fun o o' h => by simp only [BLAKE.Blake1_224, BLAKE.api32, blockApi, BLAKE.toArray]; rw [h]
theorem C43_Blake1_256 : BLAKE.Blake1_256.KeyLike BLAKE.eq32 :=
  keyLike _ _ (fun o => o.chain.h) (fun _ _ => rfl) fun o o' h => by simp only [BLAKE.Blake1_256, BLAKE.api32, blockApi, BLAKE.toArray]; rw [h]
theorem C43_Blake1_384 : BLAKE.Blake1_384.KeyLike BLAKE.eq64 :=
  keyLike _ _ (fun o => o.chain.h) (fun _ _ => rfl) fun o o' h => by simp only [BLAKE.Blake1_384, BLAKE.api64, blockApi, BLAKE.toArray]; rw [h]
theorem C43_Blake1_512 : BLAKE.Blake1_512.KeyLike BLAKE.eq64 :=
  keyLike _ _ (fun o => o.chain.h) (fun _ _ => rfl) fun o o' h => by simp only [BLAKE.Blake1_512, BLAKE.api64, blockApi, BLAKE.toArray]; rw [h]
theorem C43_Blake2 : BLAKE2.Blake2.KeyLike BLAKE2.eq2 :=
  keyLike _ _ (fun o => o.chain.h) (fun _ _ => rfl) fun o o' h => by simp only [BLAKE2.Blake2, BLAKE2.api, BLAKE2.toArray]; rw [h]
theorem C43_Blake2s : BLAKE2.Blake2s.KeyLike BLAKE2.eq2s :=
  keyLike _ _ (fun o => o.chain.h) (fun _ _ => rfl) fun o o' h => by simp only [BLAKE2.Blake2s, BLAKE2.api, BLAKE2.toArray]; rw [h]
theorem C43_SipHash (C D : Nat) (key : Block 16) : (SipHash.SipHashCD C D key).KeyLike SipHash.eq :=
  keyLike _ _ (fun o => o.chain.state) (fun _ _ => rfl) fun o o' h => by simp only [SipHash.SipHashCD, SipHash.toArray]; rw [h]
theorem C43_FNV32_1 : FNV.FNV32_1.KeyLike FNV.eq :=
  keyLike _ _ id (fun _ _ => rfl) fun o o' h => by rw [show o = o' from h]
theorem C43_FNV32_1a : FNV.FNV32_1a.KeyLike FNV.eq :=
  keyLike _ _ id (fun _ _ => rfl) fun o o' h => by rw [show o = o' from h]
theorem C43_FNV64_1 : FNV.FNV64_1.KeyLike FNV.eq :=
  keyLike _ _ id (fun _ _ => rfl) fun o o' h => by rw [show o = o' from h]
theorem C43_FNV64_1a : FNV.FNV64_1a.KeyLike FNV.eq :=
  keyLike _ _ id (fun _ _ => rfl) fun o o' h => by rw [show o = o' from h]
theorem C43_CRC_32 : CRC32.CRC_32.KeyLike CRC32.eq :=
  keyLike _ _ id (fun _ _ => rfl) fun o o' h => by rw [show o = o' from h]
theorem C43_FNV32_0 : FNV.FNV32_0.KeyLike FNV.eq :=
  keyLike _ _ id (fun _ _ => rfl) fun o o' h => by rw [show o = o' from h]
theorem C43_FNV64_0 : FNV.FNV64_0.KeyLike FNV.eq :=
  keyLike _ _ id (fun _ _ => rfl) fun o o' h => by rw [show o = o' from h]
/-- all six Tiger classes -/
theorem C43_Tiger (V D : Nat) : (Tiger.Tiger V D).KeyLike Tiger.eq :=
  keyLike _ _ (fun o => o.chain.h) (fun _ _ => rfl) fun o o' h => by simp only [Tiger.Tiger, mdApi]; rw [h]

/-! ### Keccak based classes -/

private theorem keyLikeFinal {O β : Type} [BEq β] [LawfulBEq β] (A : API O) (eq : O → O → Bool) (f : O → β)
    (he : ∀ o o', eq o o' = (f o == f o')) (hs : A.EqSound eq) : A.KeyLikeFinal eq where
  refl o := by rw [he]; exact beq_self_eq_true _
  symm o o' h := by rw [he] at h ⊢; exact beq_iff_eq.2 (beq_iff_eq.1 h).symm
  trans o o' o'' h h' := by rw [he] at h h' ⊢; exact beq_iff_eq.2 ((beq_iff_eq.1 h).trans (beq_iff_eq.1 h'))
  hash ops ops' o o' hl hl' e e' h := by
    obtain ⟨p, p', e1, e1', _, hd⟩ := hs ops ops' hl hl'
    rw [e] at e1
    rw [e'] at e1'
    obtain rfl := Except.ok.inj e1
    obtain rfl := Except.ok.inj e1'
    exact ⟨hd h, by simp only [API.stdHash, API.toUInt, hd h]⟩

theorem C43_SHA3_224_partial : SHA3.SHA3_224.KeyLikeFinal SHA3.eq :=
  keyLikeFinal _ _ (fun o => o.chain.state) (fun _ _ => rfl) C06_SHA3_224
theorem C43_SHA3_256_partial : SHA3.SHA3_256.KeyLikeFinal SHA3.eq :=
  keyLikeFinal _ _ (fun o => o.chain.state) (fun _ _ => rfl) C06_SHA3_256
theorem C43_SHA3_384_partial : SHA3.SHA3_384.KeyLikeFinal SHA3.eq :=
  keyLikeFinal _ _ (fun o => o.chain.state) (fun _ _ => rfl) C06_SHA3_384
theorem C43_SHA3_512_partial : SHA3.SHA3_512.KeyLikeFinal SHA3.eq :=
  keyLikeFinal _ _ (fun o => o.chain.state) (fun _ _ => rfl) C06_SHA3_512
theorem C43_SHAKE_128_partial (d : Nat) : (SHA3.SHAKE_128 d).KeyLikeFinal SHA3.eq :=
  keyLikeFinal _ _ (fun o => o.chain.state) (fun _ _ => rfl) (C06_SHAKE_128 d)
theorem C43_SHAKE_256_partial (d : Nat) : (SHA3.SHAKE_256 d).KeyLikeFinal SHA3.eq :=
  keyLikeFinal _ _ (fun o => o.chain.state) (fun _ _ => rfl) (C06_SHAKE_256 d)

/-- one block: the padding of the empty message for SHA3-256 -/
def paddedEmpty : List Byte := 6 :: List.replicate 134 0 ++ [0x80]

/-- C43 is false of SHA-3 objects that are not all finalised: an object that has been given the bytes of a padded
message compares equal to one that was finalised after the message, but its hash is 0. -/
theorem C43_SHA3_256_fails : ¬SHA3.SHA3_256.KeyLike SHA3.eq := by
  intro h
  have key : ((SHA3.SHA3_256.run SHA3.SHA3_256.fresh [.finalize]).bind fun o =>
      (SHA3.SHA3_256.run SHA3.SHA3_256.fresh [.add paddedEmpty]).bind fun o' =>
      .ok (SHA3.eq o o' && (SHA3.SHA3_256.stdHash o).toOption == some 0xa7ffc6f8bf1ed766#64 &&
        (SHA3.SHA3_256.stdHash o').toOption == some 0#64)).toOption = some true := by decide +kernel
  cases e : SHA3.SHA3_256.run SHA3.SHA3_256.fresh [.finalize] with
  | error _ => rw [e] at key; simp [Except.bind, Except.toOption] at key
  | ok o =>
    cases e' : SHA3.SHA3_256.run SHA3.SHA3_256.fresh [.add paddedEmpty] with
    | error _ => rw [e, e'] at key; simp [Except.bind, Except.toOption] at key
    | ok o' =>
      rw [e, e'] at key
      simp only [Except.bind, Except.toOption, Option.some.injEq, Bool.and_eq_true, beq_iff_eq] at key
      have := h.hash o o' key.1.1
      rw [this] at key
      have h1 := key.1.2
      rw [key.2] at h1
      exact absurd h1 (by decide)

/-- C43 is false of finalised SHAKE objects with different requested lengths: objects asked for one and for two bytes
of the same message compare equal and have different hashes. -/
theorem C43_SHAKE_128_fails : ∃ o o' v v', (SHA3.SHAKE_128 1).run (SHA3.SHAKE_128 1).fresh [.finalize] = .ok o ∧
    (SHA3.SHAKE_128 2).run (SHA3.SHAKE_128 2).fresh [.finalize] = .ok o' ∧ SHA3.eq o o' = true ∧
    (SHA3.SHAKE_128 1).stdHash o = .ok v ∧ (SHA3.SHAKE_128 2).stdHash o' = .ok v' ∧ v ≠ v' := by
  have key : (((SHA3.SHAKE_128 1).run (SHA3.SHAKE_128 1).fresh [.finalize]).bind fun o =>
      ((SHA3.SHAKE_128 2).run (SHA3.SHAKE_128 2).fresh [.finalize]).bind fun o' =>
      .ok (SHA3.eq o o' && ((SHA3.SHAKE_128 1).stdHash o).toOption == some 0x7f#64 &&
        ((SHA3.SHAKE_128 2).stdHash o').toOption == some 0x7f9c#64)).toOption = some true := by decide +kernel
  cases e : (SHA3.SHAKE_128 1).run (SHA3.SHAKE_128 1).fresh [.finalize] with
  | error _ => rw [e] at key; simp [Except.bind, Except.toOption] at key
  | ok o =>
    cases e' : (SHA3.SHAKE_128 2).run (SHA3.SHAKE_128 2).fresh [.finalize] with
    | error _ => rw [e, e'] at key; simp [Except.bind, Except.toOption] at key
    | ok o' =>
      rw [e, e'] at key
      simp only [Except.bind, Except.toOption, Option.some.injEq, Bool.and_eq_true, beq_iff_eq] at key
      have g {v : BitVec 64} {x : Except Fault (BitVec 64)} (h : x.toOption = some v) : x = .ok v := by
        cases x with
        | error _ => cases h
        | ok w => exact congrArg _ (Option.some.inj h)
      exact ⟨o, o', 0x7f#64, 0x7f9c#64, rfl, rfl, key.1.1, g key.1.2, g key.2, by decide⟩

/-! Objects that compare equal without being the same object: different buffered bytes. -/
example : ((SHA1.SHA1.run SHA1.SHA1.fresh [.add [1]]).bind fun o => (SHA1.SHA1.run SHA1.SHA1.fresh [.add [2]]).bind fun o' =>
    .ok (SHA1.eq o o')).toOption = some true := by decide +kernel

end Verif.Props
