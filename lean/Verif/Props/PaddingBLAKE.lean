import Verif.Proof.Padding
import Verif.Proof.BLAKE
import Verif.Proof.BLAKE2
import Verif.Proof.MD2
import Verif.Proof.Tiger
import Verif.Props.Equality

/-!
# C27 and C28 for BLAKE, BLAKE2, MD2 and the short Tiger classes

In BLAKE and BLAKE2 a block is compressed together with a counter (and, in BLAKE2, a final flag); these are part of
the inputs among which the collision is found. The counters of the BLAKE classes are the ones the code uses
(C18_*_actual), not the specified ones.
-/

namespace Verif.Props
open Model Proof.Padding

/-! ### BLAKE -/

private theorem compress_mod {w : Nat} (p : Spec.BLAKE.Params w) (h : Vector (BitVec w) 8) (b : List Byte) (t : Nat) :
    Spec.BLAKE.compress p h b (t % 2 ^ (2 * w)) = Spec.BLAKE.compress p h b t := by
  have e0 : BitVec.ofNat w (t % 2 ^ (2 * w)) = BitVec.ofNat w t := by
    apply BitVec.eq_of_toNat_eq
    rw [BitVec.toNat_ofNat, BitVec.toNat_ofNat, Nat.two_mul, Nat.pow_add]
    exact Nat.mod_mul_right_mod _ _ _
  have e1 : BitVec.ofNat w (t % 2 ^ (2 * w) / 2 ^ w) = BitVec.ofNat w (t / 2 ^ w) := by
    apply BitVec.eq_of_toNat_eq
    rw [BitVec.toNat_ofNat, BitVec.toNat_ofNat, Nat.two_mul, Nat.pow_add, Nat.mod_mul_right_div_self, Nat.mod_mod]
  unfold Spec.BLAKE.compress
  simp only [e0, e1]

/-- one block with its counter: `t` gives the counter for the length of the message and the index of the block -/
def blakeInputs (w : Nat) (t : Nat → Nat → Nat) (B L : Nat) (e : Byte) (m : List Byte) :
    List (List Byte × BitVec (2 * w)) :=
  (Spec.blocks B (Spec.BLAKE.pad B L e m)).zipIdx.map fun x => (x.1, BitVec.ofNat (2 * w) (t m.length x.2))

/-- the compression function of the specification, as a function of the chaining value and such an input -/
def blakeStep {w : Nat} (p : Spec.BLAKE.Params w) (h : Vector (BitVec w) 8) (x : List Byte × BitVec (2 * w)) :
    Vector (BitVec w) 8 := Spec.BLAKE.compress p h x.1 x.2.toNat

theorem inputs_fold {w : Nat} (p : Spec.BLAKE.Params w) (t : Nat → Nat → Nat) (B L : Nat) (e : Byte)
    (H0 : Vector (BitVec w) 8) (m : List Byte) :
    Spec.bytesBE ((blakeInputs w t B L e m).foldl (blakeStep p) H0).toList = Spec.BLAKE.hashWith t p B L e H0 m := by
  unfold blakeInputs Spec.BLAKE.hashWith blakeStep
  rw [List.foldl_map]
  simp only [BitVec.toNat_ofNat, compress_mod]

theorem blake_bytesBE_inj (k n : Nat) (hk : 0 < k) (h h' : Vector (BitVec (8 * k)) n)
    (e : Spec.bytesBE h.toList = Spec.bytesBE h'.toList) : h = h' := by
  rw [← flatMap_storeBE, ← flatMap_storeBE, Nat.mul_div_cancel_left _ (by decide)] at e
  exact Vector.toList_inj.1 (Proof.Equality.flatMap_inj _ k hk (fun x => by simp [storeBE])
    (Proof.Equality.storeBE_inj k) _ _ e)

theorem blakeShape (B L : Nat) (e : Byte) (hL : L + 1 ≤ B) :
    Shape B L (fun n => Proof.BLAKE.mid e (padZeros B L n)) (fun n => Spec.toBE L (8 * n)) (Spec.BLAKE.pad B L e) where
  pos := by omega
  fit := by omega
  eq m := by rw [Proof.BLAKE.pad_eq, Proof.BLAKE.padTail_mid B L e _ hL, List.append_assoc]
  flen n := toBE_length _ _
  lo n := by rw [Proof.BLAKE.mid_length]; omega
  hi n := by
    rw [Proof.BLAKE.mid_length, padZeros_eq B L n hL]
    exact (round_up B _ (by omega)).2
  whole n := by
    rw [Proof.BLAKE.mid_length, padZeros_eq B L n hL]
    have := (round_up B (n + 1 + L) (by omega)).1
    rw [← this]
    congr 1
    omega

theorem C27_Blake1_256 : GoodPadding 64 (1 + 8) (Spec.BLAKE.pad 64 8 1) :=
  (blakeShape 64 8 1 (by decide)).good fun n n' _ _ h => by have := toBE_inj_mod 8 _ _ h; omega
theorem C27_Blake1_224 : GoodPadding 64 (1 + 8) (Spec.BLAKE.pad 64 8 0) :=
  (blakeShape 64 8 0 (by decide)).good fun n n' _ _ h => by have := toBE_inj_mod 8 _ _ h; omega
theorem C27_Blake1_512 : GoodPadding 128 (1 + 16) (Spec.BLAKE.pad 128 16 1) :=
  (blakeShape 128 16 1 (by decide)).good fun n n' _ _ h => by have := toBE_inj_mod 16 _ _ h; omega
theorem C27_Blake1_384 : GoodPadding 128 (1 + 16) (Spec.BLAKE.pad 128 16 0) :=
  (blakeShape 128 16 0 (by decide)).good fun n n' _ _ h => by have := toBE_inj_mod 16 _ _ h; omega

private theorem blakeColl {w : Nat} (p : Spec.BLAKE.Params w) (t : Nat → Nat → Nat) (B L : Nat) (e : Byte)
    (H0 : Vector (BitVec w) 8) (hL : L + 1 ≤ B) (limit : Nat) (hl : 8 * limit ≤ 256 ^ L) (m m' : List Byte) (hne : m ≠ m')
    (hm : m.length < limit) (hm' : m'.length < limit)
    (h : (blakeInputs w t B L e m).foldl (blakeStep p) H0 = (blakeInputs w t B L e m').foldl (blakeStep p) H0) :
    CollisionIn (blakeStep p) H0 (blakeInputs w t B L e m) (blakeInputs w t B L e m') :=
  (blakeShape B L e hL).collision limit (fun n n' hn hn' h => by
      have := toBE_inj_mod L _ _ h
      rw [Nat.mod_eq_of_lt (by omega), Nat.mod_eq_of_lt (by omega)] at this
      omega)
    (fun n x => (x.1, BitVec.ofNat (2 * w) (t n x.2))) (fun _ _ _ _ h => (Prod.mk.inj h).1) (blakeStep p) H0 m m' hne
    hm hm' h

theorem C28_Blake1_224 : BLAKE.Blake1_224.CollisionReduces BLAKE.eq32 (2 ^ 61) (blakeStep Spec.BLAKE.p256)
    (Spec.BLAKE.iv Spec.SHA2.H224) (blakeInputs 32 Spec.BLAKE.wrapCounter 64 8 0) :=
  reduces Proof.BLAKE.refines224 (fun o o' m m' h h' _ _ e => by
    have e : o.chain.h = o'.chain.h := beq_iff_eq.1 e
    have key := fun (o : BLAKE.Obj32) m (h : Proof.BLAKE.refines224.F o m) =>
      (congrArg (fun s => Spec.bytesBE s.h.toList) h).trans
        (Proof.BLAKE.hash_of_tail (by decide) Proof.BLAKE.cfg224_ok (Proof.BLAKE.ebyte false) BLAKE.iv224 _ m
          Spec.BLAKE.wrapCounter (Proof.BLAKE.wrap_early m) (Proof.BLAKE.wrap_fold _ m))
    have k := key o m h
    have k' := key o' m' h'
    simp only [e] at k
    rw [k'] at k
    rw [Proof.BLAKE.iv224_eq]
    refine (blake_bytesBE_inj 4 8 (by decide) _ _ ?_).symm
    rw [inputs_fold, inputs_fold]
    exact k)
  (blakeColl _ _ 64 8 0 _ (by decide) _ (by decide))

theorem C28_Blake1_256 : BLAKE.Blake1_256.CollisionReduces BLAKE.eq32 (2 ^ 61) (blakeStep Spec.BLAKE.p256)
    (Spec.BLAKE.iv Spec.SHA2.H256) (blakeInputs 32 (Spec.BLAKE.skipCounter 64 8) 64 8 1) :=
  reduces Proof.BLAKE.refines256 (fun o o' m m' h h' _ _ e => by
    have e : o.chain.h = o'.chain.h := beq_iff_eq.1 e
    have key := fun (o : BLAKE.Obj32) m (h : Proof.BLAKE.refines256.F o m) =>
      (congrArg (fun s => Spec.bytesBE s.h.toList) h).trans
        (Proof.BLAKE.hash_of_tail (by decide) Proof.BLAKE.cfg256_ok (Proof.BLAKE.ebyte true) BLAKE.iv256 _ m
          (Spec.BLAKE.skipCounter 64 8) (Proof.BLAKE.skip_early m)
          (Proof.BLAKE.skip_fold (by decide) Proof.BLAKE.cfg256_ok (fun n hn => by
            show decide (n > 0) = false
            simpa using hn) _ m))
    have k := key o m h
    have k' := key o' m' h'
    simp only [e] at k
    rw [k'] at k
    rw [Proof.BLAKE.iv256_eq]
    refine (blake_bytesBE_inj 4 8 (by decide) _ _ ?_).symm
    rw [inputs_fold, inputs_fold]
    exact k)
  (blakeColl _ _ 64 8 1 _ (by decide) _ (by decide))

theorem C28_Blake1_384 : BLAKE.Blake1_384.CollisionReduces BLAKE.eq64 (2 ^ 125) (blakeStep Spec.BLAKE.p512)
    (Spec.BLAKE.iv Spec.SHA2.H384) (blakeInputs 64 (Spec.BLAKE.skipCounter 128 16) 128 16 0) :=
  reduces Proof.BLAKE.refines384 (fun o o' m m' h h' _ _ e => by
    have e : o.chain.h = o'.chain.h := beq_iff_eq.1 e
    have key := fun (o : BLAKE.Obj64) m (h : Proof.BLAKE.refines384.F o m) =>
      (congrArg (fun s => Spec.bytesBE s.h.toList) h).trans
        (Proof.BLAKE.hash_of_tail (by decide) Proof.BLAKE.cfg512_ok (Proof.BLAKE.ebyte false) BLAKE.iv384 _ m
          (Spec.BLAKE.skipCounter 128 16) (Proof.BLAKE.skip_early m)
          (Proof.BLAKE.skip_fold (by decide) Proof.BLAKE.cfg512_ok (fun n hn => by
            show decide (n > 0) = false
            simpa using hn) _ m))
    have k := key o m h
    have k' := key o' m' h'
    simp only [e] at k
    rw [k'] at k
    rw [Proof.BLAKE.iv384_eq]
    refine (blake_bytesBE_inj 8 8 (by decide) _ _ ?_).symm
    rw [inputs_fold, inputs_fold]
    exact k)
  (blakeColl _ _ 128 16 0 _ (by decide) _ (by decide))

theorem C28_Blake1_512 : BLAKE.Blake1_512.CollisionReduces BLAKE.eq64 (2 ^ 125) (blakeStep Spec.BLAKE.p512)
    (Spec.BLAKE.iv Spec.SHA2.H512) (blakeInputs 64 (Spec.BLAKE.skipCounter 128 16) 128 16 1) :=
  reduces Proof.BLAKE.refines512 (fun o o' m m' h h' _ _ e => by
    have e : o.chain.h = o'.chain.h := beq_iff_eq.1 e
    have key := fun (o : BLAKE.Obj64) m (h : Proof.BLAKE.refines512.F o m) =>
      (congrArg (fun s => Spec.bytesBE s.h.toList) h).trans
        (Proof.BLAKE.hash_of_tail (by decide) Proof.BLAKE.cfg512_ok (Proof.BLAKE.ebyte true) BLAKE.iv512 _ m
          (Spec.BLAKE.skipCounter 128 16) (Proof.BLAKE.skip_early m)
          (Proof.BLAKE.skip_fold (by decide) Proof.BLAKE.cfg512_ok (fun n hn => by
            show decide (n > 0) = false
            simpa using hn) _ m))
    have k := key o m h
    have k' := key o' m' h'
    simp only [e] at k
    rw [k'] at k
    rw [Proof.BLAKE.iv512_eq]
    refine (blake_bytesBE_inj 8 8 (by decide) _ _ ?_).symm
    rw [inputs_fold, inputs_fold]
    exact k)
  (blakeColl _ _ 128 16 1 _ (by decide) _ (by decide))

/-! ### BLAKE2 -/

/-- one block of BLAKE2 with its byte counter and final flag -/
def blake2Inputs (w B : Nat) (m : List Byte) : List (List Byte × BitVec (2 * w) × Bool) :=
  let d := Spec.blocks B (Spec.BLAKE2.pad B m)
  d.dropLast.zipIdx.map (fun x => (x.1, BitVec.ofNat (2 * w) (B * (x.2 + 1)), false)) ++
    [(d.getLastD [], BitVec.ofNat (2 * w) m.length, true)]

def blake2Step {w : Nat} (p : Spec.BLAKE2.Params w) (h : Vector (BitVec w) 8)
    (x : List Byte × BitVec (2 * w) × Bool) : Vector (BitVec w) 8 := Spec.BLAKE2.F p h x.1 x.2.1.toNat x.2.2

private theorem F_mod {w : Nat} (p : Spec.BLAKE2.Params w) (h : Vector (BitVec w) 8) (b : List Byte) (t : Nat) (f : Bool) :
    Spec.BLAKE2.F p h b (t % 2 ^ (2 * w)) f = Spec.BLAKE2.F p h b t f := by
  have e0 : BitVec.ofNat w (t % 2 ^ (2 * w)) = BitVec.ofNat w t := by
    apply BitVec.eq_of_toNat_eq
    rw [BitVec.toNat_ofNat, BitVec.toNat_ofNat, Nat.two_mul, Nat.pow_add]
    exact Nat.mod_mul_right_mod _ _ _
  have e1 : BitVec.ofNat w (t % 2 ^ (2 * w) / 2 ^ w) = BitVec.ofNat w (t / 2 ^ w) := by
    apply BitVec.eq_of_toNat_eq
    rw [BitVec.toNat_ofNat, BitVec.toNat_ofNat, Nat.two_mul, Nat.pow_add, Nat.mod_mul_right_div_self, Nat.mod_mod]
  unfold Spec.BLAKE2.F
  simp only [e0, e1]

theorem inputs2_fold {w : Nat} (p : Spec.BLAKE2.Params w) (B : Nat) (m : List Byte) :
    (blake2Inputs w B m).foldl (blake2Step p) (Spec.BLAKE2.h0 p w) = Proof.BLAKE2.finH p B m := by
  unfold blake2Inputs Proof.BLAKE2.finH blake2Step
  simp only []
  rw [List.foldl_append, List.foldl_map]
  simp only [List.foldl_cons, List.foldl_nil, BitVec.toNat_ofNat, F_mod]

private theorem pad2_mod (B : Nat) (hB : 0 < B) (m : List Byte) : (Spec.BLAKE2.pad B m).length % B = 0 := by
  unfold Spec.BLAKE2.pad
  split
  · simp
  · rw [List.length_append, List.length_replicate]
    exact (round_up B m.length hB).1

private theorem pad2_ge (B : Nat) (hB : 0 < B) (m : List Byte) : B ≤ (Spec.BLAKE2.pad B m).length := by
  refine Nat.le_of_dvd ?_ (Nat.dvd_of_mod_eq_zero (pad2_mod B hB m))
  unfold Spec.BLAKE2.pad
  split
  · simpa using hB
  · rename_i h
    have := List.length_pos_iff.2 h
    rw [List.length_append]; omega

private theorem pad2_take (B : Nat) (m : List Byte) : (Spec.BLAKE2.pad B m).take m.length = m := by
  unfold Spec.BLAKE2.pad
  split
  · rename_i h; rw [h]; rfl
  · rw [List.take_left]

private theorem pad2_lt (B : Nat) (hB : 0 < B) (m : List Byte) : m.length ≤ (Spec.BLAKE2.pad B m).length ∧
    (Spec.BLAKE2.pad B m).length ≤ m.length + B ∧ (m ≠ [] → (Spec.BLAKE2.pad B m).length < m.length + B) := by
  unfold Spec.BLAKE2.pad
  split
  · rename_i h; rw [h]; simp
  · have := (round_up B m.length hB).2
    rw [List.length_append, List.length_replicate]; omega

theorem inputs2_blocks (w B : Nat) (hB : 0 < B) (m : List Byte) :
    (blake2Inputs w B m).map (fun x => x.1) = Spec.blocks B (Spec.BLAKE2.pad B m) := by
  have hne : Spec.blocks B (Spec.BLAKE2.pad B m) ≠ [] := fun h => by
    have h1 := congrArg List.length h
    rw [blocks_length B _ hB, List.length_nil] at h1
    have := Nat.div_pos (pad2_ge B hB m) hB
    omega
  unfold blake2Inputs
  simp only [List.map_append, List.map_map, List.map_cons, List.map_nil]
  rw [show ((fun x : List Byte × BitVec (2 * w) × Bool => x.1) ∘
    fun x : List Byte × Nat => (x.1, BitVec.ofNat (2 * w) (B * (x.2 + 1)), false)) = fun x => x.1 from rfl, zipIdx_fst]
  rw [List.getLastD_eq_getLast?, List.getLast?_eq_some_getLast hne, Option.getD_some, List.dropLast_concat_getLast]

/-- C27 for BLAKE2, for all messages of all lengths: zero padding alone merges messages, but blocks, counters and
flags together determine the message; there are as many blocks as the message needs, at least one. -/
theorem inputs2_inj (w B : Nat) (hB : 0 < B) (hw : B < 2 ^ (2 * w)) (m m' : List Byte)
    (h : blake2Inputs w B m = blake2Inputs w B m') : m = m' := by
  have hb := congrArg (List.map fun x => x.1) h
  rw [inputs2_blocks w B hB, inputs2_blocks w B hB] at hb
  have hb := blocks_inj B hB _ _ (pad2_mod B hB m) (pad2_mod B hB m') hb
  have hl := congrArg List.getLast? h
  unfold blake2Inputs at hl
  simp only [List.getLast?_append, List.getLast?_singleton, Option.some_or, Option.some.injEq, Prod.mk.injEq] at hl
  have hn := congrArg BitVec.toNat hl.2.1
  rw [BitVec.toNat_ofNat, BitVec.toNat_ofNat] at hn
  have a := pad2_lt B hB m
  have a' := pad2_lt B hB m'
  rw [hb] at a
  have hlen : m.length = m'.length := by
    generalize 2 ^ (2 * w) = T at hn hw
    have h1 := Nat.div_add_mod m.length T
    have h2 := Nat.div_add_mod m'.length T
    rw [hn] at h1
    have : m.length / T = m'.length / T := by
      rcases Nat.lt_trichotomy (m.length / T) (m'.length / T) with g | g | g
      · have := Nat.mul_le_mul_left T (show m.length / T + 1 ≤ m'.length / T from g)
        rw [Nat.mul_add] at this
        omega
      · exact g
      · have := Nat.mul_le_mul_left T (show m'.length / T + 1 ≤ m.length / T from g)
        rw [Nat.mul_add] at this
        omega
    rw [this] at h1
    omega
  rw [← pad2_take B m, ← pad2_take B m', hb, hlen]

theorem C27_Blake2 (m m' : List Byte) (h : blake2Inputs 64 128 m = blake2Inputs 64 128 m') : m = m' :=
  inputs2_inj 64 128 (by decide) (by decide) m m' h
theorem C27_Blake2s (m m' : List Byte) (h : blake2Inputs 32 64 m = blake2Inputs 32 64 m') : m = m' :=
  inputs2_inj 32 64 (by decide) (by decide) m m' h

theorem C27_Blake2_blocks (m : List Byte) : (blake2Inputs 64 128 m).length = max 1 ((m.length + 127) / 128) := by
  have h := congrArg List.length (inputs2_blocks 64 128 (by decide) m)
  rw [List.length_map, blocks_length _ _ (by decide)] at h
  rw [h]
  have := pad2_mod 128 (by decide) m
  have hlt := pad2_lt 128 (by decide) m
  have := pad2_ge 128 (by decide) m
  by_cases hm : m = []
  · subst hm; decide +kernel
  · have := List.length_pos_iff.2 hm
    have := hlt.2.2 hm
    omega
theorem C27_Blake2s_blocks (m : List Byte) : (blake2Inputs 32 64 m).length = max 1 ((m.length + 63) / 64) := by
  have h := congrArg List.length (inputs2_blocks 32 64 (by decide) m)
  rw [List.length_map, blocks_length _ _ (by decide)] at h
  rw [h]
  have := pad2_mod 64 (by decide) m
  have hlt := pad2_lt 64 (by decide) m
  have := pad2_ge 64 (by decide) m
  by_cases hm : m = []
  · subst hm; decide +kernel
  · have := List.length_pos_iff.2 hm
    have := hlt.2.2 hm
    omega

/-- zero padding alone is not injective -/
example : Spec.BLAKE2.pad 64 [1] = Spec.BLAKE2.pad 64 [1, 0] ∧ blake2Inputs 32 64 [1] ≠ blake2Inputs 32 64 [1, 0] := by
  refine ⟨by decide +kernel, fun h => ?_⟩
  exact absurd (C27_Blake2s _ _ h) (by decide)

private theorem blake2Coll {w : Nat} (p : Spec.BLAKE2.Params w) (B : Nat) (hB : 0 < B) (hw : B < 2 ^ (2 * w))
    (H0 : Vector (BitVec w) 8) (m m' : List Byte) (hne : m ≠ m')
    (hm : m.length < 2 ^ (2 * w)) (hm' : m'.length < 2 ^ (2 * w))
    (h : (blake2Inputs w B m).foldl (blake2Step p) H0 = (blake2Inputs w B m').foldl (blake2Step p) H0) :
    CollisionIn (blake2Step p) H0 (blake2Inputs w B m) (blake2Inputs w B m') := by
  refine fold_collision' _ _ _ _ (fun h => hne (inputs2_inj w B hB hw m m' h)) h ?_
  by_cases hlen : m.length = m'.length
  · left
    have key : ∀ m, (blake2Inputs w B m).length = (Spec.BLAKE2.pad B m).length / B := fun m => by
      have h := congrArg List.length (inputs2_blocks w B hB m)
      rwa [List.length_map, blocks_length _ _ hB] at h
    rw [key, key]
    unfold Spec.BLAKE2.pad
    have : m = [] ↔ m' = [] := by
      rw [← List.length_eq_zero_iff, ← List.length_eq_zero_iff, hlen]
    by_cases h0 : m = []
    · rw [if_pos h0, if_pos (this.1 h0)]
    · rw [if_neg h0, if_neg (fun g => h0 (this.2 g))]
      simp only [List.length_append, List.length_replicate, hlen]
  · right
    refine ⟨fun g => hlen ?_, by unfold blake2Inputs; simp, by unfold blake2Inputs; simp⟩
    unfold blake2Inputs at g
    simp only [List.getLast?_append, List.getLast?_singleton, Option.some_or, Option.some.injEq, Prod.mk.injEq] at g
    have hn := congrArg BitVec.toNat g.2.1
    rwa [BitVec.toNat_ofNat, BitVec.toNat_ofNat, Nat.mod_eq_of_lt hm, Nat.mod_eq_of_lt hm'] at hn

theorem C28_Blake2 : BLAKE2.Blake2.CollisionReduces BLAKE2.eq2 (2 ^ 128) (blake2Step Spec.BLAKE2.p2b)
    (Spec.BLAKE2.h0 Spec.BLAKE2.p2b 64) (blake2Inputs 64 128) :=
  reduces Proof.BLAKE2.refines2 (fun o o' m m' h h' _ _ e => by
    have e : o.chain.h = o'.chain.h := beq_iff_eq.1 e
    have h : o.chain.h = _ := h
    have h' : o'.chain.h = _ := h'
    rw [inputs2_fold, inputs2_fold]
    exact h.symm.trans (e.trans h'))
  (blake2Coll (w := 64) _ 128 (by decide) (by decide) _)
theorem C28_Blake2s : BLAKE2.Blake2s.CollisionReduces BLAKE2.eq2s (2 ^ 64) (blake2Step Spec.BLAKE2.p2s)
    (Spec.BLAKE2.h0 Spec.BLAKE2.p2s 32) (blake2Inputs 32 64) :=
  reduces Proof.BLAKE2.refines2s (fun o o' m m' h h' _ _ e => by
    have e : o.chain.h = o'.chain.h := beq_iff_eq.1 e
    have h : o.chain.h = _ := h
    have h' : o'.chain.h = _ := h'
    rw [inputs2_fold, inputs2_fold]
    exact h.symm.trans (e.trans h'))
  (blake2Coll (w := 32) _ 64 (by decide) (by decide) _)

/-! ### MD2 -/

/-- C27 for MD2: the padding value gives the number of bytes added, for messages of any length. -/
theorem C27_MD2 : GoodPadding 16 1 Spec.MD2.pad where
  whole m := by unfold Spec.MD2.pad; simp only [List.length_append, List.length_replicate]; omega
  keeps m := List.prefix_append _ _
  room m := by unfold Spec.MD2.pad; simp only [List.length_append, List.length_replicate]; omega
  least m := by unfold Spec.MD2.pad; simp only [List.length_append, List.length_replicate]; omega
  injective m m' h := by
    have hw : ∀ m, (Spec.MD2.pad m).length % 16 = 0 := fun m => by
      unfold Spec.MD2.pad; simp only [List.length_append, List.length_replicate]; omega
    have h := blocks_inj 16 (by decide) _ _ (hw m) (hw m') h
    have key : ∀ m, (Spec.MD2.pad m).getLast? = some (BitVec.ofNat 8 (16 - m.length % 16)) := fun m => by
      unfold Spec.MD2.pad
      simp only [List.getLast?_append, List.getLast?_replicate]
      rw [if_neg (by omega)]; rfl
    have h1 := key m
    rw [h, key m'] at h1
    have h2 := congrArg BitVec.toNat (Option.some.inj h1)
    rw [BitVec.toNat_ofNat, BitVec.toNat_ofNat] at h2
    have h3 : m.length % 16 = m'.length % 16 := by omega
    unfold Spec.MD2.pad at h
    exact (List.append_inj' h (by simp only [List.length_replicate]; omega)).1

/-- MD2 has no length field, so there is one more way for two messages to end in the same state: the blocks of one
(padding and checksum included) are the last blocks of the other, and the blocks before them lead from the initial
zero value back to it. -/
theorem C28_MD2 (ops ops' : List Op) (hl : Legal (ops ++ [.finalize])) (hl' : Legal (ops' ++ [.finalize]))
    (hne : message ops ≠ message ops') (o o')
    (e : MD2.MD2.run MD2.MD2.fresh (ops ++ [.finalize]) = .ok o)
    (e' : MD2.MD2.run MD2.MD2.fresh (ops' ++ [.finalize]) = .ok o')
    (hd : MD2.MD2.toArray o = MD2.MD2.toArray o') :
    let inputs := fun m => Spec.blocks 16 (Spec.MD2.pad m ++ Spec.MD2.checksum (Spec.MD2.pad m))
    CollisionIn Spec.MD2.step (List.replicate 16 0) (inputs (message ops)) (inputs (message ops')) ∨
      ∃ p, p ≠ [] ∧ p.foldl Spec.MD2.step (List.replicate 16 0) = List.replicate 16 0 ∧
        (inputs (message ops) = p ++ inputs (message ops') ∨ inputs (message ops') = p ++ inputs (message ops)) := by
  intro inputs
  obtain ⟨x, ex, f⟩ := Proof.MD2.refines.run_finalize ops hl
  obtain ⟨x', ex', f'⟩ := Proof.MD2.refines.run_finalize ops' hl'
  rw [e] at ex; rw [e'] at ex'
  injection ex with ex; injection ex' with ex'
  subst ex ex'
  rw [Proof.MD2.refines.out _ _ f, Proof.MD2.refines.out _ _ f'] at hd
  injection hd with hd
  have hin : inputs (message ops) ≠ inputs (message ops') := fun h => by
    have pm : ∀ m, (Spec.MD2.pad m).length % 16 = 0 := C27_MD2.whole
    have cl : ∀ m, (Spec.MD2.checksum (Spec.MD2.pad m)).length = 16 := fun m => by
      rw [← Proof.MD2.den_checksum]; simp
    have h := blocks_inj 16 (by decide) _ _ (by rw [List.length_append, cl]; have := pm (message ops); omega)
      (by rw [List.length_append, cl]; have := pm (message ops'); omega) h
    exact hne (C27_MD2.injective _ _ (congrArg _ (List.append_inj' h (by rw [cl, cl])).1))
  rcases fold_collision Spec.MD2.step (List.replicate 16 0) _ _ hin hd with h | ⟨p, h1, h2, h3⟩ | ⟨p, h1, h2, h3⟩
  · exact .inl h
  · exact .inr ⟨p, h1, h3, .inl h2⟩
  · exact .inr ⟨p, h1, h3, .inr h2⟩

/-! ### The short Tiger classes: `toArray` is out (C16), `==` is not -/

theorem C28_Tiger_any (V D : Nat) : (Tiger.Tiger V D).CollisionReduces Tiger.eq (2 ^ 61)
    (Spec.Tiger.compress Proof.Tiger.codeS) Spec.Tiger.init
    (fun m => Spec.blocks 64 (Spec.Tiger.pad (if V = 1 then 1 else 0x80) m)) :=
  reduces (Proof.Tiger.refinesD V D) (fun o o' m m' h h' _ _ e => by
    have h : o.chain.h = _ := h
    have h' : o'.chain.h = _ := h'
    have e : o.chain.h = o'.chain.h := beq_iff_eq.1 e
    rw [h, h'] at e
    have e := congrArg Proof.Tiger.tup3 e
    rw [mdFold_map (f := Proof.Tiger.tup3) Proof.Tiger.compress_eq,
      mdFold_map (f := Proof.Tiger.tup3) Proof.Tiger.compress_eq] at e
    exact e)
  fun m m' => padded_collision (pb := if V = 1 then 1 else 0x80) (field := fun n => Spec.toLE 8 (8 * n)) _ _
    (by decide) (by decide) (fun _ => toLE_length _ _) _
    (fun n n' hn hn' h => by have := toLE_inj_mod 8 _ _ h; omega) m m'

example : Legal ([.add [1, 2], .add [3]] ++ [.finalize]) ∧ Legal ([.add [9], .reset, .add [1, 2]] ++ [.finalize]) ∧
    message [.add [1, 2], .add [3]] ≠ message [.add [9], .reset, .add [1, 2]] := by decide

end Verif.Props
