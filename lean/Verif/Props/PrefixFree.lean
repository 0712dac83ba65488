import Verif.Core.PrefixFree
import Verif.Props.PaddingBLAKE
import Verif.Props.BLAKE

/-!
# C62: no length extension for BLAKE and BLAKE2

BLAKE and BLAKE2 compress every block together with a counter (BLAKE2: and a final flag), so that the inputs for one
message are never the first inputs for another, and no digest is the state from which another message goes on. True of
`Blake2`, `Blake2s`, `Blake1_224`. Not true of `Blake1_256`, `Blake1_384`, `Blake1_512`, because of the counter that
is zero in the last but one block (C18): `_exact` says which messages are concerned, `_fails` that there are such, and
`C62_Blake1_256_extension` that the digest of the longer message is a function of the digest and the length of the
shorter one.
-/

namespace Verif.Props
open Model Proof.Padding

/-! ### The inputs are those of the classes -/

theorem C62_Blake2_inputs : BLAKE2.Blake2.Iterates (fun o => o.chain.h) (blake2Step Spec.BLAKE2.p2b)
    (Spec.BLAKE2.h0 Spec.BLAKE2.p2b 64) (blake2Inputs 64 128) := fun ops hl => by
  obtain ⟨o, e, f⟩ := Proof.BLAKE2.refines2.run_finalize ops hl
  have f : o.chain.h = _ := f
  exact ⟨o, e, by rw [inputs2_fold]; exact f⟩
theorem C62_Blake2s_inputs : BLAKE2.Blake2s.Iterates (fun o => o.chain.h) (blake2Step Spec.BLAKE2.p2s)
    (Spec.BLAKE2.h0 Spec.BLAKE2.p2s 32) (blake2Inputs 32 64) := fun ops hl => by
  obtain ⟨o, e, f⟩ := Proof.BLAKE2.refines2s.run_finalize ops hl
  have f : o.chain.h = _ := f
  exact ⟨o, e, by rw [inputs2_fold]; exact f⟩

theorem C62_Blake1_224_inputs : BLAKE.Blake1_224.Iterates (fun o => o.chain.h) (blakeStep Spec.BLAKE.p256)
    (Spec.BLAKE.iv Spec.SHA2.H224) (blakeInputs 32 Spec.BLAKE.wrapCounter 64 8 0) := fun ops hl => by
  obtain ⟨o, e, f⟩ := Proof.BLAKE.refines224.run_finalize ops hl
  refine ⟨o, e, blake_bytesBE_inj 4 8 (by decide) _ _ ?_⟩
  rw [inputs_fold, Proof.BLAKE.iv224_eq]
  exact (congrArg (fun s => Spec.bytesBE s.h.toList) f).trans
    (Proof.BLAKE.hash_of_tail (by decide) Proof.BLAKE.cfg224_ok (Proof.BLAKE.ebyte false) BLAKE.iv224 _ (message ops)
      Spec.BLAKE.wrapCounter (Proof.BLAKE.wrap_early _) (Proof.BLAKE.wrap_fold _ _))
theorem C62_Blake1_256_inputs : BLAKE.Blake1_256.Iterates (fun o => o.chain.h) (blakeStep Spec.BLAKE.p256)
    (Spec.BLAKE.iv Spec.SHA2.H256) (blakeInputs 32 (Spec.BLAKE.skipCounter 64 8) 64 8 1) := fun ops hl => by
  obtain ⟨o, e, f⟩ := Proof.BLAKE.refines256.run_finalize ops hl
  refine ⟨o, e, blake_bytesBE_inj 4 8 (by decide) _ _ ?_⟩
  rw [inputs_fold, Proof.BLAKE.iv256_eq]
  exact (congrArg (fun s => Spec.bytesBE s.h.toList) f).trans
    (Proof.BLAKE.hash_of_tail (by decide) Proof.BLAKE.cfg256_ok (Proof.BLAKE.ebyte true) BLAKE.iv256 _ (message ops)
      (Spec.BLAKE.skipCounter 64 8) (Proof.BLAKE.skip_early _)
      (Proof.BLAKE.skip_fold (by decide) Proof.BLAKE.cfg256_ok (fun n hn => by
            show decide (n > 0) = false
            simpa using hn) _ _))
theorem C62_Blake1_384_inputs : BLAKE.Blake1_384.Iterates (fun o => o.chain.h) (blakeStep Spec.BLAKE.p512)
    (Spec.BLAKE.iv Spec.SHA2.H384) (blakeInputs 64 (Spec.BLAKE.skipCounter 128 16) 128 16 0) := fun ops hl => by
  obtain ⟨o, e, f⟩ := Proof.BLAKE.refines384.run_finalize ops hl
  refine ⟨o, e, blake_bytesBE_inj 8 8 (by decide) _ _ ?_⟩
  rw [inputs_fold, Proof.BLAKE.iv384_eq]
  exact (congrArg (fun s => Spec.bytesBE s.h.toList) f).trans
    (Proof.BLAKE.hash_of_tail (by decide) Proof.BLAKE.cfg512_ok (Proof.BLAKE.ebyte false) BLAKE.iv384 _ (message ops)
      (Spec.BLAKE.skipCounter 128 16) (Proof.BLAKE.skip_early _)
      (Proof.BLAKE.skip_fold (by decide) Proof.BLAKE.cfg512_ok (fun n hn => by
            show decide (n > 0) = false
            simpa using hn) _ _))
theorem C62_Blake1_512_inputs : BLAKE.Blake1_512.Iterates (fun o => o.chain.h) (blakeStep Spec.BLAKE.p512)
    (Spec.BLAKE.iv Spec.SHA2.H512) (blakeInputs 64 (Spec.BLAKE.skipCounter 128 16) 128 16 1) := fun ops hl => by
  obtain ⟨o, e, f⟩ := Proof.BLAKE.refines512.run_finalize ops hl
  refine ⟨o, e, blake_bytesBE_inj 8 8 (by decide) _ _ ?_⟩
  rw [inputs_fold, Proof.BLAKE.iv512_eq]
  exact (congrArg (fun s => Spec.bytesBE s.h.toList) f).trans
    (Proof.BLAKE.hash_of_tail (by decide) Proof.BLAKE.cfg512_ok (Proof.BLAKE.ebyte true) BLAKE.iv512 _ (message ops)
      (Spec.BLAKE.skipCounter 128 16) (Proof.BLAKE.skip_early _)
      (Proof.BLAKE.skip_fold (by decide) Proof.BLAKE.cfg512_ok (fun n hn => by
            show decide (n > 0) = false
            simpa using hn) _ _))

/-! ### BLAKE2 -/

private theorem blake2_prefix (w B : Nat) (hB : 0 < B) (hw : B < 2 ^ (2 * w)) (m m' : List Byte)
    (h : blake2Inputs w B m <+: blake2Inputs w B m') : m = m' := by
  obtain ⟨s, h⟩ := h
  refine inputs2_inj w B hB hw m m' ?_
  rcases List.eq_nil_or_concat s with rfl | ⟨s, x, rfl⟩
  · simpa using h
  · exfalso
    unfold blake2Inputs at h
    simp only [] at h
    rw [List.concat_eq_append, ← List.append_assoc] at h
    have h := (List.append_inj' h rfl).1
    have hm := congrArg (List.map fun x => x.2.2) h
    simp only [List.map_append, List.map_map, List.map_cons, List.map_nil] at hm
    have : true ∈ (List.map ((fun x : List Byte × BitVec (2 * w) × Bool => x.2.2) ∘
        fun x : List Byte × Nat => (x.1, BitVec.ofNat (2 * w) (B * (x.2 + 1)), false))
        (Spec.blocks B (Spec.BLAKE2.pad B m')).dropLast.zipIdx) := by
      rw [← hm]; simp
    simp at this

/-- C62 for BLAKE2, for messages of all lengths. -/
theorem C62_Blake2 (limit : Nat) : PrefixFree limit (blake2Inputs 64 128) := fun m m' _ _ h =>
  blake2_prefix 64 128 (by decide) (by decide) m m' h
theorem C62_Blake2s (limit : Nat) : PrefixFree limit (blake2Inputs 32 64) := fun m m' _ _ h =>
  blake2_prefix 32 64 (by decide) (by decide) m m' h

/-! ### BLAKE -/

private theorem blake_blocks (w : Nat) (t : Nat → Nat → Nat) (B L : Nat) (e : Byte) (m : List Byte) :
    (blakeInputs w t B L e m).map (fun x => x.1) = Spec.blocks B (Spec.BLAKE.pad B L e m) := by
  unfold blakeInputs
  rw [List.map_map]
  exact zipIdx_fst _ _

private theorem blake_get (w : Nat) (t : Nat → Nat → Nat) (B L : Nat) (e : Byte) (m : List Byte) (i : Nat) :
    (blakeInputs w t B L e m)[i]? = (Spec.blocks B (Spec.BLAKE.pad B L e m))[i]?.map
      fun b => (b, BitVec.ofNat (2 * w) (t m.length i)) := by
  unfold blakeInputs
  rw [List.getElem?_map, List.getElem?_zipIdx, Option.map_map]
  simp only [Nat.zero_add]
  rfl

/-- the two families -/
private def Family (w B L : Nat) : Prop := (w = 32 ∧ B = 64 ∧ L = 8) ∨ (w = 64 ∧ B = 128 ∧ L = 16)

private theorem blake_len {w B L : Nat} (hf : Family w B L) (e : Byte) (m : List Byte) :
    (Spec.BLAKE.pad B L e m).length = B * ((m.length + L) / B + 1) := by
  rcases hf with ⟨_, rfl, rfl⟩ | ⟨_, rfl, rfl⟩
  · have s := blakeShape 64 8 e (by decide)
    have := s.len m; have := s.lo m.length; have := s.hi m.length; have := s.whole m.length
    omega
  · have s := blakeShape 128 16 e (by decide)
    have := s.len m; have := s.lo m.length; have := s.hi m.length; have := s.whole m.length
    omega

private theorem blake_count {w B L : Nat} (hf : Family w B L) (e : Byte) (m : List Byte) :
    (Spec.blocks B (Spec.BLAKE.pad B L e m)).length = (m.length + L) / B + 1 := by
  have hB : 0 < B := by rcases hf with ⟨_, rfl, rfl⟩ | ⟨_, rfl, rfl⟩ <;> decide
  rw [blocks_length B _ hB, blake_len hf, Nat.mul_div_cancel_left _ hB]

/-- What it means for one sequence of inputs to begin with another. -/
private theorem blake_prefix {w B L : Nat} (hf : Family w B L) (t : Nat → Nat → Nat) (e : Byte) (m m' : List Byte)
    (h : blakeInputs w t B L e m <+: blakeInputs w t B L e m') :
    m = m' ∨ ((m.length + L) / B < (m'.length + L) / B ∧ Spec.BLAKE.pad B L e m <+: Spec.BLAKE.pad B L e m' ∧
      ∀ i, i ≤ (m.length + L) / B → t m.length i % 2 ^ (2 * w) = t m'.length i % 2 ^ (2 * w)) := by
  have hB : 0 < B := by rcases hf with ⟨_, rfl, rfl⟩ | ⟨_, rfl, rfl⟩ <;> decide
  have hlen : ∀ m, (blakeInputs w t B L e m).length = (m.length + L) / B + 1 := fun m => by
    rw [← blake_count hf e m, ← blake_blocks w t, List.length_map]
  have hmod : ∀ m, (Spec.BLAKE.pad B L e m).length % B = 0 := fun m => by
    rw [blake_len hf, Nat.mul_mod_right]
  obtain ⟨s, h⟩ := h
  have hl := congrArg List.length h
  rw [List.length_append, hlen, hlen] at hl
  have hb := congrArg (List.map fun x => x.1) h
  rw [List.map_append, blake_blocks, blake_blocks] at hb
  have hp : Spec.BLAKE.pad B L e m ++ (s.map fun x => x.1).flatten = Spec.BLAKE.pad B L e m' := by
    rw [← blocks_flatten B hB _ (hmod m), ← blocks_flatten B hB _ (hmod m'), ← hb, List.flatten_append]
  rcases s with _ | ⟨x, s⟩
  · left
    rw [List.map_nil, List.append_nil] at hb
    rcases hf with ⟨_, rfl, rfl⟩ | ⟨_, rfl, rfl⟩
    · exact ((blakeShape 64 8 e (by decide)).good fun n n' _ _ h => by
        have := toBE_inj_mod 8 _ _ h; omega).injective m m' hb
    · exact ((blakeShape 128 16 e (by decide)).good fun n n' _ _ h => by
        have := toBE_inj_mod 16 _ _ h; omega).injective m m' hb
  · right
    rw [List.length_cons] at hl
    refine ⟨by omega, ⟨_, hp⟩, fun i hi => ?_⟩
    have g : (blakeInputs w t B L e m ++ x :: s)[i]? = (blakeInputs w t B L e m')[i]? := by rw [h]
    rw [List.getElem?_append_left (by rw [hlen]; omega), blake_get, blake_get,
      List.getElem?_eq_getElem (by rw [blake_count hf]; omega),
      List.getElem?_eq_getElem (by rw [blake_count hf]; omega)] at g
    simp only [Option.map_some, Option.some.injEq, Prod.mk.injEq] at g
    have := congrArg BitVec.toNat g.2
    rwa [BitVec.toNat_ofNat, BitVec.toNat_ofNat] at this

/-- C62 for BLAKE as specified, all four functions. -/
theorem C62_BLAKE_spec (e : Byte) : PrefixFree (2 ^ 61) (blakeInputs 32 (Spec.BLAKE.counter 64) 64 8 e) ∧
    PrefixFree (2 ^ 125) (blakeInputs 64 (Spec.BLAKE.counter 128) 128 16 e) := by
  constructor
  · intro m m' hm hm' h
    rcases blake_prefix (.inl ⟨rfl, rfl, rfl⟩) _ e m m' h with h | ⟨h1, _, h2⟩
    · exact h
    · exfalso
      have h2 := h2 _ (Nat.le_refl _)
      unfold Spec.BLAKE.counter at h2
      split at h2 <;> split at h2 <;> omega
  · intro m m' hm hm' h
    rcases blake_prefix (.inr ⟨rfl, rfl, rfl⟩) _ e m m' h with h | ⟨h1, _, h2⟩
    · exact h
    · exfalso
      have h2 := h2 _ (Nat.le_refl _)
      unfold Spec.BLAKE.counter at h2
      split at h2 <;> split at h2 <;> omega

/-- C62 for `Blake1_224`: the counter that wraps around is wrong, but not the counter of any other block. -/
theorem C62_Blake1_224 : PrefixFree (2 ^ 61) (blakeInputs 32 Spec.BLAKE.wrapCounter 64 8 0) := by
  intro m m' hm hm' h
  rcases blake_prefix (.inl ⟨rfl, rfl, rfl⟩) _ 0 m m' h with h | ⟨h1, _, h2⟩
  · exact h
  · exfalso
    have h2 := h2 _ (Nat.le_refl _)
    generalize m.length = n at *
    generalize m'.length = n' at *
    unfold Spec.BLAKE.wrapCounter Spec.BLAKE.counter at h2
    by_cases c : 56 ≤ n % 64
    · have hk : (n + 8) / 64 = n / 64 + 1 := by omega
      rw [hk, if_pos ⟨c, by omega⟩, show n / 64 + 1 - n / 64 + 1 = 2 by omega] at h2
      split at h2
      · rename_i c'
        have hk' : n / 64 + 1 - n' / 64 + 1 = 1 := by omega
        rw [hk'] at h2
        omega
      · split at h2 <;> omega
    · have hk : (n + 8) / 64 = n / 64 := by omega
      rw [hk, if_neg (by omega)] at h2
      by_cases c' : 56 ≤ n' % 64 ∧ n' / 64 ≤ n / 64
      · have hk' : n / 64 - n' / 64 + 1 = 1 := by omega
        rw [if_pos c', hk'] at h2
        split at h2 <;> omega
      · rw [if_neg c'] at h2
        split at h2 <;> split at h2 <;> omega

/-! ### The other BLAKE classes -/

private theorem pad_two {w B L : Nat} (hf : Family w B L) (e : Byte) (m : List Byte) (h : B - L ≤ m.length % B) :
    Spec.BLAKE.pad B L e m = (m ++ [0x80] ++ List.replicate (B - 1 - m.length % B) 0) ++
      (List.replicate (B - L - 1) 0 ++ [e] ++ Spec.toBE L (8 * m.length)) := by
  have hL : L + 1 ≤ B ∧ m.length % B < B := by rcases hf with ⟨_, rfl, rfl⟩ | ⟨_, rfl, rfl⟩ <;> omega
  rw [(blakeShape B L e hL.1).eq, Proof.BLAKE.padZeros_two _ hL.1 h]
  unfold Proof.BLAKE.mid
  rw [if_neg (by omega), show 2 * B - (m.length % B + 1 + L) - 1 = (B - 1 - m.length % B) + (B - L - 1) by omega,
    ← List.replicate_append_replicate]
  simp only [List.append_assoc]

/-- The counters agree up to the block of padding that the longer message contains. -/
private theorem skip_append {w B L : Nat} (hf : Family w B L) (e : Byte) (m m' : List Byte) (h0 : m.length % B = 0)
    (h1 : B - L ≤ m'.length % B)
    (h2 : Spec.BLAKE.pad B L e m = m' ++ [0x80] ++ List.replicate (B - 1 - m'.length % B) 0) :
    blakeInputs w (Spec.BLAKE.skipCounter B L) B L e m' = blakeInputs w (Spec.BLAKE.skipCounter B L) B L e m ++
      [(List.replicate (B - L - 1) 0 ++ [e] ++ Spec.toBE L (8 * m'.length), 0)] := by
  have hB : 0 < B := by rcases hf with ⟨_, rfl, rfl⟩ | ⟨_, rfl, rfl⟩ <;> decide
  have hp := pad_two hf e m' h1
  rw [← h2] at hp
  have hlen := congrArg List.length h2
  rw [blake_len hf] at hlen
  simp only [List.length_append, List.length_replicate, List.length_cons, List.length_nil] at hlen
  have hb : Spec.blocks B (Spec.BLAKE.pad B L e m') = Spec.blocks B (Spec.BLAKE.pad B L e m) ++
      [List.replicate (B - L - 1) 0 ++ [e] ++ Spec.toBE L (8 * m'.length)] := by
    rw [hp, blocks_append B _ _ hB (by rw [blake_len hf, Nat.mul_mod_right]),
      blocks_self B hB (List.replicate (B - L - 1) 0 ++ [e] ++ Spec.toBE L (8 * m'.length))]
    simp only [List.length_append, List.length_replicate, List.length_cons, List.length_nil, toBE_length]
    rcases hf with ⟨_, rfl, rfl⟩ | ⟨_, rfl, rfl⟩ <;> omega
  have hc : ∀ i, i ≤ (m.length + L) / B →
      Spec.BLAKE.skipCounter B L m'.length i = Spec.BLAKE.skipCounter B L m.length i := fun i hi => by
    unfold Spec.BLAKE.skipCounter Spec.BLAKE.counter
    generalize m.length = n at *
    generalize m'.length = n' at *
    clear hb hp h2
    rcases hf with ⟨_, rfl, rfl⟩ | ⟨_, rfl, rfl⟩
    · rw [if_neg (c := 64 - 8 ≤ n % 64 ∧ _) (by omega)]
      split
      · rw [if_neg (by omega)]
      · rw [if_pos (by omega), if_pos (by omega)]; omega
    · rw [if_neg (c := 128 - 16 ≤ n % 128 ∧ _) (by omega)]
      split
      · rw [if_neg (by omega)]
      · rw [if_pos (by omega), if_pos (by omega)]; omega
  have hz : Spec.BLAKE.skipCounter B L m'.length ((m.length + L) / B + 1) = 0 := by
    unfold Spec.BLAKE.skipCounter
    rw [if_pos]
    clear hc hb hp h2
    rcases hf with ⟨_, rfl, rfl⟩ | ⟨_, rfl, rfl⟩ <;> omega
  unfold blakeInputs
  rw [hb, List.zipIdx_append, List.map_append, Nat.zero_add, blake_count hf]
  congr 1
  · apply List.map_congr_left
    intro x hx
    have := (List.mem_zipIdx hx).2.1
    rw [blake_count hf] at this
    rw [hc x.2 (by omega)]
  · simp only [List.zipIdx_cons, List.zipIdx_nil, List.map_cons, List.map_nil, hz]
    rfl

private theorem skip_exact {w B L : Nat} (hf : Family w B L) (e : Byte) (m m' : List Byte)
    (hm : 8 * m.length < 2 ^ (2 * w)) (hm' : 8 * m'.length < 2 ^ (2 * w)) :
    (blakeInputs w (Spec.BLAKE.skipCounter B L) B L e m <+: blakeInputs w (Spec.BLAKE.skipCounter B L) B L e m' ∧
      m ≠ m') ↔ m.length % B = 0 ∧ B - L ≤ m'.length % B ∧
      Spec.BLAKE.pad B L e m = m' ++ [0x80] ++ List.replicate (B - 1 - m'.length % B) 0 := by
  constructor
  · rintro ⟨h, hne⟩
    rcases blake_prefix hf _ e m m' h with h | ⟨h1, hp, h2⟩
    · exact absurd h hne
    · have key : m.length % B = 0 ∧ B - L ≤ m'.length % B ∧ (m.length + L) / B = m'.length / B := by
        have h3 := h2 _ (Nat.le_refl _)
        have h4 := h2 _ (Nat.div_le_div_right (c := B) (Nat.le_add_right m.length L))
        unfold Spec.BLAKE.skipCounter Spec.BLAKE.counter at h3 h4
        clear h2 hp h hne
        generalize m.length = n at *
        generalize m'.length = n' at *
        rcases hf with ⟨rfl, rfl, rfl⟩ | ⟨rfl, rfl, rfl⟩
        · by_cases c : 64 - 8 ≤ n % 64
          · exfalso
            rw [if_pos ⟨c, Nat.le_refl _⟩, if_neg (by omega), if_pos (by omega)] at h4
            omega
          · rw [if_neg (by omega)] at h3
            by_cases c' : 64 - 8 ≤ n' % 64 ∧ n' / 64 ≤ (n + 8) / 64
            · rw [if_pos c'] at h3
              split at h3 <;> omega
            · rw [if_neg c'] at h3
              split at h3 <;> split at h3 <;> omega
        · by_cases c : 128 - 16 ≤ n % 128
          · exfalso
            rw [if_pos ⟨c, Nat.le_refl _⟩, if_neg (by omega), if_pos (by omega)] at h4
            omega
          · rw [if_neg (by omega)] at h3
            by_cases c' : 128 - 16 ≤ n' % 128 ∧ n' / 128 ≤ (n + 16) / 128
            · rw [if_pos c'] at h3
              split at h3 <;> omega
            · rw [if_neg c'] at h3
              split at h3 <;> split at h3 <;> omega
      refine ⟨key.1, key.2.1, ?_⟩
      have hlen : (Spec.BLAKE.pad B L e m).length =
          (m' ++ [0x80] ++ List.replicate (B - 1 - m'.length % B) (0 : Byte)).length := by
        rw [blake_len hf, key.2.2]
        simp only [List.length_append, List.length_replicate, List.length_cons, List.length_nil]
        rcases hf with ⟨rfl, rfl, rfl⟩ | ⟨rfl, rfl, rfl⟩ <;> omega
      rw [pad_two hf e m' key.2.1] at hp
      exact (List.prefix_of_prefix_length_le hp (List.prefix_append _ _) (Nat.le_of_eq hlen)).eq_of_length hlen
  · rintro ⟨h0, h1, h2⟩
    refine ⟨⟨_, (skip_append hf e m m' h0 h1 h2).symm⟩, fun h => ?_⟩
    rw [← h] at h1
    rcases hf with ⟨_, rfl, rfl⟩ | ⟨_, rfl, rfl⟩ <;> omega

/-- Which messages have inputs that those of another message begin with, for `Blake1_256`: whole blocks, and the other
message is what was hashed (message and padding) without its end, which is to be the beginning of a padding. -/
theorem C62_Blake1_256_exact (m m' : List Byte) (hm : m.length < 2 ^ 61) (hm' : m'.length < 2 ^ 61) :
    let inputs := blakeInputs 32 (Spec.BLAKE.skipCounter 64 8) 64 8 1
    (inputs m <+: inputs m' ∧ m ≠ m') ↔ m.length % 64 = 0 ∧ 56 ≤ m'.length % 64 ∧
      Spec.BLAKE.pad 64 8 1 m = m' ++ [0x80] ++ List.replicate (63 - m'.length % 64) 0 :=
  skip_exact (.inl ⟨rfl, rfl, rfl⟩) 1 m m' (by omega) (by omega)
theorem C62_Blake1_384_exact (m m' : List Byte) (hm : m.length < 2 ^ 125) (hm' : m'.length < 2 ^ 125) :
    let inputs := blakeInputs 64 (Spec.BLAKE.skipCounter 128 16) 128 16 0
    (inputs m <+: inputs m' ∧ m ≠ m') ↔ m.length % 128 = 0 ∧ 112 ≤ m'.length % 128 ∧
      Spec.BLAKE.pad 128 16 0 m = m' ++ [0x80] ++ List.replicate (127 - m'.length % 128) 0 :=
  skip_exact (.inr ⟨rfl, rfl, rfl⟩) 0 m m' (by omega) (by omega)
theorem C62_Blake1_512_exact (m m' : List Byte) (hm : m.length < 2 ^ 125) (hm' : m'.length < 2 ^ 125) :
    let inputs := blakeInputs 64 (Spec.BLAKE.skipCounter 128 16) 128 16 1
    (inputs m <+: inputs m' ∧ m ≠ m') ↔ m.length % 128 = 0 ∧ 112 ≤ m'.length % 128 ∧
      Spec.BLAKE.pad 128 16 1 m = m' ++ [0x80] ++ List.replicate (127 - m'.length % 128) 0 :=
  skip_exact (.inr ⟨rfl, rfl, rfl⟩) 1 m m' (by omega) (by omega)

/-- What to append to a message of `n` bytes: its padding without the last two bytes. -/
def forgedTail (B L : Nat) (e : Byte) (n : Nat) : List Byte :=
  [0x80] ++ List.replicate (B - L - 2) 0 ++ [e] ++ Spec.toBE (L - 2) (8 * n / 65536)

private theorem forged {w B L : Nat} (hf : Family w B L) (e : Byte) (m : List Byte) (h : m.length % 8192 = 4096) :
    m.length % B = 0 ∧ (m ++ forgedTail B L e m.length).length % B = B - 2 ∧
      B - L ≤ (m ++ forgedTail B L e m.length).length % B ∧
      Spec.BLAKE.pad B L e m = (m ++ forgedTail B L e m.length) ++ [0x80] ++
        List.replicate (B - 1 - (m ++ forgedTail B L e m.length).length % B) 0 := by
  have hl : (m ++ forgedTail B L e m.length).length % B = B - 2 := by
    unfold forgedTail
    simp only [List.length_append, List.length_replicate, List.length_cons, List.length_nil, toBE_length]
    rcases hf with ⟨_, rfl, rfl⟩ | ⟨_, rfl, rfl⟩ <;> omega
  have hL : 2 ≤ L ∧ L + 2 ≤ B ∧ m.length % B = 0 := by
    rcases hf with ⟨_, rfl, rfl⟩ | ⟨_, rfl, rfl⟩ <;> omega
  refine ⟨hL.2.2, hl, by omega, ?_⟩
  rw [hl, show B - 1 - (B - 2) = 1 by omega]
  have ht : Spec.toBE L (8 * m.length) = Spec.toBE (L - 2) (8 * m.length / 65536) ++ [0x80, 0] := by
    obtain ⟨k, rfl⟩ : ∃ k, L = k + 2 := ⟨L - 2, by omega⟩
    unfold Spec.toBE
    rw [show k + 2 - 2 = k from rfl, Spec.toLE, Spec.toLE, Nat.div_div_eq_div_mul,
      show (BitVec.ofNat 8 (8 * m.length)) = 0 from by
        apply BitVec.eq_of_toNat_eq; rw [BitVec.toNat_ofNat]; simp; omega,
      show (BitVec.ofNat 8 (8 * m.length / 256)) = 0x80 from by
        apply BitVec.eq_of_toNat_eq; rw [BitVec.toNat_ofNat]; simp; omega]
    simp
  rw [(blakeShape B L e (by omega)).eq, Proof.BLAKE.padZeros_one _ (by omega), hL.2.2, ht]
  unfold Proof.BLAKE.mid forgedTail
  rw [if_neg (by omega), show B - (0 + 1 + L) - 1 = B - L - 2 by omega]
  simp only [List.append_assoc]
  rfl

/-- C62 fails for `Blake1_256`, `Blake1_384`, `Blake1_512`: at every length that is 4096 modulo 8192. -/
theorem C62_Blake1_256_fails (m : List Byte) (h : m.length % 8192 = 4096) :
    let inputs := blakeInputs 32 (Spec.BLAKE.skipCounter 64 8) 64 8 1
    inputs (m ++ forgedTail 64 8 1 m.length) = inputs m ++
      [(List.replicate 55 0 ++ [1] ++ Spec.toBE 8 (8 * (m.length + 62)), 0)] := by
  obtain ⟨h0, _, h1, h2⟩ := forged (.inl ⟨rfl, rfl, rfl⟩) 1 m h
  have := skip_append (.inl ⟨rfl, rfl, rfl⟩ : Family 32 64 8) 1 m _ h0 h1 h2
  rwa [show (m ++ forgedTail 64 8 1 m.length).length = m.length + 62 by unfold forgedTail; simp] at this
theorem C62_Blake1_384_fails (m : List Byte) (h : m.length % 8192 = 4096) :
    let inputs := blakeInputs 64 (Spec.BLAKE.skipCounter 128 16) 128 16 0
    inputs (m ++ forgedTail 128 16 0 m.length) = inputs m ++
      [(List.replicate 111 0 ++ [0] ++ Spec.toBE 16 (8 * (m.length + 126)), 0)] := by
  obtain ⟨h0, _, h1, h2⟩ := forged (.inr ⟨rfl, rfl, rfl⟩) 0 m h
  have := skip_append (.inr ⟨rfl, rfl, rfl⟩ : Family 64 128 16) 0 m _ h0 h1 h2
  rwa [show (m ++ forgedTail 128 16 0 m.length).length = m.length + 126 by unfold forgedTail; simp] at this
theorem C62_Blake1_512_fails (m : List Byte) (h : m.length % 8192 = 4096) :
    let inputs := blakeInputs 64 (Spec.BLAKE.skipCounter 128 16) 128 16 1
    inputs (m ++ forgedTail 128 16 1 m.length) = inputs m ++
      [(List.replicate 111 0 ++ [1] ++ Spec.toBE 16 (8 * (m.length + 126)), 0)] := by
  obtain ⟨h0, _, h1, h2⟩ := forged (.inr ⟨rfl, rfl, rfl⟩) 1 m h
  have := skip_append (.inr ⟨rfl, rfl, rfl⟩ : Family 64 128 16) 1 m _ h0 h1 h2
  rwa [show (m ++ forgedTail 128 16 1 m.length).length = m.length + 126 by unfold forgedTail; simp] at this

/-- ... so the statement is false of them -/
theorem C62_Blake1_fails : ¬ PrefixFree (2 ^ 61) (blakeInputs 32 (Spec.BLAKE.skipCounter 64 8) 64 8 1) ∧
    ¬ PrefixFree (2 ^ 125) (blakeInputs 64 (Spec.BLAKE.skipCounter 128 16) 128 16 0) ∧
    ¬ PrefixFree (2 ^ 125) (blakeInputs 64 (Spec.BLAKE.skipCounter 128 16) 128 16 1) := by
  obtain ⟨m, hl⟩ : ∃ m : List Byte, m.length = 4096 := ⟨List.replicate 4096 0, List.length_replicate ..⟩
  refine ⟨fun h => ?_, fun h => ?_, fun h => ?_⟩
  · have := congrArg List.length (h m _ (by rw [hl]; decide) (by unfold forgedTail; simp [hl])
      ⟨_, (C62_Blake1_256_fails m (by rw [hl])).symm⟩)
    simp [forgedTail] at this
  · have := congrArg List.length (h m _ (by rw [hl]; decide) (by unfold forgedTail; simp [hl])
      ⟨_, (C62_Blake1_384_fails m (by rw [hl])).symm⟩)
    simp [forgedTail] at this
  · have := congrArg List.length (h m _ (by rw [hl]; decide) (by unfold forgedTail; simp [hl])
      ⟨_, (C62_Blake1_512_fails m (by rw [hl])).symm⟩)
    simp [forgedTail] at this

/-- C62 in part, for the three classes: no message whose last block holds some of its bytes and all of its padding is
concerned, and none is the longer one whose padding fits in the block with its end. -/
theorem C62_Blake1_256_partial (m m' : List Byte) (hm : m.length < 2 ^ 61) (hm' : m'.length < 2 ^ 61)
    (hr : m.length % 64 ≠ 0 ∨ m'.length % 64 < 56)
    (h : blakeInputs 32 (Spec.BLAKE.skipCounter 64 8) 64 8 1 m <+:
      blakeInputs 32 (Spec.BLAKE.skipCounter 64 8) 64 8 1 m') : m = m' := by
  refine Classical.byContradiction fun hne => ?_
  have := (C62_Blake1_256_exact m m' hm hm').1 ⟨h, hne⟩
  omega
theorem C62_Blake1_384_partial (m m' : List Byte) (hm : m.length < 2 ^ 125) (hm' : m'.length < 2 ^ 125)
    (hr : m.length % 128 ≠ 0 ∨ m'.length % 128 < 112)
    (h : blakeInputs 64 (Spec.BLAKE.skipCounter 128 16) 128 16 0 m <+:
      blakeInputs 64 (Spec.BLAKE.skipCounter 128 16) 128 16 0 m') : m = m' := by
  refine Classical.byContradiction fun hne => ?_
  have := (C62_Blake1_384_exact m m' hm hm').1 ⟨h, hne⟩
  omega
theorem C62_Blake1_512_partial (m m' : List Byte) (hm : m.length < 2 ^ 125) (hm' : m'.length < 2 ^ 125)
    (hr : m.length % 128 ≠ 0 ∨ m'.length % 128 < 112)
    (h : blakeInputs 64 (Spec.BLAKE.skipCounter 128 16) 128 16 1 m <+:
      blakeInputs 64 (Spec.BLAKE.skipCounter 128 16) 128 16 1 m') : m = m' := by
  refine Classical.byContradiction fun hne => ?_
  have := (C62_Blake1_512_exact m m' hm hm').1 ⟨h, hne⟩
  omega

/-! ### Length extension -/

/-- Two objects of `Blake1_256`, finalised after a message of 4096, 12288, ... bytes and after that message followed by
`forgedTail`: the digest of the second is one application of the compression function to the digest of the first,
read as eight words, a block that depends on the length alone, and the counter zero. -/
theorem C62_Blake1_256_extension (ops ops' : List Op) (hl : Legal (ops ++ [.finalize]))
    (hl' : Legal (ops' ++ [.finalize])) (n : Nat) (hn : (message ops).length = n) (h : n % 8192 = 4096)
    (he : message ops' = message ops ++ forgedTail 64 8 1 n) :
    ∃ o o' hash, BLAKE.Blake1_256.run BLAKE.Blake1_256.fresh (ops ++ [.finalize]) = .ok o ∧
      BLAKE.Blake1_256.run BLAKE.Blake1_256.fresh (ops' ++ [.finalize]) = .ok o' ∧
      BLAKE.Blake1_256.toArray o = .ok (Spec.bytesBE (Vector.toList hash)) ∧
      BLAKE.Blake1_256.toArray o' = .ok (Spec.bytesBE (Spec.BLAKE.compress Spec.BLAKE.p256 hash
        (List.replicate 55 0 ++ [1] ++ Spec.toBE 8 (8 * (n + 62))) 0).toList) := by
  obtain ⟨o, e, f⟩ := Proof.BLAKE.refines256.run_finalize ops hl
  obtain ⟨o', e', f'⟩ := Proof.BLAKE.refines256.run_finalize ops' hl'
  subst hn
  refine ⟨o, o', _, e, e', (Proof.BLAKE.refines256.out _ _ f).trans (congrArg _ (inputs_fold _ _ _ _ _ _ _).symm),
    (Proof.BLAKE.refines256.out _ _ f').trans (congrArg _ ((inputs_fold _ _ _ _ _ _ _).symm.trans ?_))⟩
  rw [he, C62_Blake1_256_fails _ h, List.foldl_append]
  rfl
theorem C62_Blake1_512_extension (ops ops' : List Op) (hl : Legal (ops ++ [.finalize]))
    (hl' : Legal (ops' ++ [.finalize])) (n : Nat) (hn : (message ops).length = n) (h : n % 8192 = 4096)
    (he : message ops' = message ops ++ forgedTail 128 16 1 n) :
    ∃ o o' hash, BLAKE.Blake1_512.run BLAKE.Blake1_512.fresh (ops ++ [.finalize]) = .ok o ∧
      BLAKE.Blake1_512.run BLAKE.Blake1_512.fresh (ops' ++ [.finalize]) = .ok o' ∧
      BLAKE.Blake1_512.toArray o = .ok (Spec.bytesBE (Vector.toList hash)) ∧
      BLAKE.Blake1_512.toArray o' = .ok (Spec.bytesBE (Spec.BLAKE.compress Spec.BLAKE.p512 hash
        (List.replicate 111 0 ++ [1] ++ Spec.toBE 16 (8 * (n + 126))) 0).toList) := by
  obtain ⟨o, e, f⟩ := Proof.BLAKE.refines512.run_finalize ops hl
  obtain ⟨o', e', f'⟩ := Proof.BLAKE.refines512.run_finalize ops' hl'
  subst hn
  refine ⟨o, o', _, e, e', (Proof.BLAKE.refines512.out _ _ f).trans (congrArg _ (inputs_fold _ _ _ _ _ _ _).symm),
    (Proof.BLAKE.refines512.out _ _ f').trans (congrArg _ ((inputs_fold _ _ _ _ _ _ _).symm.trans ?_))⟩
  rw [he, C62_Blake1_512_fails _ h, List.foldl_append]
  rfl

/-- messages the theorems apply to -/
example (l : List Byte) (h : l.length = 4096) := C62_Blake1_256_extension [.add l] [.add l, .add (forgedTail 64 8 1 4096)]
  (by simp [Legal, legalFrom, h]) (by simp [Legal, legalFrom, h, forgedTail]) 4096 (by simp [message, messageFrom, h]) (by decide) (by simp [message, messageFrom])
example (l : List Byte) (h : l.length = 12288) := C62_Blake1_512_extension [.add l]
  [.add l, .add (forgedTail 128 16 1 12288)] (by simp [Legal, legalFrom, h]) (by simp [Legal, legalFrom, h, forgedTail]) 12288
  (by simp [message, messageFrom, h]) (by decide) (by simp [message, messageFrom])
example := C62_Blake1_256_partial [1] [1, 2] (by decide) (by decide) (.inl (by decide))
/-- the inputs for two messages do share a beginning -/
example : (blakeInputs 32 (Spec.BLAKE.counter 64) 64 8 1 (List.replicate 64 5))[0]? =
    (blakeInputs 32 (Spec.BLAKE.counter 64) 64 8 1 (List.replicate 70 5))[0]? := by decide +kernel

end Verif.Props
