import Verif.Proof.KeccakPerm

/-!
# C20, C26, C31: SHA-3 and SHAKE

Specification: Spec/Keccak.lean (bit strings, the step mappings and the sponge of FIPS 202).
-/

namespace Verif.Props
open Spec Model.SHA3

/-- C20. -/
theorem C20_SHA3_224 : SHA3_224.Computes Keccak.sha3_224 := Proof.SHA3.refines224.computes
theorem C20_SHA3_256 : SHA3_256.Computes Keccak.sha3_256 := Proof.SHA3.refines256.computes
theorem C20_SHA3_384 : SHA3_384.Computes Keccak.sha3_384 := Proof.SHA3.refines384.computes
theorem C20_SHA3_512 : SHA3_512.Computes Keccak.sha3_512 := Proof.SHA3.refines512.computes
theorem C20_SHAKE_128 (d : Nat) : (SHAKE_128 d).Computes (Keccak.shake128 · d) :=
  (Proof.SHA3.refinesShake128 d).computes
theorem C20_SHAKE_256 (d : Nat) : (SHAKE_256 d).Computes (Keccak.shake256 · d) :=
  (Proof.SHA3.refinesShake256 d).computes

/-- C20: a negative output length makes the constructor throw, any other one constructs the class. -/
theorem C20_SHAKE_construct (d : Int) :
    (construct 168 0x1F d = if d < 0 then .error .badLength else .ok (SHAKE_128 d.toNat)) ∧
    (construct 136 0x1F d = if d < 0 then .error .badLength else .ok (SHAKE_256 d.toNat)) := ⟨rfl, rfl⟩

/-- C26: whatever was added in whatever pieces, the shorter output is a prefix of the longer one. -/
theorem C26_SHAKE_128 (d d' : Nat) (h : d ≤ d') (ops : List Op) (hl : Legal (ops ++ [.finalize])) :
    ∃ o o' z z', (SHAKE_128 d).run (SHAKE_128 d).fresh (ops ++ [.finalize]) = .ok o ∧
      (SHAKE_128 d').run (SHAKE_128 d').fresh (ops ++ [.finalize]) = .ok o' ∧
      (SHAKE_128 d).toArray o = .ok z ∧ (SHAKE_128 d').toArray o' = .ok z' ∧ z <+: z' := by
  obtain ⟨o, e, q⟩ := C20_SHAKE_128 d ops hl trivial
  obtain ⟨o', e', q'⟩ := C20_SHAKE_128 d' ops hl trivial
  exact ⟨o, o', _, _, e, e', q, q', Proof.SHA3.sponge_prefix 168 rfl 0x1F _ Proof.SHA3.suffix_shake _ d d' h⟩

theorem C26_SHAKE_256 (d d' : Nat) (h : d ≤ d') (ops : List Op) (hl : Legal (ops ++ [.finalize])) :
    ∃ o o' z z', (SHAKE_256 d).run (SHAKE_256 d).fresh (ops ++ [.finalize]) = .ok o ∧
      (SHAKE_256 d').run (SHAKE_256 d').fresh (ops ++ [.finalize]) = .ok o' ∧
      (SHAKE_256 d).toArray o = .ok z ∧ (SHAKE_256 d').toArray o' = .ok z' ∧ z <+: z' := by
  obtain ⟨o, e, q⟩ := C20_SHAKE_256 d ops hl trivial
  obtain ⟨o', e', q'⟩ := C20_SHAKE_256 d' ops hl trivial
  exact ⟨o, o', _, _, e, e', q, q', Proof.SHA3.sponge_prefix 136 rfl 0x1F _ Proof.SHA3.suffix_shake _ d d' h⟩

/-- C31: the permutation of the code is injective. -/
theorem C31_permute_injective (s t : State) (h : permute s = permute t) : s = t := Proof.SHA3.permute_inj s t h

/-- C31: so is KECCAK-f[1600] of the specification, on strings of 1600 bits. -/
theorem C31_keccakF_injective (S T : List Bool) (hS : S.length = 1600) (hT : T.length = 1600)
    (h : Keccak.keccakF S = Keccak.keccakF T) : S = T := Proof.SHA3.keccakF_inj S T hS hT h

/-- C31: two finalised objects of one class (rate, padding byte and digest length) compare equal exactly
when the sponge states after absorbing their padded messages agree on all 1600 bits. The rates and
suffixes are those of SHA-3 and SHAKE. -/
theorem C31_equality (R : Nat) [RateOK R] (hR : R % 8 = 0) (P : Byte) (suf : List Bool)
    (hP : (P, suf) = (0x06, [false, true]) ∨ (P, suf) = (0x1F, [true, true, true, true])) (d : Nat)
    (ops ops' : List Op) (hl : Legal (ops ++ [.finalize])) (hl' : Legal (ops' ++ [.finalize])) :
    ∃ o o', (Keccak R P d).run (Keccak R P d).fresh (ops ++ [.finalize]) = .ok o ∧
      (Keccak R P d).run (Keccak R P d).fresh (ops' ++ [.finalize]) = .ok o' ∧
      (eq o o' = true ↔ Keccak.absorb (8 * R) (Keccak.bits (message ops) ++ suf) =
        Keccak.absorb (8 * R) (Keccak.bits (message ops') ++ suf)) := by
  have hs : Proof.SHA3.IsSuffix P suf := by
    rcases hP with h | h <;> injection h with h1 h2 <;> subst h1 <;> subst h2
    · exact Proof.SHA3.suffix_sha3
    · exact Proof.SHA3.suffix_shake
  obtain ⟨o, e, f⟩ := Proof.SHA3.run_final R P d ops hl
  obtain ⟨o', e', f'⟩ := Proof.SHA3.run_final R P d ops' hl'
  exact ⟨o, o', e, e', Proof.SHA3.eq_iff R hR P suf hs d o o' _ _ f f'⟩

/-- C40: the round constants of the code are the output of the shift register of FIPS 202. -/
theorem C40_SHA3_round_constants (ir : Fin 24) (z : Fin 64) :
    roundConstantTable[ir].getLsbD z.val = Keccak.RC ir.val z.val := Proof.SHA3.rc_table ir z

example : Legal ([.add [1, 2], .finalize, .reset, .add [], .add (List.replicate 300 7)] ++ [.finalize]) := by
  decide +kernel

example := C26_SHAKE_128 16 400 (by decide) [.add [1, 2], .finalize, .reset, .add [3]] (by decide)
example := C26_SHAKE_256 16 400 (by decide) [.add [1, 2], .finalize, .reset, .add [3]] (by decide)
/-- the zero state and one with a single bit set -/
example : permute (Vector.replicate 25 0) ≠ permute ((Vector.replicate 25 0).set 3 1) := fun h =>
  absurd (congrArg (fun s : State => s[3]) (C31_permute_injective _ _ h)) (by decide)
example : Keccak.keccakF (List.replicate 1600 false) ≠ Keccak.keccakF (true :: List.replicate 1599 false) := fun h => by
  have := C31_keccakF_injective _ _ List.length_replicate (by simp only [List.length_cons, List.length_replicate]) h
  rw [List.replicate_succ] at this
  injection this with this
  cases this
example := C31_equality 136 rfl 0x06 [false, true] (.inl rfl) 32 [.add [1, 2]] [.add [3], .reset, .add [4]] (by decide) (by decide)

end Verif.Props
