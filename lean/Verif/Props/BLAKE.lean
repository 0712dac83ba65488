import Verif.Proof.BLAKE

/-!
# BLAKE: C18, and the constants (C40)

C18 as stated ("for every message the classes compute the BLAKE digest") is false of the code. What
is proved: it holds for every message whose padding fits in the block with the end of the message
(`_partial`); it fails for messages of every other length residue (`_fails`); and what the classes
compute for every message whatsoever (`_actual`), in terms of the same iterated hash with another
rule for the counter (Spec/BLAKE.lean, `skipCounter`, `wrapCounter`).
-/

namespace Verif.Props
open Model.BLAKE Spec

theorem C18_Blake1_224_partial : Blake1_224.ComputesOn (fun m => m.length % 64 < 56) BLAKE.blake224 :=
  Proof.BLAKE.refines224.computesOn _ _ fun m h => by rw [Proof.BLAKE.dig224_eq m h]
theorem C18_Blake1_256_partial : Blake1_256.ComputesOn (fun m => m.length % 64 < 56) BLAKE.blake256 :=
  Proof.BLAKE.refines256.computesOn _ _ fun m h => by rw [Proof.BLAKE.dig256_eq m h]
theorem C18_Blake1_384_partial : Blake1_384.ComputesOn (fun m => m.length % 128 < 112) BLAKE.blake384 :=
  Proof.BLAKE.refines384.computesOn _ _ fun m h => by rw [Proof.BLAKE.dig384_eq m h]
theorem C18_Blake1_512_partial : Blake1_512.ComputesOn (fun m => m.length % 128 < 112) BLAKE.blake512 :=
  Proof.BLAKE.refines512.computesOn _ _ fun m h => by rw [Proof.BLAKE.dig512_eq m h]

/-- What the classes compute, for every message. -/
theorem C18_Blake1_224_actual : Blake1_224.Computes BLAKE.dig224 := Proof.BLAKE.refines224.computes
theorem C18_Blake1_256_actual : Blake1_256.Computes BLAKE.dig256 := Proof.BLAKE.refines256.computes
theorem C18_Blake1_384_actual : Blake1_384.Computes BLAKE.dig384 := Proof.BLAKE.refines384.computes
theorem C18_Blake1_512_actual : Blake1_512.Computes BLAKE.dig512 := Proof.BLAKE.refines512.computes

set_option maxRecDepth 100000 in
/-- C18 fails for every residue not covered by the partial theorems: there is a message of that
length, all zero bytes, whose digest is not the BLAKE digest. -/
theorem C18_Blake1_224_fails (r : Fin 64) (hr : 56 ≤ r.val) :
    Blake1_224.digest [List.replicate r 0] ≠ .ok (BLAKE.blake224 (List.replicate r 0)) := by
  rw [Proof.BLAKE.refines224.digest_eq _ (by simp; omega)]
  have : ∀ r : Fin 64, 56 ≤ r.val →
    BLAKE.dig224 (List.replicate r 0) ≠ BLAKE.blake224 (List.replicate r 0) := by decide +kernel
  simpa using this r hr

set_option maxRecDepth 100000 in
theorem C18_Blake1_256_fails (r : Fin 64) (hr : 56 ≤ r.val) :
    Blake1_256.digest [List.replicate r 0] ≠ .ok (BLAKE.blake256 (List.replicate r 0)) := by
  rw [Proof.BLAKE.refines256.digest_eq _ (by simp; omega)]
  have : ∀ r : Fin 64, 56 ≤ r.val →
    BLAKE.dig256 (List.replicate r 0) ≠ BLAKE.blake256 (List.replicate r 0) := by decide +kernel
  simpa using this r hr

set_option maxRecDepth 100000 in
/-- C18 fails for the 64-bit classes: 112 zero bytes. -/
theorem C18_Blake1_384_fails :
    Blake1_384.digest [List.replicate 112 0] ≠ .ok (BLAKE.blake384 (List.replicate 112 0)) := by
  rw [Proof.BLAKE.refines384.digest_eq _ (by simp)]
  have : BLAKE.dig384 (List.replicate 112 0) ≠ BLAKE.blake384 (List.replicate 112 0) := by decide +kernel
  simpa using this

set_option maxRecDepth 100000 in
/-- C18 fails for the 64-bit classes: 127 zero bytes. -/
theorem C18_Blake1_512_fails :
    Blake1_512.digest [List.replicate 127 0] ≠ .ok (BLAKE.blake512 (List.replicate 127 0)) := by
  rw [Proof.BLAKE.refines512.digest_eq _ (by simp)]
  have : BLAKE.dig512 (List.replicate 127 0) ≠ BLAKE.blake512 (List.replicate 127 0) := by decide +kernel
  simpa using this

/-- So C18 as stated does not hold of any of the four classes. -/
theorem C18_negative : ¬ Blake1_224.Computes BLAKE.blake224 ∧ ¬ Blake1_256.Computes BLAKE.blake256 ∧
    ¬ Blake1_384.Computes BLAKE.blake384 ∧ ¬ Blake1_512.Computes BLAKE.blake512 := by
  have key : ∀ {O : Type} (A : API O) (spec : List Byte → List Byte) (n : Nat), n < 2 ^ 64 →
      A.digest [List.replicate n 0] ≠ .ok (spec (List.replicate n 0)) → ¬ A.Computes spec := by
    intro O A spec n hn hne hc
    apply hne
    have hl : Legal ([.add (List.replicate n 0)] ++ [.finalize]) := by
      refine ⟨rfl, ?_, rfl, trivial⟩
      rw [List.length_replicate]; exact hn
    obtain ⟨o, ho, hd⟩ := hc _ hl trivial
    have hm : message [.add (List.replicate n 0)] = List.replicate n 0 := rfl
    rw [hm] at hd
    show (A.run A.fresh ([.add (List.replicate n 0)] ++ [.finalize])).bind A.toArray = _
    rw [ho]
    exact hd
  exact ⟨key _ _ _ (by decide) (C18_Blake1_224_fails 56 (by decide)),
    key _ _ _ (by decide) (C18_Blake1_256_fails 56 (by decide)),
    key _ _ _ (by decide) C18_Blake1_384_fails, key _ _ _ (by decide) C18_Blake1_512_fails⟩

/-- C40 for BLAKE: the constants are consecutive words of the fraction of pi
(`BLAKE.piFrac`, proved to be the first 1024 bits of it in Props/Pi.lean), the initial values are
those of SHA-2. -/
theorem C40_BLAKE_constants : (∀ i : Fin 16, cTable32[i] = BLAKE.C 32 i) ∧
    (∀ i : Fin 16, cTable64[i] = BLAKE.C 64 i) :=
  ⟨Proof.BLAKE.cTable32_eq, Proof.BLAKE.cTable64_eq⟩
theorem C40_BLAKE_IV : iv224 = BLAKE.iv SHA2.H224 ∧ iv256 = BLAKE.iv SHA2.H256 ∧
    iv384 = BLAKE.iv SHA2.H384 ∧ iv512 = BLAKE.iv SHA2.H512 :=
  ⟨Proof.BLAKE.iv224_eq.symm, Proof.BLAKE.iv256_eq.symm, Proof.BLAKE.iv384_eq.symm,
    Proof.BLAKE.iv512_eq.symm⟩

/-! Histories meeting the hypotheses of the partial theorems: 3 and 70 bytes, in pieces. -/
example : Legal ([.add [1, 2], .finalize, .reset, .add [7], .add (List.replicate 69 7)] ++ [.finalize]) ∧
    (message [.add [1, 2], .finalize, .reset, .add [7], .add (List.replicate 69 7)]).length % 64 < 56 := by
  decide +kernel

example := C18_Blake1_224_fails 56 (by decide)
example := C18_Blake1_256_fails 63 (by decide)

end Verif.Props
