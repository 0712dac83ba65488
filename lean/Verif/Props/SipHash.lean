import Verif.Proof.SipHash

/-!
# C23: SipHash

`Spec/SipHash.lean` is the specification; the tag is a 64-bit number, which `toArray` renders most
significant byte first.
-/

namespace Verif.Props
open Model Spec

/-- C23: for every key, every pair of round counts and every legal history. -/
theorem C23_SipHash (c d : Nat) (key : Block 16) :
    (SipHash.SipHashCD c d key).Computes
      (fun m => toBE 8 (Spec.SipHash.siphash c d key.toList m).toNat) :=
  (Proof.SipHash.refines c d key).computes

/-- C23: the constructor accepts exactly the keys of 16 bytes, and gives a fresh object for them. -/
theorem C23_constructor (key : List Byte) :
    (∀ h : key.length = 16, SipHash.construct key =
      .ok (SipHash.SipHashCD 2 4 ⟨key.toArray, h⟩).fresh) ∧
    (key.length ≠ 16 → SipHash.construct key = .error .assertion) := by
  unfold SipHash.construct
  exact ⟨fun h => dif_pos h, fun h => dif_neg h⟩

/-- C23: the padded message is the least number of whole words holding the message and one more
byte, which is the length mod 256. -/
theorem C23_pad (m : List Byte) :
    (Spec.SipHash.pad m).length = 8 * (m.length / 8 + 1) ∧ m <+: Spec.SipHash.pad m ∧
      (Spec.SipHash.pad m).getLast? = some (BitVec.ofNat 8 m.length) := by
  unfold Spec.SipHash.pad
  refine ⟨?_, ?_, ?_⟩
  · simp only [List.length_append, List.length_replicate, List.length_singleton]; omega
  · rw [List.append_assoc]; exact List.prefix_append _ _
  · rw [List.getLast?_concat]

/-- C27: different messages are never padded to the same words, although only the length mod 256 is
appended. -/
theorem C27_SipHash (m m' : List Byte) (h : Spec.SipHash.pad m = Spec.SipHash.pad m') : m = m' := by
  obtain ⟨h1, ⟨r, h2⟩, h3⟩ := C23_pad m
  obtain ⟨h1', ⟨r', h2'⟩, h3'⟩ := C23_pad m'
  rw [h] at h1 h2 h3
  have hq : m.length / 8 = m'.length / 8 := by omega
  rw [h3] at h3'
  have hb := congrArg BitVec.toNat (Option.some.inj h3')
  simp only [BitVec.toNat_ofNat] at hb
  have hl : m.length = m'.length := by omega
  rw [← h2'] at h2
  exact (List.append_inj h2 hl).1

/-- The test value of the paper (appendix A), for the specification. -/
example : Spec.SipHash.siphash 2 4 ((List.range 16).map (BitVec.ofNat 8)) ((List.range 15).map (BitVec.ofNat 8))
    = 0xa129ca6149be45e5 := by decide +kernel

example : Legal ([.add [1, 2, 3], .reset, .add (List.replicate 300 5), .add [6]] ++ [.finalize]) := by
  decide +kernel

example : Spec.SipHash.pad [1, 2, 3] ≠ Spec.SipHash.pad [1, 2, 3, 0] := fun h => absurd (C27_SipHash _ _ h) (by decide)

end Verif.Props
