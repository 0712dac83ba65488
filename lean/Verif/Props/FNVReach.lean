import Verif.Proof.FNVReach
import Verif.Proof.Num

/-!
# C66: an FNV hash protects against no attacker

The counterpart of C46 for FNV: there is no digest that cannot be had, whatever the message must contain.
-/

namespace Verif.Props
open Model Spec

/-- C66: for every message, cut anywhere, and every digest there are bytes that, inserted at the cut, give that digest.
(`v = 0, 1, 2` are FNV-0, FNV-1 and FNV-1a.) -/
theorem C66_any_digest_32 (v : Nat) (hv : v ≤ 2) (before after digest : List Byte) (hd : digest.length = 4) :
    ∃ inserted, (FNV.FNVHash 32 v).digest [before ++ inserted ++ after] = .ok digest := by
  obtain ⟨a, ha⟩ := Proof.FNV.fold_surj _ _ Proof.FNV.mul32 Proof.FNV.inv32_ok v after (BitVec.ofNat 32 (ofBE digest))
  obtain ⟨m, hm⟩ := Proof.FNV.reach32 v hv (before.foldl (FNV.body v) (FNV.FNVHash 32 v).fresh) a
  refine ⟨m, (Proof.FNV.toArray_eq 32 v ((before ++ m ++ after).foldl (FNV.body v) (FNV.FNVHash 32 v).fresh)).trans ?_⟩
  rw [List.foldl_append, List.foldl_append, hm, ha, BitVec.toNat_ofNat, Nat.mod_eq_of_lt]
  · show Except.ok (toBE 4 (ofBE digest)) = _
    rw [← hd, Proof.FNV.toBE_ofBE]
  · have := Proof.FNV.ofBE_lt digest
    rwa [hd] at this
theorem C66_any_digest_64 (v : Nat) (hv : v ≤ 2) (before after digest : List Byte) (hd : digest.length = 8) :
    ∃ inserted, (FNV.FNVHash 64 v).digest [before ++ inserted ++ after] = .ok digest := by
  obtain ⟨a, ha⟩ := Proof.FNV.fold_surj _ _ Proof.FNV.mul64 Proof.FNV.inv64_ok v after (BitVec.ofNat 64 (ofBE digest))
  obtain ⟨m, hm⟩ := Proof.FNV.reach64 v hv (before.foldl (FNV.body v) (FNV.FNVHash 64 v).fresh) a
  refine ⟨m, (Proof.FNV.toArray_eq 64 v ((before ++ m ++ after).foldl (FNV.body v) (FNV.FNVHash 64 v).fresh)).trans ?_⟩
  rw [List.foldl_append, List.foldl_append, hm, ha, BitVec.toNat_ofNat, Nat.mod_eq_of_lt]
  · show Except.ok (toBE 8 (ofBE digest)) = _
    rw [← hd, Proof.FNV.toBE_ofBE]
  · have := Proof.FNV.ofBE_lt digest
    rwa [hd] at this

/-- C66: so each of the 2^32 and 2^64 digests is the digest of infinitely many messages. -/
theorem C66_infinitely_many_32 (v : Nat) (hv : v ≤ 2) (digest : List Byte) (hd : digest.length = 4) (n : Nat) :
    ∃ m : List Byte, n ≤ m.length ∧ (FNV.FNVHash 32 v).digest [m] = .ok digest := by
  obtain ⟨x, hx⟩ := C66_any_digest_32 v hv (List.replicate n 0) [] digest hd
  exact ⟨_, by simp, hx⟩
theorem C66_infinitely_many_64 (v : Nat) (hv : v ≤ 2) (digest : List Byte) (hd : digest.length = 8) (n : Nat) :
    ∃ m : List Byte, n ≤ m.length ∧ (FNV.FNVHash 64 v).digest [m] = .ok digest := by
  obtain ⟨x, hx⟩ := C66_any_digest_64 v hv (List.replicate n 0) [] digest hd
  exact ⟨_, by simp, hx⟩

/-- C66: every message has the digest of another one that begins and ends as one likes. -/
theorem C66_collision_32 (v : Nat) (hv : v ≤ 2) (m before after : List Byte) :
    ∃ inserted, (FNV.FNVHash 32 v).digest [before ++ inserted ++ after] = (FNV.FNVHash 32 v).digest [m] := by
  obtain ⟨x, hx⟩ := C66_any_digest_32 v hv before after _ (toBE_length 4 (m.foldl (FNV.body v) (FNV.FNVHash 32 v).fresh).toNat)
  exact ⟨x, hx.trans (Proof.FNV.toArray_eq 32 v (m.foldl (FNV.body v) (FNV.FNVHash 32 v).fresh)).symm⟩
theorem C66_collision_64 (v : Nat) (hv : v ≤ 2) (m before after : List Byte) :
    ∃ inserted, (FNV.FNVHash 64 v).digest [before ++ inserted ++ after] = (FNV.FNVHash 64 v).digest [m] := by
  obtain ⟨x, hx⟩ := C66_any_digest_64 v hv before after _ (toBE_length 8 (m.foldl (FNV.body v) (FNV.FNVHash 64 v).fresh).toNat)
  exact ⟨x, hx.trans (Proof.FNV.toArray_eq 64 v (m.foldl (FNV.body v) (FNV.FNVHash 64 v).fresh)).symm⟩

/-! Witnesses: a digest wanted of a message with a given beginning and end. -/
example : ∃ inserted, FNV.FNV32_1a.digest [[1, 2, 3] ++ inserted ++ [4]] = .ok [0xde, 0xad, 0xbe, 0xef] :=
  C66_any_digest_32 2 (by decide) [1, 2, 3] [4] [0xde, 0xad, 0xbe, 0xef] rfl
example : ∃ inserted, FNV.FNV64_0.digest [[1, 2, 3] ++ inserted ++ [4]] = .ok [0, 0, 0, 0, 0, 0, 0, 0] :=
  C66_any_digest_64 0 (by decide) [1, 2, 3] [4] [0, 0, 0, 0, 0, 0, 0, 0] rfl

end Verif.Props
