import Verif.Proof.FNV
import Verif.Proof.Num

/-!
# C25, C34 and the FNV part of C01, C02, C03, C37

`Spec/FNV.lean` is the specification; the hash value is rendered most significant byte first.
-/

namespace Verif.Props
open Model Spec

/-- C25 -/
theorem C25_FNV32_1 : FNV.FNV32_1.Computes (fun m => toBE 4 (FNV.fnv1 FNV.prime32 FNV.basis32 m).toNat) :=
  Proof.FNV.refines32_1.computes
theorem C25_FNV32_1a : FNV.FNV32_1a.Computes (fun m => toBE 4 (FNV.fnv1a FNV.prime32 FNV.basis32 m).toNat) :=
  Proof.FNV.refines32_1a.computes
theorem C25_FNV64_1 : FNV.FNV64_1.Computes (fun m => toBE 8 (FNV.fnv1 FNV.prime64 FNV.basis64 m).toNat) :=
  Proof.FNV.refines64_1.computes
theorem C25_FNV64_1a : FNV.FNV64_1a.Computes (fun m => toBE 8 (FNV.fnv1a FNV.prime64 FNV.basis64 m).toNat) :=
  Proof.FNV.refines64_1a.computes

/-- C25, C40: the constants in the code are the hash of the signature string and the primes, and
the primes are prime. -/
theorem C40_FNV_basis : FNV.basis32 = FNV.FNV32_1.fresh ∧ FNV.basis32 = FNV.FNV32_1a.fresh ∧
    FNV.basis64 = FNV.FNV64_1.fresh ∧ FNV.basis64 = FNV.FNV64_1a.fresh :=
  ⟨Proof.FNV.basis32_eq, Proof.FNV.basis32_eq, Proof.FNV.basis64_eq, Proof.FNV.basis64_eq⟩

/-- Every byte an object was ever given, whatever `reset` calls lie in between. -/
def everAdded (ops : List Op) : List Byte := ops.flatMap fun | .add d => d | _ => []

theorem everAdded_eq (ops : List Op) : Proof.FNV.everAdded ops = everAdded ops := by
  induction ops with
  | nil => rfl
  | cons op ops ih => cases op <;> simp [Proof.FNV.everAdded, everAdded, ih]

/-- C25, C03: what the FNV-0 classes compute after any history: `reset` has no effect at all. -/
theorem C25_FNV32_0_actual (ops : List Op) : ∃ o, FNV.FNV32_0.run FNV.FNV32_0.fresh (ops ++ [.finalize]) = .ok o ∧
    FNV.FNV32_0.toArray o = .ok (toBE 4 (FNV.fnv1 FNV.prime32 0 (everAdded ops)).toNat) := by
  refine ⟨_, Proof.FNV.run_0 32 _ _, ?_⟩
  have := Proof.FNV.toArray_eq 32 0 ((Proof.FNV.everAdded (ops ++ [.finalize])).foldl (FNV.body 0) 0)
  rw [Proof.FNV.everAdded_append, show Proof.FNV.everAdded [Op.finalize] = [] from rfl, List.append_nil,
    Proof.FNV.fold_1 _ Proof.FNV.mul32 0 (by decide), everAdded_eq] at this
  rw [← this, Proof.FNV.everAdded_append, show Proof.FNV.everAdded [Op.finalize] = [] from rfl, List.append_nil,
    ← everAdded_eq, ← Proof.FNV.fold_1 _ Proof.FNV.mul32 0 (by decide)]
  rfl

theorem C25_FNV64_0_actual (ops : List Op) : ∃ o, FNV.FNV64_0.run FNV.FNV64_0.fresh (ops ++ [.finalize]) = .ok o ∧
    FNV.FNV64_0.toArray o = .ok (toBE 8 (FNV.fnv1 FNV.prime64 0 (everAdded ops)).toNat) := by
  refine ⟨_, Proof.FNV.run_0 64 _ _, ?_⟩
  have := Proof.FNV.toArray_eq 64 0 ((Proof.FNV.everAdded (ops ++ [.finalize])).foldl (FNV.body 0) 0)
  rw [Proof.FNV.everAdded_append, show Proof.FNV.everAdded [Op.finalize] = [] from rfl, List.append_nil,
    Proof.FNV.fold_1 _ Proof.FNV.mul64 0 (by decide), everAdded_eq] at this
  rw [← this, Proof.FNV.everAdded_append, show Proof.FNV.everAdded [Op.finalize] = [] from rfl, List.append_nil,
    ← everAdded_eq, ← Proof.FNV.fold_1 _ Proof.FNV.mul64 0 (by decide)]
  rfl

theorem everAdded_message (ops : List Op) (h : Op.reset ∉ ops) : everAdded ops = message ops := by
  rw [← everAdded_eq, message, Proof.FNV.message_noReset ops h, List.nil_append]

/-- C25 for the FNV-0 classes. Missing: histories with `reset`, for which it is false (below). -/
theorem C25_FNV32_0_partial (ops : List Op) (h : Op.reset ∉ ops) :
    ∃ o, FNV.FNV32_0.run FNV.FNV32_0.fresh (ops ++ [.finalize]) = .ok o ∧
      FNV.FNV32_0.toArray o = .ok (toBE 4 (FNV.fnv1 FNV.prime32 0 (message ops)).toNat) := by
  rw [← everAdded_message ops h]; exact C25_FNV32_0_actual ops
theorem C25_FNV64_0_partial (ops : List Op) (h : Op.reset ∉ ops) :
    ∃ o, FNV.FNV64_0.run FNV.FNV64_0.fresh (ops ++ [.finalize]) = .ok o ∧
      FNV.FNV64_0.toArray o = .ok (toBE 8 (FNV.fnv1 FNV.prime64 0 (message ops)).toNat) := by
  rw [← everAdded_message ops h]; exact C25_FNV64_0_actual ops

/-- C03 is false of the FNV-0 classes. -/
theorem C03_FNV32_0_fails : ¬ FNV.FNV32_0.ResetIsFresh := by
  intro h
  have := h [.add [1]] [] (by decide)
  exact absurd (Except.ok.inj this) (by decide)
theorem C03_FNV64_0_fails : ¬ FNV.FNV64_0.ResetIsFresh := by
  intro h
  have := h [.add [1]] [] (by decide)
  exact absurd (Except.ok.inj this) (by decide)
/-- C25 is false of the FNV-0 classes: the second of two messages hashed with one object, `reset`
in between, gets the wrong value. -/
theorem C25_FNV32_0_fails :
    ¬ FNV.FNV32_0.Computes (fun m => toBE 4 (FNV.fnv1 FNV.prime32 0 m).toNat) := by
  intro h
  obtain ⟨o, ho, hd⟩ := h [.add [1], .finalize, .reset, .add [2]] (by decide) trivial
  have he : o = (2 : Nat) ^^^ 0x01000193 := (Except.ok.inj ho).symm
  rw [he] at hd
  exact absurd (Except.ok.inj hd) (by decide)
theorem C25_FNV64_0_fails :
    ¬ FNV.FNV64_0.Computes (fun m => toBE 8 (FNV.fnv1 FNV.prime64 0 m).toNat) := by
  intro h
  obtain ⟨o, ho, hd⟩ := h [.add [1], .finalize, .reset, .add [2]] (by decide) trivial
  have he : o = (2 : Nat) ^^^ 0x00000100000001b3 := (Except.ok.inj ho).symm
  rw [he] at hd
  exact absurd (Except.ok.inj hd) (by decide)

/-- C01, C02, C37 for the FNV-0 classes (no refinement, because of `reset`). -/
theorem C01_FNV32_0 : FNV.FNV32_0.ChunkingIrrelevant := Proof.FNV.chunking_0 32
theorem C01_FNV64_0 : FNV.FNV64_0.ChunkingIrrelevant := Proof.FNV.chunking_0 64
theorem C02_FNV32_0 : FNV.FNV32_0.Safe := fun ops _ => ⟨_, Proof.FNV.run_0 32 ops _⟩
theorem C02_FNV64_0 : FNV.FNV64_0.Safe := fun ops _ => ⟨_, Proof.FNV.run_0 64 ops _⟩
theorem C37_FNV32_0 : FNV.FNV32_0.DigestSize 4 := fun _ _ =>
  ⟨_, _, Proof.FNV.run_0 32 _ _, Proof.FNV.toArray_eq 32 0 _, toBE_length _ _⟩
theorem C37_FNV64_0 : FNV.FNV64_0.DigestSize 8 := fun _ _ =>
  ⟨_, _, Proof.FNV.run_0 64 _ _, Proof.FNV.toArray_eq 64 0 _, toBE_length _ _⟩

/-- C34: adding given data is a bijection of the hash values, for all six classes
(`v = 0, 1, 2` are FNV-0, FNV-1 and FNV-1a). -/
theorem C34_bijective_32 (v : Nat) (data : List Byte) :
    (∀ a b : W32, (FNV.FNVHash 32 v).addData a data = (FNV.FNVHash 32 v).addData b data → a = b) ∧
    (∀ c : W32, ∃ a, (FNV.FNVHash 32 v).addData a data = .ok c) := by
  refine ⟨fun a b h => Proof.FNV.fold_inj _ _ Proof.FNV.mul32 Proof.FNV.inv32_ok v data (Except.ok.inj h), fun c => ?_⟩
  obtain ⟨a, ha⟩ := Proof.FNV.fold_surj _ _ Proof.FNV.mul32 Proof.FNV.inv32_ok v data c
  exact ⟨a, congrArg Except.ok ha⟩
theorem C34_bijective_64 (v : Nat) (data : List Byte) :
    (∀ a b : W64, (FNV.FNVHash 64 v).addData a data = (FNV.FNVHash 64 v).addData b data → a = b) ∧
    (∀ c : W64, ∃ a, (FNV.FNVHash 64 v).addData a data = .ok c) := by
  refine ⟨fun a b h => Proof.FNV.fold_inj _ _ Proof.FNV.mul64 Proof.FNV.inv64_ok v data (Except.ok.inj h), fun c => ?_⟩
  obtain ⟨a, ha⟩ := Proof.FNV.fold_surj _ _ Proof.FNV.mul64 Proof.FNV.inv64_ok v data c
  exact ⟨a, congrArg Except.ok ha⟩

/-- C34: changing exactly one byte of a message always changes the hash, whatever surrounds it. -/
theorem C34_one_byte_32 (v : Nat) (hv : v ≤ 2) (before after : List Byte) (x y : Byte) (h : x ≠ y) :
    (FNV.FNVHash 32 v).digest [before ++ x :: after] ≠ (FNV.FNVHash 32 v).digest [before ++ y :: after] := by
  intro he
  have hd : ∀ m, (FNV.FNVHash 32 v).digest [m] =
      .ok (toBE 4 (m.foldl (FNV.body v) ((FNV.FNVHash 32 v).fresh)).toNat) :=
    fun m => Proof.FNV.toArray_eq 32 v _
  rw [hd, hd] at he
  have he := BitVec.eq_of_toNat_eq (toBE_inj (BitVec.isLt _) (BitVec.isLt _) (Except.ok.inj he))
  rw [List.foldl_append, List.foldl_append] at he
  exact h (Proof.FNV.body_octet (by decide) _ _ Proof.FNV.mul32 Proof.FNV.inv32_ok v hv _
    (Proof.FNV.fold_inj _ _ Proof.FNV.mul32 Proof.FNV.inv32_ok v after he))
theorem C34_one_byte_64 (v : Nat) (hv : v ≤ 2) (before after : List Byte) (x y : Byte) (h : x ≠ y) :
    (FNV.FNVHash 64 v).digest [before ++ x :: after] ≠ (FNV.FNVHash 64 v).digest [before ++ y :: after] := by
  intro he
  have hd : ∀ m, (FNV.FNVHash 64 v).digest [m] =
      .ok (toBE 8 (m.foldl (FNV.body v) ((FNV.FNVHash 64 v).fresh)).toNat) :=
    fun m => Proof.FNV.toArray_eq 64 v _
  rw [hd, hd] at he
  have he := BitVec.eq_of_toNat_eq (toBE_inj (BitVec.isLt _) (BitVec.isLt _) (Except.ok.inj he))
  rw [List.foldl_append, List.foldl_append] at he
  exact h (Proof.FNV.body_octet (by decide) _ _ Proof.FNV.mul64 Proof.FNV.inv64_ok v hv _
    (Proof.FNV.fold_inj _ _ Proof.FNV.mul64 Proof.FNV.inv64_ok v after he))

private theorem fnv_zeros {w : Nat} (v k : Nat) : (List.replicate k (0 : Byte)).foldl (FNV.body v) (0 : BitVec w) = 0 := by
  induction k with
  | zero => rfl
  | succ k ih =>
    rw [List.replicate_succ, List.foldl_cons]
    have h0 : FNV.body v (0 : BitVec w) 0 = 0 := by
      unfold FNV.body Model.FNV.multiplyPrime
      split <;> split <;> simp
    rw [h0, ih]

/-- Reversible is not enough: bytes that are zero leave the hash value zero as it is, so FNV-0 takes no notice of any
number of zero bytes at the beginning. -/
theorem C34_FNV32_0_zeros (k : Nat) (ops : List Op) :
    FNV.FNV32_0.run FNV.FNV32_0.fresh (.add (List.replicate k 0) :: ops) = FNV.FNV32_0.run FNV.FNV32_0.fresh ops := by
  show (Except.ok ((List.replicate k (0 : Byte)).foldl (FNV.body 0) (0 : W32))).bind (FNV.FNV32_0.run · ops) = _
  rw [fnv_zeros]
  rfl
theorem C34_FNV64_0_zeros (k : Nat) (ops : List Op) :
    FNV.FNV64_0.run FNV.FNV64_0.fresh (.add (List.replicate k 0) :: ops) = FNV.FNV64_0.run FNV.FNV64_0.fresh ops := by
  show (Except.ok ((List.replicate k (0 : Byte)).foldl (FNV.body 0) (0 : W64))).bind (FNV.FNV64_0.run · ops) = _
  rw [fnv_zeros]
  rfl
/-! Witnesses. -/
example : FNV.fnv1 FNV.prime32 0 [1, 2] = 0x01000191 ∧ everAdded [.add [1], .reset, .add [2]] = [1, 2] ∧
    message [.add [1], .reset, .add [2]] = [2] := by decide
example : Op.reset ∉ [Op.add [1, 2], .add [], .add [3]] := by decide
example : (1 : Byte) ≠ 2 ∧ (2 : Nat) ≤ 2 := by decide

example := C25_FNV32_0_partial [.add [1, 2], .add [], .add [3]] (by decide)
example := C25_FNV64_0_partial [.add [1, 2], .add [], .add [3]] (by decide)
example := C34_one_byte_32 2 (by decide) [7, 7] [8] 1 2 (by decide)
example := C34_one_byte_64 1 (by decide) [7, 7] [8] 1 2 (by decide)

end Verif.Props
