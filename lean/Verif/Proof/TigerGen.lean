import Verif.Proof.Tiger
import Verif.Proof.TigerGenRun

/-! The S-boxes of tiger.h are the generated ones. -/

namespace Verif.Proof.Tiger
open Model.Tiger Spec

theorem rep_of {t : Tree} {f : Nat → Tiger.Word} (hp : t.perfectB 8 = true)
    (h : ∀ i : Fin 256, t.get i.val = (f i.val).toNat) : Rep t f :=
  ⟨Tree.perfect_of_perfectB _ _ hp, fun i hi => h ⟨i, hi⟩⟩

theorem rep0 : RepG g0 (Tiger.S0, Tiger.init) :=
  ⟨rep_of (by decide +kernel) (by decide +kernel), rep_of (by decide +kernel) (by decide +kernel),
    rep_of (by decide +kernel) (by decide +kernel), rep_of (by decide +kernel) (by decide +kernel),
    by decide +kernel, by decide +kernel, by decide +kernel⟩

theorem range_chunks : List.range (5 * 256 * 4) =
    List.range' 0 512 ++ List.range' 512 512 ++ List.range' 1024 512 ++ List.range' 1536 512 ++ List.range' 2048 512 ++ List.range' 2560 512 ++ List.range' 3072 512 ++ List.range' 3584 512 ++ List.range' 4096 512 ++ List.range' 4608 512 := by
  rw [List.range_eq_range', show List.range' 0 512 ++ List.range' 512 512 = List.range' 0 1024
    from List.range'_append_1, show List.range' 0 1024 ++ List.range' 1024 512 = List.range' 0 1536
    from List.range'_append_1, show List.range' 0 1536 ++ List.range' 1536 512 = List.range' 0 2048
    from List.range'_append_1, show List.range' 0 2048 ++ List.range' 2048 512 = List.range' 0 2560
    from List.range'_append_1, show List.range' 0 2560 ++ List.range' 2560 512 = List.range' 0 3072
    from List.range'_append_1, show List.range' 0 3072 ++ List.range' 3072 512 = List.range' 0 3584
    from List.range'_append_1, show List.range' 0 3584 ++ List.range' 3584 512 = List.range' 0 4096
    from List.range'_append_1, show List.range' 0 4096 ++ List.range' 4096 512 = List.range' 0 4608
    from List.range'_append_1, show List.range' 0 4608 ++ List.range' 4608 512 = List.range' 0 5120
    from List.range'_append_1]

theorem rep10 : RepG g10 ((List.range (5 * 256 * 4)).foldl Tiger.genStep (Tiger.S0, Tiger.init)) := by
  rw [range_chunks]
  simp only [List.foldl_append]
  have h0 := rep0
  have h1 := run_rep sched_eq 512 0 _ _ h0
  rw [step0] at h1
  have h2 := run_rep sched_eq 512 512 _ _ h1
  rw [step1] at h2
  have h3 := run_rep sched_eq 512 1024 _ _ h2
  rw [step2] at h3
  have h4 := run_rep sched_eq 512 1536 _ _ h3
  rw [step3] at h4
  have h5 := run_rep sched_eq 512 2048 _ _ h4
  rw [step4] at h5
  have h6 := run_rep sched_eq 512 2560 _ _ h5
  rw [step5] at h6
  have h7 := run_rep sched_eq 512 3072 _ _ h6
  rw [step6] at h7
  have h8 := run_rep sched_eq 512 3584 _ _ h7
  rw [step7] at h8
  have h9 := run_rep sched_eq 512 4096 _ _ h8
  rw [step8] at h9
  have h10 := run_rep sched_eq 512 4608 _ _ h9
  rw [step9] at h10
  exact h10

/-- the last tree is the code's table -/
theorem g10_0_eq : ∀ i : Fin 256, g10_0.get i.val = tTable0[i.val].toNat := by decide +kernel
theorem g10_1_eq : ∀ i : Fin 256, g10_1.get i.val = tTable1[i.val].toNat := by decide +kernel
theorem g10_2_eq : ∀ i : Fin 256, g10_2.get i.val = tTable2[i.val].toNat := by decide +kernel
theorem g10_3_eq : ∀ i : Fin 256, g10_3.get i.val = tTable3[i.val].toNat := by decide +kernel

theorem codeS_eq (k i : Nat) (hk : k < 4) (hi : i < 256) : codeS k i = Tiger.S k i := by
  obtain ⟨h0, h1, h2, h3, -⟩ := rep10
  apply BitVec.eq_of_toNat_eq
  match k, hk with
  | 0, _ =>
    simp only [codeS, Nat.mod_eq_of_lt hi]
    exact (g10_0_eq ⟨i, hi⟩).symm.trans (h0.2 i hi)
  | 1, _ =>
    simp only [codeS, Nat.mod_eq_of_lt hi]
    exact (g10_1_eq ⟨i, hi⟩).symm.trans (h1.2 i hi)
  | 2, _ =>
    simp only [codeS, Nat.mod_eq_of_lt hi]
    exact (g10_2_eq ⟨i, hi⟩).symm.trans (h2.2 i hi)
  | 3, _ =>
    simp only [codeS, Nat.mod_eq_of_lt hi]
    exact (g10_3_eq ⟨i, hi⟩).symm.trans (h3.2 i hi)

theorem round_congr (q : Tiger.State) (x mul : W64) :
    Tiger.round codeS q x mul = Tiger.round Tiger.S q x mul := by
  have e (k n : Nat) (c : W64) (hk : k < 4) : codeS k (Tiger.byte c n) = Tiger.S k (Tiger.byte c n) :=
    codeS_eq k _ hk (byte_lt c n)
  simp only [Tiger.round, e 0 _ _ (by decide), e 1 _ _ (by decide), e 2 _ _ (by decide),
    e 3 _ _ (by decide)]

theorem compress_congr : Tiger.compress codeS = Tiger.compress Tiger.S := by
  funext q b
  simp only [Tiger.compress, Tiger.pass, round_congr]

theorem hash_congr (f : Byte) (M : List Byte) : Tiger.hash codeS f M = Tiger.hash Tiger.S f M := by
  simp only [Tiger.hash, compress_congr]

def r1 : Refines (Tiger 1 192) (fun m => .ok (Tiger.tiger m)) :=
  r1'.congr fun m => by rw [hash_congr]; rfl

def r2 : Refines (Tiger 2 192) (fun m => .ok (Tiger.tiger2 m)) :=
  r2'.congr fun m => by rw [hash_congr]; rfl

end Verif.Proof.Tiger
