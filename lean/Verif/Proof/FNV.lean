import Verif.Proof.Regs
import Verif.Proof.Stream
import Verif.Model.FNV
import Verif.Spec.FNV

/-!
# Proofs about fnv.h
-/

namespace Verif.Proof.FNV
open Spec Model.FNV

theorem mul32 (h : W32) : multiplyPrime h = h * FNV.prime32 := rfl
theorem mul64 (h : W64) : multiplyPrime h = h * FNV.prime64 := rfl

theorem fold_1 {w : Nat} (p : BitVec w) (hp : ∀ h : BitVec w, multiplyPrime h = h * p) (v : Nat)
    (hv : v ≤ 1) (b : BitVec w) (m : List Byte) : m.foldl (body v) b = FNV.fnv1 p b m := by
  have : body (w := w) v = fun h o => h * p ^^^ o.setWidth w := by
    funext h o
    unfold body
    simp only [hv, if_true, hp, show v ≠ 2 by omega, if_false]
  rw [this]; rfl

theorem fold_1a {w : Nat} (p : BitVec w) (hp : ∀ h : BitVec w, multiplyPrime h = h * p)
    (b : BitVec w) (m : List Byte) : m.foldl (body 2) b = FNV.fnv1a p b m := by
  have : body (w := w) 2 = fun h o => (h ^^^ o.setWidth w) * p := by
    funext h o
    unfold body
    simp only [show ¬ (2 : Nat) ≤ 1 by omega, if_true, hp, if_false]
  rw [this]; rfl

theorem basis32_eq : FNV.basis32 = 0x811c9dc5 := by decide +kernel
theorem basis64_eq : FNV.basis64 = 0xcbf29ce484222325 := by decide +kernel

/-- reading the hash -/
theorem toArray_eq (w v : Nat) (h : BitVec w) :
    (FNVHash w v).toArray h = .ok (toBE (w / 8) h.toNat) := by
  show resultArray (w / 8) (storeBE (w / 8) h) = _
  rw [storeBE_eq]
  exact resultArray_exact _ _ (toBE_length _ _)

/-- Any variant whose `reset` forgets the old value. -/
def refinesOf (w v : Nat) (hr : ∀ h : BitVec w, reset v h = reset v 0) :
    Refines (FNVHash w v) (fun m => .ok (toBE (w / 8) (m.foldl (body v) (reset v 0 : BitVec w)).toNat)) where
  R := fun o m => o = m.foldl (body v) (reset v 0)
  F := fun o m => o = m.foldl (body v) (reset v 0)
  fresh := rfl
  add := fun o m d _ h => ⟨_, rfl, by rw [h, List.foldl_append]⟩
  fin := fun o m h => ⟨o, rfl, h⟩
  resetR := fun o _ _ => hr o
  resetF := fun o _ _ => hr o
  out := fun o m h => by rw [toArray_eq, h]

def refines32_1 : Refines FNV32_1 (fun m => .ok (toBE 4 (FNV.fnv1 FNV.prime32 FNV.basis32 m).toNat)) :=
  (refinesOf 32 1 fun _ => rfl).congr fun m => by rw [fold_1 _ mul32 1 (by decide), basis32_eq]; rfl
def refines32_1a : Refines FNV32_1a (fun m => .ok (toBE 4 (FNV.fnv1a FNV.prime32 FNV.basis32 m).toNat)) :=
  (refinesOf 32 2 fun _ => rfl).congr fun m => by rw [fold_1a _ mul32, basis32_eq]; rfl
def refines64_1 : Refines FNV64_1 (fun m => .ok (toBE 8 (FNV.fnv1 FNV.prime64 FNV.basis64 m).toNat)) :=
  (refinesOf 64 1 fun _ => rfl).congr fun m => by rw [fold_1 _ mul64 1 (by decide), basis64_eq]; rfl
def refines64_1a : Refines FNV64_1a (fun m => .ok (toBE 8 (FNV.fnv1a FNV.prime64 FNV.basis64 m).toNat)) :=
  (refinesOf 64 2 fun _ => rfl).congr fun m => by rw [fold_1a _ mul64, basis64_eq]; rfl

/-- All bytes ever added, resets notwithstanding. -/
def everAdded : List Op → List Byte
  | [] => []
  | .add d :: ops => d ++ everAdded ops
  | .reset :: ops => everAdded ops
  | .finalize :: ops => everAdded ops

/-- Variant 0, on any object and any history, legal or not. -/
theorem run_0 (w : Nat) (ops : List Op) (h : BitVec w) :
    (FNVHash w 0).run h ops = .ok ((everAdded ops).foldl (body 0) h) := by
  induction ops generalizing h with
  | nil => rfl
  | cons op ops ih =>
    cases op with
    | add d =>
      show (FNVHash w 0).run (d.foldl (body 0) h) ops = _
      rw [ih]; show _ = Except.ok ((d ++ everAdded ops).foldl (body 0) h)
      rw [List.foldl_append]
    | reset => exact ih h
    | finalize => exact ih h

theorem everAdded_append (a b : List Op) : everAdded (a ++ b) = everAdded a ++ everAdded b := by
  induction a with
  | nil => rfl
  | cons op ops ih => cases op <;> simp [everAdded, ih]

theorem message_noReset (ops : List Op) (h : Op.reset ∉ ops) (acc : List Byte) :
    messageFrom acc ops = acc ++ everAdded ops := by
  induction ops generalizing acc with
  | nil => simp [messageFrom, everAdded]
  | cons op ops ih =>
    have h' : Op.reset ∉ ops := fun hm => h (List.mem_cons_of_mem _ hm)
    cases op with
    | add d => simp [messageFrom, everAdded, ih h']
    | reset => exact absurd List.mem_cons_self h
    | finalize => simp [messageFrom, everAdded, ih h']

theorem everAdded_pieces (ps : List (List Byte)) : everAdded (ps.map .add ++ [.finalize]) = ps.flatten := by
  induction ps with
  | nil => rfl
  | cons p ps ih => simp [everAdded, ih]

theorem chunking_0 (w : Nat) : (FNVHash w 0).ChunkingIrrelevant := by
  intro ps qs _ _ h
  refine ⟨toBE (w / 8) (ps.flatten.foldl (body 0) ((FNVHash w 0).fresh)).toNat, ?_, ?_⟩
  rotate_left
  · unfold API.digest
    rw [run_0, everAdded_pieces, ← h]
    exact toArray_eq w 0 _
  · unfold API.digest
    rw [run_0, everAdded_pieces]
    exact toArray_eq w 0 _

/-! ### reversibility -/

theorem xor_cancel_left {w : Nat} {a b c : BitVec w} (h : a ^^^ b = a ^^^ c) : b = c := by
  have := congrArg (a ^^^ ·) h
  simpa [← BitVec.xor_assoc] using this

theorem xor_cancel_right {w : Nat} {a b c : BitVec w} (h : a ^^^ c = b ^^^ c) : a = b := by
  rw [BitVec.xor_comm a, BitVec.xor_comm b] at h
  exact xor_cancel_left h

/-- an odd multiplier can be cancelled -/
theorem mul_cancel {w : Nat} {p q : BitVec w} (hpq : p * q = 1) {a b : BitVec w} (h : a * p = b * p) :
    a = b := by
  have := congrArg (· * q) h
  simpa [BitVec.mul_assoc, hpq] using this

def inv32 : W32 := 0x359c449b
def inv64 : W64 := 0xce965057aff6957b

theorem inv32_ok : FNV.prime32 * inv32 = 1 := by decide
theorem inv64_ok : FNV.prime64 * inv64 = 1 := by decide

theorem body_inj {w : Nat} (p q : BitVec w) (hp : ∀ h : BitVec w, multiplyPrime h = h * p) (hpq : p * q = 1)
    (v : Nat) (x : Byte) {a b : BitVec w} (h : body v a x = body v b x) : a = b := by
  unfold body at h
  by_cases h1 : v ≤ 1
  · simp only [h1, if_true, show v ≠ 2 by omega, if_false, hp] at h
    exact mul_cancel hpq (xor_cancel_right h)
  · by_cases h2 : v = 2
    · simp only [h2, if_true, hp] at h
      exact xor_cancel_right (mul_cancel hpq (by simpa using h))
    · simpa [h1, h2] using h

theorem fold_inj {w : Nat} (p q : BitVec w) (hp : ∀ h : BitVec w, multiplyPrime h = h * p) (hpq : p * q = 1)
    (v : Nat) (d : List Byte) {a b : BitVec w} (h : d.foldl (body v) a = d.foldl (body v) b) : a = b := by
  induction d generalizing a b with
  | nil => exact h
  | cons x d ih => exact body_inj p q hp hpq v x (ih h)

/-- the value before an update can be computed from the value after it -/
def unbody {w : Nat} (q : BitVec w) (v : Nat) (h : BitVec w) (x : Byte) : BitVec w :=
  if v ≤ 1 then (h ^^^ x.setWidth w) * q else if v = 2 then h * q ^^^ x.setWidth w else h

theorem body_unbody {w : Nat} (p q : BitVec w) (hp : ∀ h : BitVec w, multiplyPrime h = h * p)
    (hpq : p * q = 1) (v : Nat) (x : Byte) (h : BitVec w) : body v (unbody q v h x) x = h := by
  have hqp : q * p = 1 := by rw [BitVec.mul_comm]; exact hpq
  unfold body unbody
  by_cases h1 : v ≤ 1
  · simp [h1, show v ≠ 2 by omega, hp, BitVec.mul_assoc, hqp, BitVec.xor_assoc]
  · by_cases h2 : v = 2
    · simp [h2, hp, BitVec.mul_assoc, hqp, BitVec.xor_assoc]
    · simp [h1, h2]

theorem fold_surj {w : Nat} (p q : BitVec w) (hp : ∀ h : BitVec w, multiplyPrime h = h * p) (hpq : p * q = 1)
    (v : Nat) (d : List Byte) (h : BitVec w) : ∃ a, d.foldl (body v) a = h := by
  induction d generalizing h with
  | nil => exact ⟨h, rfl⟩
  | cons x d ih =>
    obtain ⟨a, ha⟩ := ih h
    exact ⟨unbody q v a x, by rw [List.foldl_cons, body_unbody p q hp hpq]; exact ha⟩

/-- with the same value before, different octets give different values after -/
theorem body_octet {w : Nat} (hw : 8 ≤ w) (p q : BitVec w) (hp : ∀ h : BitVec w, multiplyPrime h = h * p)
    (hpq : p * q = 1) (v : Nat) (hv : v ≤ 2) (a : BitVec w) {x y : Byte} (h : body v a x = body v a y) :
    x = y := by
  have key : x.setWidth w = y.setWidth w := by
    unfold body at h
    by_cases h1 : v ≤ 1
    · simp only [h1, if_true, show v ≠ 2 by omega, if_false] at h
      exact xor_cancel_left h
    · have h2 : v = 2 := by omega
      simp only [h2, if_true, hp] at h
      exact xor_cancel_left (mul_cancel hpq (by simpa using h))
  have := congrArg BitVec.toNat key
  simp only [BitVec.toNat_setWidth] at this
  have hpow : 2 ^ 8 ≤ 2 ^ w := Nat.pow_le_pow_right (by decide) hw
  rw [Nat.mod_eq_of_lt (by omega), Nat.mod_eq_of_lt (by omega)] at this
  exact BitVec.eq_of_toNat_eq this

end Verif.Proof.FNV
