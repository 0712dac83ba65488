import Verif.Proof.FNV
import Verif.Proof.Num
import Mathlib.Dynamics.PeriodicPts.Lemmas

/-!
# Which FNV values can be reached

A step with a given octet is a permutation of a finite set, so its inverse is a repetition of the step. Hence an
octet can be exclusive-ored into the low byte without multiplying; from a multiple `256 y` of 256 one gets to
`256 (y + u)`, where `256 u` is the prime without its low byte; and `u` is odd.
-/

namespace Verif.Proof.FNV
open Spec Model.FNV

variable {w : Nat}

theorem mul_1 (x : BitVec w) : x * 1 = x := BitVec.mul_one x

/-- Some octets lead from `s` to `t`. -/
def Reach (v : Nat) (s t : BitVec w) : Prop := ∃ m : List Byte, m.foldl (body v) s = t

theorem Reach.refl (v : Nat) (s : BitVec w) : Reach v s s := ⟨[], rfl⟩

theorem Reach.trans {v : Nat} {a b c : BitVec w} (h : Reach v a b) (h' : Reach v b c) : Reach v a c := by
  obtain ⟨m, rfl⟩ := h
  obtain ⟨m', rfl⟩ := h'
  exact ⟨m ++ m', List.foldl_append⟩

theorem Reach.step (v : Nat) (s : BitVec w) (x : Byte) : Reach v s (body v s x) := ⟨[x], rfl⟩

theorem fold_replicate (v n : Nat) (x : Byte) (s : BitVec w) :
    (List.replicate n x).foldl (body v) s = (fun h => body v h x)^[n] s := by
  induction n generalizing s with
  | zero => rfl
  | succ n ih => rw [List.replicate_succ, List.foldl_cons, ih]; rfl

/-- A step can be undone by further octets. -/
theorem Reach.back (p q : BitVec w) (hp : ∀ h : BitVec w, multiplyPrime h = h * p) (hpq : p * q = 1) (v : Nat)
    (s : BitVec w) (x : Byte) : Reach v (body v s x) s := by
  have hf : Function.Injective (fun h : BitVec w => body v h x) := fun a b h => body_inj p q hp hpq v x h
  have : Finite (BitVec w) := Finite.of_injective BitVec.toFin (fun a b h => by
    cases a; cases b; exact congrArg BitVec.ofFin h)
  obtain ⟨n, hn, h⟩ := hf.mem_periodicPts s
  obtain ⟨k, rfl⟩ : ∃ k, n = k + 1 := ⟨n - 1, by omega⟩
  refine ⟨List.replicate k x, ?_⟩
  rw [fold_replicate]
  exact h

theorem body_1 (p : BitVec w) (hp : ∀ h : BitVec w, multiplyPrime h = h * p) (v : Nat) (hv : v ≤ 1) (h : BitVec w) (x : Byte) :
    body v h x = h * p ^^^ x.setWidth w := by
  unfold body
  simp only [hv, if_true, hp, show v ≠ 2 by omega, if_false]

theorem body_2 (p : BitVec w) (hp : ∀ h : BitVec w, multiplyPrime h = h * p) (h : BitVec w) (x : Byte) :
    body 2 h x = (h ^^^ x.setWidth w) * p := by
  unfold body
  simp only [show ¬ (2 : Nat) ≤ 1 by omega, if_true, hp, if_false]

theorem xor_zero_byte (h : BitVec w) : h ^^^ (0 : Byte).setWidth w = h := by
  rw [show (0 : Byte).setWidth w = 0#w from BitVec.setWidth_zero .., BitVec.xor_zero]

/-- multiplying by the prime -/
theorem Reach.mul (p : BitVec w) (hp : ∀ h : BitVec w, multiplyPrime h = h * p) (v : Nat) (hv : v ≤ 2)
    (s : BitVec w) : Reach v s (s * p) := by
  refine ⟨[0], ?_⟩
  show body v s 0 = _
  by_cases h : v ≤ 1
  · rw [body_1 p hp v h, xor_zero_byte]
  · obtain rfl : v = 2 := by omega
    rw [body_2 p hp, xor_zero_byte]

/-- dividing by it -/
theorem Reach.div (p q : BitVec w) (hp : ∀ h : BitVec w, multiplyPrime h = h * p) (hpq : p * q = 1) (v : Nat) (hv : v ≤ 2)
    (s : BitVec w) : Reach v s (s * q) := by
  have hb : body v (s * q) 0 = s := by
    have e : s * q * p = s := by rw [BitVec.mul_assoc, BitVec.mul_comm q, hpq, mul_1]
    by_cases h : v ≤ 1
    · rw [body_1 p hp v h, xor_zero_byte, e]
    · obtain rfl : v = 2 := by omega
      rw [body_2 p hp, xor_zero_byte, e]
  have := Reach.back p q hp hpq v (s * q) 0
  rwa [hb] at this

/-- changing the low byte -/
theorem Reach.xor (p q : BitVec w) (hp : ∀ h : BitVec w, multiplyPrime h = h * p) (hpq : p * q = 1) (v : Nat) (hv : v ≤ 2)
    (s : BitVec w) (x : Byte) : Reach v s (s ^^^ x.setWidth w) := by
  by_cases h : v ≤ 1
  · refine (Reach.div p q hp hpq v hv s).trans ?_
    have := Reach.step v (s * q) x
    rwa [body_1 p hp v h, BitVec.mul_assoc, BitVec.mul_comm q, hpq, mul_1] at this
  · obtain rfl : v = 2 := by omega
    refine (Reach.step 2 s x).trans ?_
    rw [body_2 p hp]
    have := Reach.div p q hp hpq 2 hv ((s ^^^ x.setWidth w) * p)
    rwa [BitVec.mul_assoc, hpq, mul_1] at this

/-- a low byte is added by exclusive-or if there was none -/
theorem add_low (y : BitVec w) (x : Byte) : (y <<< 8) ^^^ x.setWidth w = (y <<< 8) + x.setWidth w := by
  have hd : (y <<< 8) &&& x.setWidth w = 0#w := by
    apply BitVec.eq_of_getLsbD_eq
    intro i hi
    rw [BitVec.getLsbD_and, BitVec.getLsbD_shiftLeft, BitVec.getLsbD_setWidth, BitVec.getLsbD_zero]
    by_cases h : i < 8
    · simp [h]
    · simp [BitVec.getLsbD_of_ge x i (by omega)]
  rw [BitVec.add_eq_or_of_and_eq_zero _ _ hd]
  apply BitVec.eq_of_getLsbD_eq
  intro i hi
  have := congrArg (·.getLsbD i) hd
  simp only [BitVec.getLsbD_and, BitVec.getLsbD_zero] at this
  rw [BitVec.getLsbD_xor, BitVec.getLsbD_or]
  revert this
  cases (y <<< 8).getLsbD i <;> cases (x.setWidth w).getLsbD i <;> simp

theorem split_low (s : BitVec w) : s = ((s >>> 8) <<< 8) ^^^ (s.setWidth 8).setWidth w := by
  apply BitVec.eq_of_getLsbD_eq
  intro i hi
  rw [BitVec.getLsbD_xor, BitVec.getLsbD_shiftLeft, BitVec.getLsbD_ushiftRight, BitVec.getLsbD_setWidth, BitVec.getLsbD_setWidth]
  by_cases h : i < 8
  · simp [h, hi]
  · simp [h, hi, show 8 + (i - 8) = i by omega]

/-- from `256 y` to `256 (y + u)` -/
theorem Reach.next (p q u : BitVec w) (l : Byte) (hp : ∀ h : BitVec w, multiplyPrime h = h * p) (hpq : p * q = 1)
    (hu : p = (u <<< 8) + l.setWidth w) (h1 : (1 : Byte).setWidth w = 1#w) (v : Nat) (hv : v ≤ 2) (y : BitVec w) :
    Reach v (y <<< 8) ((y + u) <<< 8) := by
  have e : (y <<< 8) * q = (y * q) <<< 8 := by
    rw [BitVec.shiftLeft_eq_mul_twoPow, BitVec.shiftLeft_eq_mul_twoPow, BitVec.mul_assoc, BitVec.mul_assoc,
      BitVec.mul_comm (BitVec.twoPow w 8)]
  have s1 := Reach.div p q hp hpq v hv (y <<< 8)
  have s2 := Reach.xor p q hp hpq v hv ((y <<< 8) * q) 1
  have s3 := Reach.mul p hp v hv ((y <<< 8) * q ^^^ (1 : Byte).setWidth w)
  have e3 : ((y <<< 8) * q ^^^ (1 : Byte).setWidth w) * p = ((y + u) <<< 8) ^^^ l.setWidth w := by
    rw [add_low]
    conv => lhs; rw [e, add_low, h1, ← e]
    have : (y + u) <<< 8 = (y <<< 8) + (u <<< 8) := by
      rw [BitVec.shiftLeft_eq_mul_twoPow, BitVec.shiftLeft_eq_mul_twoPow, BitVec.shiftLeft_eq_mul_twoPow, BitVec.add_mul]
    rw [this, BitVec.add_mul, BitVec.mul_assoc, BitVec.mul_comm q, hpq, mul_1, BitVec.one_mul, BitVec.add_assoc, ← hu]
  rw [e3] at s3
  have s4 := Reach.xor p q hp hpq v hv (((y + u) <<< 8) ^^^ l.setWidth w) l
  rw [BitVec.xor_assoc, BitVec.xor_self, BitVec.xor_zero] at s4
  exact s1.trans (s2.trans (s3.trans s4))

theorem Reach.nexts (p q u : BitVec w) (l : Byte) (hp : ∀ h : BitVec w, multiplyPrime h = h * p) (hpq : p * q = 1)
    (hu : p = (u <<< 8) + l.setWidth w) (h1 : (1 : Byte).setWidth w = 1#w) (v : Nat) (hv : v ≤ 2) (k : Nat) (y : BitVec w) :
    Reach v (y <<< 8) ((y + BitVec.ofNat w k * u) <<< 8) := by
  induction k with
  | zero => rw [show BitVec.ofNat w 0 = 0#w from rfl, BitVec.zero_mul, BitVec.add_zero]; exact .refl _ _
  | succ k ih =>
    have := ih.trans (Reach.next p q u l hp hpq hu h1 v hv _)
    rwa [BitVec.add_assoc, show BitVec.ofNat w k * u + u = BitVec.ofNat w (k + 1) * u by
      rw [BitVec.ofNat_add, BitVec.add_mul]; congr 1; exact (BitVec.one_mul u).symm] at this

/-- every value from every other -/
theorem Reach.all (p q u e : BitVec w) (l : Byte) (hp : ∀ h : BitVec w, multiplyPrime h = h * p) (hpq : p * q = 1)
    (hu : p = (u <<< 8) + l.setWidth w) (h1 : (1 : Byte).setWidth w = 1#w) (he : e * u = 1) (v : Nat) (hv : v ≤ 2)
    (s t : BitVec w) : Reach v s t := by
  have a := Reach.xor p q hp hpq v hv s (s.setWidth 8)
  have ea : s ^^^ (s.setWidth 8).setWidth w = (s >>> 8) <<< 8 := by
    conv => lhs; lhs; rw [split_low s]
    rw [BitVec.xor_assoc, BitVec.xor_self, BitVec.xor_zero]
  rw [ea] at a
  have b := Reach.nexts p q u l hp hpq hu h1 v hv (((t >>> 8) - (s >>> 8)) * e).toNat (s >>> 8)
  rw [BitVec.ofNat_toNat, BitVec.setWidth_eq, BitVec.mul_assoc, he, mul_1, BitVec.add_comm, BitVec.sub_add_cancel] at b
  have c := Reach.xor p q hp hpq v hv ((t >>> 8) <<< 8) (t.setWidth 8)
  rw [← split_low] at c
  exact a.trans (b.trans c)

theorem reach32 (v : Nat) (hv : v ≤ 2) (s t : W32) : Reach v s t :=
  Reach.all FNV.prime32 inv32 65537 4294901761 0x93 mul32 inv32_ok (by decide) (by decide) (by decide) v hv s t

theorem reach64 (v : Nat) (hv : v ≤ 2) (s t : W64) : Reach v s t :=
  Reach.all FNV.prime64 inv64 4294967297 18446744069414584321 0xb3 mul64 inv64_ok (by decide) (by decide) (by decide) v hv s t

theorem ofLE_lt (l : List Byte) : ofLE l < 256 ^ l.length := by
  induction l with
  | nil => simp [ofLE]
  | cons b l ih => rw [ofLE, List.length_cons, Nat.pow_succ]; have := b.isLt; omega

theorem toLE_ofLE (l : List Byte) : toLE l.length (ofLE l) = l := by
  induction l with
  | nil => rfl
  | cons b l ih =>
    have hb := b.isLt
    rw [List.length_cons, toLE, ofLE, show (b.toNat + 256 * ofLE l) / 256 = ofLE l by omega, ih]
    congr 1
    apply BitVec.eq_of_toNat_eq
    rw [BitVec.toNat_ofNat]
    omega

theorem ofBE_lt (l : List Byte) : ofBE l < 256 ^ l.length := by
  rw [ofBE_eq, ← List.length_reverse]
  exact ofLE_lt _

theorem toBE_ofBE (l : List Byte) : toBE l.length (ofBE l) = l := by
  rw [toBE, ofBE_eq, ← List.length_reverse, toLE_ofLE, List.reverse_reverse]

end Verif.Proof.FNV
