import Verif.Proof.CRC32Order

/-!
# Three flipped bits

The register started with a single bit goes through 91638 further values before two of them differ in bit 0 alone. The
kernel evaluates the sequence and sorts it (`many`), a part for each value of bits 1, 2 and 3. The definitions use the
recursors and the built-in operations on natural numbers only, because the kernel is quick at them.
-/

namespace Verif.Proof.CRC32
open Spec Spec.CRC32

/-! ### merging -/

noncomputable def merge (xs : List Nat) : List Nat → List Nat :=
  List.rec (fun ys => ys) (fun x xs ihx ys =>
    List.rec (x :: xs) (fun y ys' ihy => cond (Nat.ble x y) (x :: ihx (y :: ys')) (y :: ihy)) ys) xs

theorem merge_nil (ys : List Nat) : merge [] ys = ys := rfl
theorem merge_cons_nil (x : Nat) (xs : List Nat) : merge (x :: xs) [] = x :: xs := rfl
theorem merge_cons_cons (x : Nat) (xs : List Nat) (y : Nat) (ys : List Nat) : merge (x :: xs) (y :: ys) =
    cond (Nat.ble x y) (x :: merge xs (y :: ys)) (y :: merge (x :: xs) ys) := rfl

theorem merge_perm (xs ys : List Nat) : (merge xs ys).Perm (xs ++ ys) := by
  induction xs generalizing ys with
  | nil => exact .refl _
  | cons x xs ihx =>
    induction ys with
    | nil => rw [merge_cons_nil, List.append_nil]
    | cons y ys ihy =>
      rw [merge_cons_cons]
      cases Nat.ble x y with
      | true => exact .cons x (ihx _)
      | false => exact (List.Perm.cons y ihy).trans List.perm_middle.symm

/-! ### the sequence -/

structure Run where
  (v : Nat) (acc : List Nat)

noncomputable def zN (v : Nat) : Nat := Nat.xor (Nat.shiftRight v 1) (Nat.mul (Nat.land v 1) 0xEDB88320)

/-- One step from `v`. The list holds the predecessor of the new value if its bits 1, 2 and 3 are `c`. -/
noncomputable def one (c v : Nat) : Run :=
  Nat.rec ⟨0, []⟩ (fun p _ =>
    cond (Nat.beq (Nat.land (Nat.shiftRight (Nat.succ p) 1) 7) c) ⟨Nat.succ p, [p]⟩ ⟨Nat.succ p, []⟩) (zN v)

/-- `2 ^ k` steps from `v` -/
noncomputable def many (c k : Nat) : Nat → Run :=
  Nat.rec (one c) (fun _ ih v => Run.rec (fun v a => Run.rec (fun v b => ⟨v, merge a b⟩) (ih v)) (ih v)) k

/-- the powers of two in `ks` one after the other -/
noncomputable def chain (c : Nat) (ks : List Nat) : Nat → List Nat :=
  List.rec (fun _ => []) (fun k _ ih v => Run.rec (fun v a => merge a (ih v)) (many c k v)) ks

/-- The successors of the elements, without their bit 0, increase and are above `prev`. -/
noncomputable def asc (l : List Nat) : Nat → Bool :=
  List.rec (fun _ => true) (fun x _ ih prev =>
    cond (Nat.ble (Nat.succ prev) (Nat.shiftRight (Nat.succ x) 1)) (ih (Nat.shiftRight (Nat.succ x) 1)) false) l

def ks : List Nat := [16, 14, 13, 10, 8, 7, 6, 5, 4, 2, 1]

noncomputable def check (c : Nat) : Bool := asc (chain c ks 1) 0

theorem zN_eq (x : W32) : zN x.toNat = (z x).toNat := by
  rw [z_eq, BitVec.toNat_xor, BitVec.toNat_ushiftRight]
  show (x.toNat >>> 1) ^^^ ((x.toNat &&& 1) * 0xEDB88320) = _
  rw [Nat.and_one_is_mod]
  congr 1
  have h : x.getLsbD 0 = decide (x.toNat % 2 = 1) := by
    show x.toNat.testBit 0 = _
    rw [Nat.testBit_zero]
  rw [h]
  have : x.toNat % 2 = 0 ∨ x.toNat % 2 = 1 := by omega
  rcases this with h | h <;> simp [h] <;> rfl

/-- the next `n` values -/
def vals : Nat → W32 → List Nat
  | 0, _ => []
  | n + 1, x => (z x).toNat :: vals n (z x)

theorem vals_add (m n : Nat) (x : W32) : vals (m + n) x = vals m x ++ vals n (zn m x) := by
  induction m generalizing x with
  | zero => simp [vals, zn]
  | succ m ih => rw [Nat.succ_add]; simp only [vals, ih, zn, List.cons_append]

/-- those whose bits 1, 2 and 3 are `c` -/
def sel (c : Nat) (v : Nat) : Bool := Nat.beq ((v >>> 1) &&& 7) c

theorem one_eq (c : Nat) (x : W32) (h : x ≠ 0) :
    (one c x.toNat).v = (z x).toNat ∧ (one c x.toNat).acc.map Nat.succ = (vals 1 x).filter (sel c) := by
  have hz : (z x).toNat ≠ 0 := by
    intro h0
    exact h (z_ker x (BitVec.eq_of_toNat_eq h0))
  obtain ⟨p, hp⟩ := Nat.exists_eq_succ_of_ne_zero hz
  unfold one
  rw [zN_eq, vals, vals, hp, List.filter_cons, List.filter_nil]
  have e : Nat.beq (Nat.land (Nat.shiftRight (Nat.succ p) 1) 7) c = sel c (Nat.succ p) := rfl
  simp only [e]
  cases sel c (Nat.succ p) with
  | true => exact ⟨rfl, rfl⟩
  | false => exact ⟨rfl, rfl⟩

theorem zn_ne (n : Nat) (x : W32) (h : x ≠ 0) : zn n x ≠ 0 := fun h0 => h (zn_ker n x h0)

theorem many_eq (c k : Nat) (x : W32) (h : x ≠ 0) :
    (many c k x.toNat).v = (zn (2 ^ k) x).toNat ∧
      ((many c k x.toNat).acc.map Nat.succ).Perm ((vals (2 ^ k) x).filter (sel c)) := by
  induction k generalizing x with
  | zero =>
    have := one_eq c x h
    exact ⟨this.1, this.2 ▸ .refl _⟩
  | succ k ih =>
    have e : many c (k + 1) x.toNat =
        ⟨(many c k (many c k x.toNat).v).v, merge (many c k x.toNat).acc (many c k (many c k x.toNat).v).acc⟩ := rfl
    obtain ⟨h1, p1⟩ := ih x h
    obtain ⟨h2, p2⟩ := ih (zn (2 ^ k) x) (zn_ne _ _ h)
    rw [e, h1]
    refine ⟨?_, ?_⟩
    · rw [h2, Nat.pow_succ, Nat.mul_two, zn_add]
    · rw [Nat.pow_succ, Nat.mul_two, vals_add, List.filter_append]
      refine ((merge_perm _ _).map _).trans ?_
      rw [List.map_append]
      exact p1.append p2

theorem chain_eq (c : Nat) (l : List Nat) (x : W32) (h : x ≠ 0) :
    ((chain c l x.toNat).map Nat.succ).Perm ((vals (l.map (2 ^ ·)).sum x).filter (sel c)) := by
  induction l generalizing x with
  | nil => exact .refl _
  | cons k l ih =>
    have e : chain c (k :: l) x.toNat = merge (many c k x.toNat).acc (chain c l (many c k x.toNat).v) := rfl
    obtain ⟨h1, p1⟩ := many_eq c k x h
    rw [e, h1, List.map_cons, List.sum_cons, vals_add, List.filter_append]
    refine ((merge_perm _ _).map _).trans ?_
    rw [List.map_append]
    exact p1.append (ih _ (zn_ne _ _ h))

theorem asc_eq (l : List Nat) (prev : Nat) (h : asc l prev = true) :
    (l.map fun x => Nat.succ x >>> 1).Pairwise (· < ·) ∧ ∀ x ∈ l, prev < Nat.succ x >>> 1 := by
  induction l generalizing prev with
  | nil => exact ⟨.nil, fun _ h => (nomatch h)⟩
  | cons x l ih =>
    have h' : cond (Nat.ble (Nat.succ prev) (Nat.succ x >>> 1)) (asc l (Nat.succ x >>> 1)) false = true := h
    cases hb : Nat.ble (Nat.succ prev) (Nat.succ x >>> 1) with
    | false => rw [hb] at h'; cases h'
    | true =>
      rw [hb] at h'
      have hlt : prev < Nat.succ x >>> 1 := Nat.le_of_ble_eq_true hb
      obtain ⟨i1, i2⟩ := ih _ h'
      refine ⟨?_, ?_⟩
      · rw [List.map_cons, List.pairwise_cons]
        refine ⟨?_, i1⟩
        intro y hy
        obtain ⟨w, hw, rfl⟩ := List.mem_map.mp hy
        exact i2 w hw
      · intro w hw
        rcases List.mem_cons.mp hw with rfl | hw
        · exact hlt
        · exact Nat.lt_trans hlt (i2 w hw)

/-- what a check that came out well says -/
theorem check_eq (c : Nat) (h : check c = true) :
    ((vals 91638 1).filter (sel c)).Pairwise fun a b => a >>> 1 ≠ b >>> 1 := by
  have h1 := (asc_eq _ _ h).1
  have h2 := chain_eq c ks 1 (by decide)
  rw [show (ks.map (2 ^ ·)).sum = 91638 by decide] at h2
  have h3 : ((chain c ks 1).map Nat.succ).Pairwise fun a b => a >>> 1 ≠ b >>> 1 := by
    rw [List.pairwise_map] at h1 ⊢
    exact h1.imp fun h => Nat.ne_of_lt h
  exact h3.perm h2 (fun h => Ne.symm h)

theorem vals_getElem (n : Nat) (x : W32) (i : Nat) (h : i < (vals n x).length) : (vals n x)[i] = (zn (i + 1) x).toNat := by
  induction n generalizing x i with
  | zero => simp [vals] at h
  | succ n ih =>
    cases i with
    | zero => rfl
    | succ i => simp only [vals, List.getElem_cons_succ]; rw [ih]; rfl

theorem vals_length (n : Nat) (x : W32) : (vals n x).length = n := by
  induction n generalizing x with
  | zero => rfl
  | succ n ih => simp [vals, ih]

/-- no two of the values differ in bit 0 alone -/
theorem no_trinomial (h : ∀ c : Fin 8, check c = true) (i j : Nat) (hi : 0 < i) (hij : i < j) (hj : j < 91639) :
    zn i 1 ^^^ zn j 1 ≠ 1 := by
  intro he
  have hs : (zn i 1).toNat >>> 1 = (zn j 1).toNat >>> 1 := by
    have : zn i 1 = 1 ^^^ zn j 1 := by
      have := congrArg (· ^^^ zn j 1) he
      simpa [BitVec.xor_assoc] using this
    rw [this, BitVec.toNat_xor, Nat.shiftRight_xor_distrib]
    show 0 ^^^ _ = _
    rw [Nat.zero_xor]
  have hc : ((zn i 1).toNat >>> 1) &&& 7 < 8 := Nat.lt_of_le_of_lt Nat.and_le_right (by decide)
  have hp := check_eq _ (h ⟨_, hc⟩)
  rw [List.pairwise_filter] at hp
  have hp := List.pairwise_iff_getElem.mp hp (i - 1) (j - 1) (by rw [vals_length]; omega) (by rw [vals_length]; omega) (by omega)
  rw [vals_getElem, vals_getElem, Nat.sub_add_cancel hi, Nat.sub_add_cancel (by omega)] at hp
  refine hp ?_ ?_ hs
  · exact Nat.beq_refl _
  · show Nat.beq _ _ = true
    rw [← hs]; exact Nat.beq_refl _

end Verif.Proof.CRC32
