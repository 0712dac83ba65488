import Verif.Proof.CRC32Four

/-!
# Five flipped bits

The register started with a single bit takes 299 further values. No two sums of two of them differ in bit 0 alone. The
kernel evaluates the sums and sorts them, a part for each value of bits 1, 2 and 3.
-/

namespace Verif.Proof.CRC32
open Spec Spec.CRC32

/-- the next `n` values after `v` whose bits 1, 2 and 3 are `c` -/
noncomputable def runN (c n : Nat) : Nat → List Nat :=
  Nat.rec (fun _ => []) (fun _ ih v => force (zN v) fun w =>
    cond (Nat.beq (Nat.land (Nat.shiftRight w 1) 7) c) (w :: ih w) (ih w)) n

/-- the sums of two values among `n + 1`, where `u` is the first of them -/
noncomputable def sumsN (c n : Nat) : Nat → List Nat :=
  Nat.rec (fun _ => []) (fun r ih u => runN c (Nat.succ r) (Nat.xor u 1) ++ force (zN u) ih) n

/-- The elements, without their bit 0, increase and are above `prev`. -/
noncomputable def asc2 (l : List Nat) : Nat → Bool :=
  List.rec (fun _ => true) (fun x _ ih prev =>
    cond (Nat.ble (Nat.succ prev) (Nat.shiftRight x 1)) (ih (Nat.shiftRight x 1)) false) l

noncomputable def fiveOk (c : Nat) : Bool :=
  Sorted.rec (fun a r => List.rec (asc2 a 0) (fun _ _ _ => false) r) (msort 14 (sumsN c 298 (zN 1)))

theorem runN_mem (c n i : Nat) (x : W32) (h0 : 0 < i) (hi : i ≤ n) (hc : ((zn i x).toNat >>> 1) &&& 7 = c) :
    (zn i x).toNat ∈ runN c n x.toNat := by
  induction n generalizing i x with
  | zero => omega
  | succ n ih =>
    have e : runN c (n + 1) x.toNat = cond (Nat.beq (((z x).toNat >>> 1) &&& 7) c) ((z x).toNat :: runN c n (z x).toNat)
        (runN c n (z x).toNat) := by
      show force (zN x.toNat) (fun w => cond (Nat.beq ((w >>> 1) &&& 7) c) (w :: runN c n w) (runN c n w)) = _
      rw [force_eq, zN_eq]
    rw [e]
    obtain ⟨i, rfl⟩ : ∃ k, i = k + 1 := ⟨i - 1, by omega⟩
    have hs : zn (i + 1) x = zn i (z x) := rfl
    rw [hs] at hc ⊢
    cases i with
    | zero =>
      rw [show zn 0 (z x) = z x from rfl] at hc ⊢
      rw [hc, Nat.beq_refl]
      exact List.mem_cons_self
    | succ i =>
      have := ih (i + 1) (z x) (by omega) (by omega) hc
      cases Nat.beq (((z x).toNat >>> 1) &&& 7) c with
      | false => exact this
      | true => exact List.mem_cons_of_mem _ this

theorem sumsN_mem (c n g i t : Nat) (hg : t ≤ g) (h0 : 0 < i) (hi : i + g < n + t + 1)
    (hc : ((zn i (zn g 1 ^^^ 1)).toNat >>> 1) &&& 7 = c) :
    (zn i (zn g 1 ^^^ 1)).toNat ∈ sumsN c n (zn t 1).toNat := by
  induction n generalizing t with
  | zero => omega
  | succ n ih =>
    have e : sumsN c (n + 1) (zn t 1).toNat = runN c (n + 1) (zn t 1 ^^^ 1).toNat ++ sumsN c n (zn (t + 1) 1).toNat := by
      show runN c (n + 1) (Nat.xor (zn t 1).toNat 1) ++ force (zN (zn t 1).toNat) _ = _
      rw [force_eq, zN_eq, zn_add t 1, BitVec.toNat_xor]
      rfl
    rw [e]
    by_cases ht : t = g
    · subst ht
      exact List.mem_append_left _ (runN_mem c (n + 1) i _ h0 (by omega) hc)
    · exact List.mem_append_right _ (ih (t + 1) (by omega) (by omega))

theorem asc2_eq (l : List Nat) (prev : Nat) (h : asc2 l prev = true) :
    l.Pairwise (fun x y => x >>> 1 < y >>> 1) ∧ ∀ x ∈ l, prev < x >>> 1 := by
  induction l generalizing prev with
  | nil => exact ⟨.nil, fun _ h => (nomatch h)⟩
  | cons x l ih =>
    have h' : cond (Nat.ble (Nat.succ prev) (x >>> 1)) (asc2 l (x >>> 1)) false = true := h
    cases hb : Nat.ble (Nat.succ prev) (x >>> 1) with
    | false => rw [hb] at h'; cases h'
    | true =>
      rw [hb] at h'
      have hlt : prev < x >>> 1 := Nat.le_of_ble_eq_true hb
      obtain ⟨i1, i2⟩ := ih _ h'
      refine ⟨List.pairwise_cons.mpr ⟨i2, i1⟩, ?_⟩
      intro w hw
      rcases List.mem_cons.mp hw with rfl | hw
      · exact hlt
      · exact Nat.lt_trans hlt (i2 w hw)

theorem asc2_inj (l : List Nat) (h : l.Pairwise (fun x y => x >>> 1 < y >>> 1)) (x y : Nat) (hx : x ∈ l) (hy : y ∈ l)
    (he : x >>> 1 = y >>> 1) : x = y := by
  induction l with
  | nil => nomatch hx
  | cons w t ih =>
    obtain ⟨h1, h2⟩ := List.pairwise_cons.mp h
    rcases List.mem_cons.mp hx with hxw | hx
    · rcases List.mem_cons.mp hy with hyw | hy
      · rw [hxw, hyw]
      · have := h1 y hy
        rw [← hxw] at this
        omega
    · rcases List.mem_cons.mp hy with hyw | hy
      · have := h1 x hx
        rw [← hyw] at this
        omega
      · exact ih h2 hx hy

theorem fiveOk_eq (c : Nat) (h : fiveOk c = true) (x y : Nat) (hx : x ∈ sumsN c 298 (zn 1 1).toNat)
    (hy : y ∈ sumsN c 298 (zn 1 1).toNat) (he : x >>> 1 = y >>> 1) : x = y := by
  have hz : (zn 1 1).toNat = zN 1 := (zN_eq 1).symm
  rw [hz] at hx hy
  have hp := msort_perm 14 (sumsN c 298 (zN 1))
  unfold fiveOk at h
  generalize msort 14 (sumsN c 298 (zN 1)) = s at h hp
  obtain ⟨a, r⟩ := s
  cases r with
  | cons => cases h
  | nil =>
    rw [show (Sorted.mk a []).a ++ (Sorted.mk a []).rest = a from List.append_nil a] at hp
    exact asc2_inj a (asc2_eq a 0 h).1 x y (hp.mem_iff.mpr hx) (hp.mem_iff.mpr hy) he

/-- no two sums of two values differ in bit 0 alone -/
theorem no_quinquenomial (h : ∀ c : Fin 8, fiveOk c = true) (i j k l : Nat) (hi : 0 < i) (hij : i < j) (hj : j < 300)
    (hk : 0 < k) (hkl : k < l) (hl : l < 300) : (zn j 1 ^^^ zn i 1) ^^^ (zn l 1 ^^^ zn k 1) ≠ 1 := by
  intro he
  have form : ∀ i j, i < j → zn j 1 ^^^ zn i 1 = zn i (zn (j - i) 1 ^^^ 1) := by
    intro i j hij
    rw [zn_xor, ← zn_add, Nat.sub_add_cancel (by omega)]
  rw [form i j hij, form k l hkl] at he
  generalize hx : zn i (zn (j - i) 1 ^^^ 1) = x at he
  generalize hy : zn k (zn (l - k) 1 ^^^ 1) = y at he
  have hxy : x = 1 ^^^ y := by
    have := congrArg (· ^^^ y) he
    simpa [BitVec.xor_assoc] using this
  have hs : x.toNat >>> 1 = y.toNat >>> 1 := by
    rw [hxy, BitVec.toNat_xor, Nat.shiftRight_xor_distrib]
    show 0 ^^^ _ = _
    rw [Nat.zero_xor]
  have hc : (x.toNat >>> 1) &&& 7 < 8 := Nat.lt_of_le_of_lt Nat.and_le_right (by decide)
  have hm1 := sumsN_mem ((x.toNat >>> 1) &&& 7) 298 (j - i) i 1 (by omega) hi (by omega) (by rw [hx])
  have hm2 := sumsN_mem ((x.toNat >>> 1) &&& 7) 298 (l - k) k 1 (by omega) hk (by omega) (by rw [hy, hs])
  rw [hx] at hm1
  rw [hy] at hm2
  have := BitVec.eq_of_toNat_eq (fiveOk_eq _ (h ⟨_, hc⟩) _ _ hm1 hm2 hs)
  rw [this, BitVec.xor_self] at he
  exact absurd he (by decide)

end Verif.Proof.CRC32
