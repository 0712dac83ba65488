import Verif.Proof.KeccakPerm
import Verif.Spec.Sponge

/-! Padding and absorbing of the sponge. -/

namespace Verif.Proof.Sponge
open Spec Spec.Sponge Spec.Keccak

theorem pad_length (r m : Nat) : (pad101 r m).length = 2 + (r - (m + 2) % r) % r := by
  simp [pad101]; omega

/-- stripping the padding from the end -/
theorem pad_inj (r : Nat) (N N' : List Bool) (h : padInput r N = padInput r N') : N = N' := by
  have key : ∀ (a b : Nat) (X Y : List Bool),
      List.replicate a false ++ true :: X = List.replicate b false ++ true :: Y → X = Y := by
    intro a b X Y h
    induction a generalizing b with
    | zero =>
      cases b with
      | zero => simpa using h
      | succ b => simp [List.replicate_succ] at h
    | succ a ih =>
      cases b with
      | zero => simp [List.replicate_succ] at h
      | succ b =>
        simp only [List.replicate_succ, List.cons_append, List.cons.injEq, true_and] at h
        exact ih b h
  unfold padInput pad101 at h
  simp only [← List.append_assoc] at h
  have h := List.append_cancel_right h
  have := key _ _ N.reverse N'.reverse (by simpa using congrArg List.reverse h)
  simpa using this

theorem padded_length (r : Nat) (N : List Bool) : (padInput r N).length = N.length + 2 + (r - (N.length + 2) % r) % r := by
  unfold padInput
  rw [List.length_append, pad_length]
  omega

theorem padded_dvd (r : Nat) (hr : 0 < r) (N : List Bool) : r ∣ (padInput r N).length := by
  rw [padded_length]
  generalize N.length + 2 = x
  have h1 := Nat.div_add_mod x r
  have h2 := Nat.mod_lt x hr
  by_cases h : x % r = 0
  · rw [h, Nat.sub_zero, Nat.mod_self]
    exact Nat.dvd_of_mod_eq_zero h
  · rw [Nat.mod_eq_of_lt (by omega : r - x % r < r)]
    refine ⟨x / r + 1, ?_⟩
    rw [Nat.mul_add, Nat.mul_one]
    omega

theorem absorb_eq (r : Nat) (N : List Bool) : absorb r N = absorbBlocks r (padInput r N) := by
  unfold absorb absorbBlocks padInput
  dsimp only

theorem keccakF_length (S : List Bool) : (keccakF S).length = 1600 := SHA3.ofState_length _

theorem absorbBlocks_length (r : Nat) (P : List Bool) : (absorbBlocks r P).length = 1600 := by
  unfold absorbBlocks
  generalize P.length / r = n
  cases n with
  | zero => exact List.length_replicate
  | succ n => rw [List.range_succ, List.foldl_append, List.foldl_cons, List.foldl_nil, keccakF_length]

theorem foldl_congr_mem {α β : Type} {f g : α → β → α} (l : List β) (a : α) (h : ∀ a, ∀ b ∈ l, f a b = g a b) :
    l.foldl f a = l.foldl g a := by
  induction l generalizing a with
  | nil => rfl
  | cons b l ih =>
    rw [List.foldl_cons, List.foldl_cons, h a b (by simp)]
    exact ih _ fun a b hb => h a b (by simp [hb])

/-- the last block -/
theorem absorbBlocks_snoc (r : Nat) (hr : 0 < r) (A B : List Bool) (hA : r ∣ A.length) (hB : B.length = r) :
    absorbBlocks r (A ++ B) =
      keccakF (List.zipWith xor (absorbBlocks r A) (B ++ List.replicate (1600 - r) false)) := by
  obtain ⟨n, hn⟩ := hA
  unfold absorbBlocks
  rw [List.length_append, hB, hn, Nat.add_div_right _ hr, Nat.mul_div_cancel_left _ hr, List.range_succ, List.foldl_append,
    List.foldl_cons, List.foldl_nil]
  generalize List.replicate 1600 false = Z
  generalize List.replicate (1600 - r) false = W
  generalize keccakF = F
  congr 2
  · apply foldl_congr_mem
    intro S i hi
    have hi := List.mem_range.1 hi
    congr 3
    have h1 : r * i + r ≤ A.length := by
      rw [hn]
      calc r * i + r = r * (i + 1) := by rw [Nat.mul_add, Nat.mul_one]
        _ ≤ r * n := Nat.mul_le_mul_left _ hi
    rw [List.drop_append_of_le_length (by omega), List.take_append_of_le_length (by rw [List.length_drop]; omega)]
  · rw [← hn, List.drop_left, List.take_of_length_le (by omega)]

theorem xor_left_cancel {a b c : Bool} (h : (a ^^ b) = (a ^^ c)) : b = c := by
  cases a <;> cases b <;> cases c <;> simp_all

/-- xor with a fixed list that is long enough is injective -/
theorem zipXor_inj (S X Y : List Bool) (hX : X.length ≤ S.length) (hY : Y.length ≤ S.length)
    (h : List.zipWith xor S X = List.zipWith xor S Y) : X = Y := by
  induction S generalizing X Y with
  | nil =>
    have hx : X = [] := List.length_eq_zero_iff.1 (by simpa using hX)
    have hy : Y = [] := List.length_eq_zero_iff.1 (by simpa using hY)
    rw [hx, hy]
  | cons s S ih =>
    cases X with
    | nil => cases Y with
      | nil => rfl
      | cons y Y => simp at h
    | cons x X => cases Y with
      | nil => simp at h
      | cons y Y =>
        simp only [List.zipWith_cons_cons, List.cons.injEq] at h
        rw [xor_left_cancel h.1, ih X Y (by simpa using hX) (by simpa using hY) h.2]

theorem zip_zeros (S : List Bool) (n : Nat) (h : S.length = n) : List.zipWith xor S (List.replicate n false) = S := by
  subst h
  induction S with
  | nil => rfl
  | cons s S ih => rw [List.length_cons, List.replicate_succ, List.zipWith_cons_cons, ih, Bool.xor_false]

theorem inner_step (r : Nat) (hr' : r ≤ 1600) (S B : List Bool) (hS : S.length = 1600) (hB : B.length = r) :
    (List.zipWith xor S (B ++ List.replicate (1600 - r) false)).drop r = inner r S := by
  rw [List.drop_zipWith, ← hB, List.drop_left, hB]
  exact zip_zeros _ _ (by rw [List.length_drop]; omega)

/-- Different strings that lead to the same state show an inner collision. -/
theorem collision (r : Nat) (hr : 0 < r) (hr' : r ≤ 1600) (N N' : List Bool) (hne : N ≠ N')
    (h : absorb r N = absorb r N') : InnerCollision r N N' := by
  rw [absorb_eq, absorb_eq] at h
  have split : ∀ M, ∃ A B, padInput r M = A ++ B ∧ r ∣ A.length ∧ B.length = r := by
    intro M
    have h1 := padded_dvd r hr M
    have h2 := Nat.le_of_dvd (by rw [padded_length]; omega) h1
    refine ⟨(padInput r M).take ((padInput r M).length - r), (padInput r M).drop ((padInput r M).length - r),
      (List.take_append_drop _ _).symm, ?_, ?_⟩
    · rw [List.length_take, Nat.min_eq_left (Nat.sub_le _ _)]
      exact Nat.dvd_sub h1 (Nat.dvd_refl r)
    · rw [List.length_drop]; omega
  obtain ⟨A, B, e, hA, hB⟩ := split N
  obtain ⟨A', B', e', hA', hB'⟩ := split N'
  rw [e, e', absorbBlocks_snoc r hr A B hA hB, absorbBlocks_snoc r hr A' B' hA' hB'] at h
  have hl : ∀ (A B : List Bool), B.length = r →
      (List.zipWith xor (absorbBlocks r A) (B ++ List.replicate (1600 - r) false)).length = 1600 := by
    intro A B hB
    rw [List.length_zipWith, absorbBlocks_length, List.length_append, List.length_replicate, hB]
    omega
  have h := SHA3.keccakF_inj _ _ (hl A B hB) (hl A' B' hB') h
  refine ⟨A, A', ?_, hA, hA', e ▸ List.prefix_append A B, e' ▸ List.prefix_append A' B', ?_⟩
  · rintro rfl
    have h2 := zipXor_inj _ _ _ (by rw [absorbBlocks_length, List.length_append, List.length_replicate]; omega)
      (by rw [absorbBlocks_length, List.length_append, List.length_replicate]; omega) h
    have h3 := List.append_cancel_right h2
    exact hne (pad_inj r N N' (by rw [e, e', h3]))
  · have := congrArg (List.drop r) h
    rwa [inner_step r hr' _ B (absorbBlocks_length r A) hB, inner_step r hr' _ B' (absorbBlocks_length r A') hB'] at this

theorem bits_inj (M M' : List Byte) (h : bits M = bits M') : M = M' := by
  rw [← SHA3.bytes_bits M, h, SHA3.bytes_bits]

end Verif.Proof.Sponge
