import Verif.Core.Basic
import Verif.Core.Buffer
import Verif.Spec.Bytes

/-! Lemmas: loading and storing words, rotations, blocks. -/

namespace Verif
open Spec

theorem rotr_eq {w : Nat} (x : BitVec w) (s : Nat) (h : s < w) : rotr x s = x.rotateRight s := by
  unfold rotr BitVec.rotateRight
  rw [Nat.mod_eq_of_lt h]
  unfold BitVec.rotateRightAux
  split
  · subst s; simp
  · rfl

theorem rotl_eq {w : Nat} (x : BitVec w) (s : Nat) (h : s < w) : rotl x s = x.rotateLeft s := by
  unfold rotl BitVec.rotateLeft
  rw [Nat.mod_eq_of_lt h]
  unfold BitVec.rotateLeftAux
  split
  · subst s; simp [BitVec.ushiftRight_eq_zero]
  · rfl

@[simp] theorem toLE_length (n x : Nat) : (toLE n x).length = n := by
  induction n generalizing x with
  | zero => rfl
  | succ n ih => simp [toLE, ih]

@[simp] theorem toBE_length (n x : Nat) : (toBE n x).length = n := by simp [toBE]

theorem toLE_getElem (n x i : Nat) (h : i < (toLE n x).length) :
    (toLE n x)[i] = BitVec.ofNat 8 (x / 256 ^ i) := by
  induction n generalizing x i with
  | zero => simp [toLE] at h
  | succ n ih =>
    cases i with
    | zero => simp [toLE]
    | succ i =>
      simp only [toLE, List.getElem_cons_succ]
      rw [ih]
      rw [Nat.div_div_eq_div_mul, Nat.pow_succ, Nat.mul_comm]

theorem ror8_eq {w : Nat} (x : BitVec w) (k : Nat) :
    ror 8 x (8 * k) = BitVec.ofNat 8 (x.toNat / 256 ^ k) := by
  apply BitVec.eq_of_toNat_eq
  simp [ror, BitVec.toNat_setWidth, Nat.shiftRight_eq_div_pow]
  rw [Nat.pow_mul]

theorem storeLE_eq {w : Nat} (n : Nat) (x : BitVec w) : storeLE n x = toLE n x.toNat := by
  apply List.ext_getElem
  · simp [storeLE]
  · intro i h1 h2
    rw [toLE_getElem]
    simp only [storeLE, List.getElem_map, List.getElem_range]
    rw [Nat.mul_comm, ror8_eq]

theorem storeBE_eq {w : Nat} (n : Nat) (x : BitVec w) : storeBE n x = toBE n x.toNat := by
  apply List.ext_getElem
  · simp [storeBE]
  · intro i h1 h2
    simp only [toBE, List.getElem_reverse]
    rw [toLE_getElem]
    simp only [storeBE, List.getElem_map, List.getElem_range, toLE_length]
    rw [Nat.mul_comm, ror8_eq]

/-- Shifting left by whole bytes and or-ing in a byte is `256 * x + b`. -/
theorem or_shift_byte (x b : Nat) (h : b < 256) : (x <<< 8) ||| b = 256 * x + b := by
  have := Nat.shiftLeft_add_eq_or_of_lt (b := b) (i := 8) h x
  rw [← this, Nat.shiftLeft_eq]
  omega

theorem ofBE_append (l : List Byte) (b : Byte) : ofBE (l ++ [b]) = 256 * ofBE l + b.toNat := by
  simp [ofBE, List.foldl_append]

theorem shl_toNat (w s : Nat) (b : Byte) (h : s + 8 ≤ w) :
    (b.setWidth w <<< s).toNat = b.toNat <<< s := by
  have hb := b.isLt
  rw [BitVec.toNat_shiftLeft, BitVec.toNat_setWidth]
  have h1 : 2 ^ 8 ≤ 2 ^ w := Nat.pow_le_pow_right (by decide) (by omega)
  rw [Nat.mod_eq_of_lt (a := b.toNat) (b := 2 ^ w) (by omega)]
  apply Nat.mod_eq_of_lt
  rw [Nat.shiftLeft_eq]
  calc b.toNat * 2 ^ s < 2 ^ 8 * 2 ^ s := by
        apply Nat.mul_lt_mul_of_pos_right hb; exact Nat.two_pow_pos s
    _ = 2 ^ (8 + s) := by rw [Nat.pow_add]
    _ ≤ 2 ^ w := Nat.pow_le_pow_right (by decide) (by omega)

theorem toNat_or4 (a b c d : Byte) :
    ((a.toNat <<< 24 ||| b.toNat <<< 16) ||| c.toNat <<< 8) ||| d.toNat <<< 0 =
      256 * (256 * (256 * a.toNat + b.toNat) + c.toNat) + d.toNat := by
  rw [← or_shift_byte _ _ d.isLt, ← or_shift_byte _ _ c.isLt, ← or_shift_byte _ _ b.isLt]
  simp [Nat.shiftLeft_or_distrib, ← Nat.shiftLeft_add]

theorem toNat_or8 (a b c d e f g h : Byte) :
    ((((((a.toNat <<< 56 ||| b.toNat <<< 48) ||| c.toNat <<< 40) ||| d.toNat <<< 32)
      ||| e.toNat <<< 24) ||| f.toNat <<< 16) ||| g.toNat <<< 8) ||| h.toNat <<< 0 =
      256 * (256 * (256 * (256 * (256 * (256 * (256 * a.toNat + b.toNat) + c.toNat) + d.toNat)
        + e.toNat) + f.toNat) + g.toNat) + h.toNat := by
  rw [← or_shift_byte _ _ h.isLt, ← or_shift_byte _ _ g.isLt, ← or_shift_byte _ _ f.isLt,
    ← or_shift_byte _ _ e.isLt, ← or_shift_byte _ _ d.isLt, ← or_shift_byte _ _ c.isLt,
    ← or_shift_byte _ _ b.isLt]
  simp [Nat.shiftLeft_or_distrib, ← Nat.shiftLeft_add]

/-- Consecutive entries of a vector as a slice. -/
theorem slice4 {B : Nat} (m : Block B) (i : Nat) (h : i + 4 ≤ B) :
    (m.toList.drop i).take 4 = [m[i], m[i + 1], m[i + 2], m[i + 3]] := by
  apply List.ext_getElem
  · simp; omega
  · intro k h1 h2
    simp only [List.length_cons, List.length_nil] at h2
    have : k = 0 ∨ k = 1 ∨ k = 2 ∨ k = 3 := by omega
    rcases this with rfl | rfl | rfl | rfl <;> simp

theorem slice8 {B : Nat} (m : Block B) (i : Nat) (h : i + 8 ≤ B) :
    (m.toList.drop i).take 8 =
      [m[i], m[i + 1], m[i + 2], m[i + 3], m[i + 4], m[i + 5], m[i + 6], m[i + 7]] := by
  apply List.ext_getElem
  · simp; omega
  · intro k h1 h2
    simp only [List.length_cons, List.length_nil] at h2
    have : k = 0 ∨ k = 1 ∨ k = 2 ∨ k = 3 ∨ k = 4 ∨ k = 5 ∨ k = 6 ∨ k = 7 := by omega
    rcases this with rfl | rfl | rfl | rfl | rfl | rfl | rfl | rfl <;> simp

theorem loadBE32_eq {B : Nat} (m : Block B) (t : Nat) (h : 4 * t + 4 ≤ B) :
    loadBE32 m t h = wordBE 32 m.toList t := by
  apply BitVec.eq_of_toNat_eq
  simp only [loadBE32, wordBE, BitVec.toNat_or]
  rw [shl_toNat _ _ _ (by decide), shl_toNat _ _ _ (by decide), shl_toNat _ _ _ (by decide),
    shl_toNat _ _ _ (by decide), toNat_or4, BitVec.toNat_ofNat]
  rw [show 32 / 8 = 4 from rfl, slice4 m (4 * t) h]
  simp [ofBE]; omega

theorem loadLE32_eq {B : Nat} (m : Block B) (t : Nat) (h : 4 * t + 4 ≤ B) :
    loadLE32 m t h = wordLE 32 m.toList t := by
  apply BitVec.eq_of_toNat_eq
  simp only [loadLE32, wordLE, BitVec.toNat_or]
  rw [shl_toNat _ _ _ (by decide), shl_toNat _ _ _ (by decide), shl_toNat _ _ _ (by decide),
    shl_toNat _ _ _ (by decide), BitVec.toNat_ofNat]
  rw [show 32 / 8 = 4 from rfl, slice4 m (4 * t) h]
  have := toNat_or4 m[4 * t + 3] m[4 * t + 2] m[4 * t + 1] m[4 * t + 0]
  rw [show ∀ a b c d : Nat, a ||| b ||| c ||| d = d ||| c ||| b ||| a by
    intro a b c d; ac_rfl, this]
  simp [ofLE]; omega

theorem loadBE64_eq {B : Nat} (m : Block B) (t : Nat) (h : 8 * t + 8 ≤ B) :
    loadBE64 m t h = wordBE 64 m.toList t := by
  apply BitVec.eq_of_toNat_eq
  simp only [loadBE64, wordBE, BitVec.toNat_or]
  rw [shl_toNat _ _ _ (by decide), shl_toNat _ _ _ (by decide), shl_toNat _ _ _ (by decide),
    shl_toNat _ _ _ (by decide), shl_toNat _ _ _ (by decide), shl_toNat _ _ _ (by decide),
    shl_toNat _ _ _ (by decide), shl_toNat _ _ _ (by decide), toNat_or8, BitVec.toNat_ofNat]
  rw [show 64 / 8 = 8 from rfl, slice8 m (8 * t) h]
  simp [ofBE]; omega

theorem loadLE64_eq {B : Nat} (m : Block B) (t : Nat) (h : 8 * t + 8 ≤ B) :
    loadLE64 m t h = wordLE 64 m.toList t := by
  apply BitVec.eq_of_toNat_eq
  simp only [loadLE64, wordLE, BitVec.toNat_or]
  rw [shl_toNat _ _ _ (by decide), shl_toNat _ _ _ (by decide), shl_toNat _ _ _ (by decide),
    shl_toNat _ _ _ (by decide), shl_toNat _ _ _ (by decide), shl_toNat _ _ _ (by decide),
    shl_toNat _ _ _ (by decide), shl_toNat _ _ _ (by decide), BitVec.toNat_ofNat]
  rw [show 64 / 8 = 8 from rfl, slice8 m (8 * t) h]
  have := toNat_or8 m[8 * t + 7] m[8 * t + 6] m[8 * t + 5] m[8 * t + 4] m[8 * t + 3]
    m[8 * t + 2] m[8 * t + 1] m[8 * t + 0]
  rw [show ∀ a b c d e f g h : Nat, a ||| b ||| c ||| d ||| e ||| f ||| g ||| h
      = h ||| g ||| f ||| e ||| d ||| c ||| b ||| a by
    intro a b c d e f g h; ac_rfl, this]
  simp [ofLE]; omega

/-! ### Blocks -/

theorem blocks_nil (n : Nat) : blocks n [] = [] := by
  unfold blocks; simp; omega

theorem blocks_short (n : Nat) (l : List Byte) (h : l.length < n) : blocks n l = [] := by
  unfold blocks; simp; omega

theorem blocks_cons (n : Nat) (l : List Byte) (hn : 0 < n) (h : n ≤ l.length) :
    blocks n l = l.take n :: blocks n (l.drop n) := by
  rw [blocks]; simp [hn, h]

theorem blocks_append (n : Nat) (a b : List Byte) (hn : 0 < n) (ha : a.length % n = 0) :
    blocks n (a ++ b) = blocks n a ++ blocks n b := by
  induction hk : a.length / n generalizing a with
  | zero =>
    have : a.length = 0 := by
      have := Nat.div_add_mod a.length n; rw [hk, ha] at this; simpa using this.symm
    have : a = [] := List.eq_nil_of_length_eq_zero this
    subst this; simp [blocks_nil]
  | succ k ih =>
    have hlen : a.length = n * (k + 1) := by
      have := Nat.div_add_mod a.length n; rw [hk, ha] at this; omega
    have hle : n ≤ a.length := by rw [hlen]; exact Nat.le_mul_of_pos_right n (by omega)
    rw [blocks_cons n (a ++ b) hn (by simp; omega), blocks_cons n a hn hle]
    rw [List.take_append_of_le_length hle, List.drop_append_of_le_length hle]
    rw [ih (a.drop n)]
    · simp
    · rw [List.length_drop, hlen, Nat.mul_succ, Nat.add_sub_cancel]; simp
    · rw [List.length_drop, hlen, Nat.mul_succ, Nat.add_sub_cancel]; exact Nat.mul_div_cancel_left k hn

theorem blocks_length (n : Nat) (l : List Byte) (hn : 0 < n) :
    (blocks n l).length = l.length / n := by
  induction hk : l.length / n generalizing l with
  | zero =>
    have : l.length < n := by
      rcases Nat.lt_or_ge l.length n with h | h
      · exact h
      · have := Nat.div_pos h hn; omega
    rw [blocks_short n l this]; rfl
  | succ k ih =>
    have hle : n ≤ l.length := by
      rcases Nat.lt_or_ge l.length n with h | h
      · rw [Nat.div_eq_of_lt h] at hk; omega
      · exact h
    rw [blocks_cons n l hn hle, List.length_cons, ih]
    rw [List.length_drop, Nat.div_eq_sub_div hn hle] at *; omega

theorem mem_blocks_length (n : Nat) (l b : List Byte) (h : b ∈ blocks n l) : b.length = n := by
  fun_induction blocks n l with
  | case1 l hl ih =>
    rcases List.mem_cons.mp h with h | h
    · subst h; simp; omega
    · exact ih h
  | case2 => simp at h

end Verif
