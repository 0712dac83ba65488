import Verif.Proof.Regs
import Verif.Proof.Stream
import Verif.Model.CRC32
import Verif.Proof.CRC32Tab

/-!
# Proofs about crc_32.h
-/

namespace Verif.Proof.CRC32
open Spec Spec.CRC32 Model.CRC32

/-- a byte as a word -/
abbrev ext (x : Byte) : W32 := x.setWidth 32

theorem ofNat_ext (x : Byte) : BitVec.ofNat 32 x.toNat = ext x := by
  apply BitVec.eq_of_toNat_eq
  simp

theorem at_toNat {v : Vector W32 256} {f : W32 → W32} (h : ∀ i : Fin 256, v[i] = f (BitVec.ofNat 32 i.val))
    (x : Byte) : v[x.toNat] = f (ext x) := by
  have := h ⟨x.toNat, x.isLt⟩
  rw [ofNat_ext] at this
  exact this

theorem ext_lt (x : Byte) : (ext x).toNat < 2 ^ 8 := by
  rw [← ofNat_ext, BitVec.toNat_ofNat]
  have := x.isLt
  omega

/-- `n` bytes further on, a byte that sat `i` bytes up -/
theorem zn_byte (n i : Nat) (hi : i ≤ 3) (x : Byte) : zn (8 * i + n) (ext x <<< (8 * i)) = zn n (ext x) := by
  rw [zn_add, zn_shift (8 * i) (by omega)]
  exact Nat.lt_of_lt_of_le (ext_lt x) (Nat.pow_le_pow_right (by decide) (by omega))

theorem word_bytes (w : W32) :
    w = ext (ror 8 w 24) <<< 24 ^^^ ext (ror 8 w 16) <<< 16 ^^^ ext (ror 8 w 8) <<< 8 ^^^ ext (ror 8 w 0) <<< 0 := by
  apply BitVec.eq_of_getLsbD_eq
  intro i hi
  simp only [ror, BitVec.getLsbD_xor, BitVec.getLsbD_shiftLeft, BitVec.getLsbD_setWidth, BitVec.getLsbD_ushiftRight]
  by_cases h0 : i < 8
  · simp [h0, show i < 16 by omega, show i < 24 by omega, hi]
  · by_cases h1 : i < 16
    · simp [h0, h1, show i < 24 by omega, hi, show i - 8 < 32 by omega, show i - 8 < 8 by omega,
        show 8 + (i - 8) = i by omega]
    · by_cases h2 : i < 24
      · simp [h0, h1, h2, hi, show i - 16 < 32 by omega, show i - 16 < 8 by omega, show ¬ i - 8 < 8 by omega,
          show 16 + (i - 16) = i by omega]
      · simp [h0, h1, h2, hi, show i - 24 < 32 by omega, show i - 24 < 8 by omega, show ¬ i - 8 < 8 by omega,
          show ¬ i - 16 < 8 by omega, show 24 + (i - 24) = i by omega]

/-- a word moved on by `n + 24` zero bits, byte by byte -/
theorem zn_word (n : Nat) (w : W32) :
    zn (n + 24) w = zn n (ext (ror 8 w 24)) ^^^ zn (n + 8) (ext (ror 8 w 16)) ^^^
      zn (n + 16) (ext (ror 8 w 8)) ^^^ zn (n + 24) (ext (ror 8 w 0)) := by
  have e3 : zn (n + 24) (ext (ror 8 w 24) <<< 24) = zn n (ext (ror 8 w 24)) := by
    have := zn_byte n 3 (by decide) (ror 8 w 24)
    rwa [Nat.add_comm (8 * 3)] at this
  have e2 : zn (n + 24) (ext (ror 8 w 16) <<< 16) = zn (n + 8) (ext (ror 8 w 16)) := by
    have := zn_byte (n + 8) 2 (by decide) (ror 8 w 16)
    rwa [show 8 * 2 + (n + 8) = n + 24 by omega] at this
  have e1 : zn (n + 24) (ext (ror 8 w 8) <<< 8) = zn (n + 16) (ext (ror 8 w 8)) := by
    have := zn_byte (n + 16) 1 (by decide) (ror 8 w 8)
    rwa [show 8 * 1 + (n + 16) = n + 24 by omega] at this
  have e0 : zn (n + 24) (ext (ror 8 w 0) <<< 0) = zn (n + 24) (ext (ror 8 w 0)) := by
    rw [BitVec.shiftLeft_zero]
  rw [← e3, ← e2, ← e1, ← e0, ← zn_xor, ← zn_xor, ← zn_xor, ← word_bytes]

theorem stride_eq (a b c d : W32) :
  lut0[(ror 8 d 24).toNat]
  ^^^ lut1[(ror 8 d 16).toNat]
  ^^^ lut2[(ror 8 d 8).toNat]
  ^^^ lut3[(ror 8 d 0).toNat]
  ^^^ lut4[(ror 8 c 24).toNat]
  ^^^ lut5[(ror 8 c 16).toNat]
  ^^^ lut6[(ror 8 c 8).toNat]
  ^^^ lut7[(ror 8 c 0).toNat]
  ^^^ lut8[(ror 8 b 24).toNat]
  ^^^ lut9[(ror 8 b 16).toNat]
  ^^^ lut10[(ror 8 b 8).toNat]
  ^^^ lut11[(ror 8 b 0).toNat]
  ^^^ lut12[(ror 8 a 24).toNat]
  ^^^ lut13[(ror 8 a 16).toNat]
  ^^^ lut14[(ror 8 a 8).toNat]
  ^^^ lut15[(ror 8 a 0).toNat] =
    zn 128 a ^^^ zn 96 b ^^^ zn 64 c ^^^ zn 32 d := by
  rw [zn_word 104 a, zn_word 72 b, zn_word 40 c, zn_word 8 d]
  rw [at_toNat lut0_eq, at_toNat lut1_eq, at_toNat lut2_eq, at_toNat lut3_eq, at_toNat lut4_eq,
    at_toNat lut5_eq, at_toNat lut6_eq, at_toNat lut7_eq, at_toNat lut8_eq, at_toNat lut9_eq,
    at_toNat lut10_eq, at_toNat lut11_eq, at_toNat lut12_eq, at_toNat lut13_eq, at_toNat lut14_eq,
    at_toNat lut15_eq]
  simp only [Nat.reduceAdd]
  ac_rfl

theorem body_eq (h : W32) (m : Block 16) :
    body h m = zn 32 (zn 32 (zn 32 (zn 32 (h ^^^ loadLE32 m 0) ^^^ loadLE32 m 1) ^^^ loadLE32 m 2) ^^^ loadLE32 m 3) := by
  rw [zn_xor 32 _ (loadLE32 m 3), zn_xor 32 _ (loadLE32 m 2), zn_xor 32 _ (loadLE32 m 1)]
  rw [zn_xor 32 (zn 32 _) (zn 32 (loadLE32 m 2)), zn_xor 32 (zn 32 _) (zn 32 (loadLE32 m 1)),
    zn_xor 32 (zn 32 _) (zn 32 (zn 32 (loadLE32 m 1)))]
  simp only [← zn_add]
  rw [BitVec.xor_comm h (loadLE32 m 0)]
  exact stride_eq _ _ _ _

/-! ### bytes as bits -/

theorem bits_append (a b : List Byte) : bits (a ++ b) = bits a ++ bits b := by
  unfold bits; rw [List.flatMap_append]

theorem bits_length (m : List Byte) : (bits m).length = 8 * m.length := by
  induction m with
  | nil => rfl
  | cons x m ih =>
    show (((List.range 8).map x.getLsbD) ++ bits m).length = _
    rw [List.length_append, ih]; simp; omega

theorem bits_cons (x : Byte) (m : List Byte) : bits (x :: m) = bits [x] ++ bits m := bits_append [x] m

set_option maxRecDepth 100000 in
theorem W_byte : ∀ x : Byte, W (bits [x]) = ext x := by
  have : ∀ i : Fin 256, W (bits [BitVec.ofFin i]) = ext (BitVec.ofFin i) := by decide +kernel
  intro x
  exact this x.toFin

theorem W_bytes (x : Byte) (m : List Byte) : W (bits (x :: m)) = ext x ^^^ (W (bits m) <<< 8) := by
  rw [bits_cons, W_append, W_byte, bits_length]; rfl

theorem or_eq_xor (x0 x1 x2 x3 : Byte) :
    (ext x0 <<< 0) ||| (ext x1 <<< 8) ||| (ext x2 <<< 16) ||| (ext x3 <<< 24) =
      ext x0 ^^^ ((ext x1 ^^^ ((ext x2 ^^^ ((ext x3 ^^^ ((0 : W32) <<< 8)) <<< 8)) <<< 8)) <<< 8) := by
  apply BitVec.eq_of_getLsbD_eq
  intro i hi
  simp only [BitVec.getLsbD_xor, BitVec.getLsbD_or, BitVec.getLsbD_shiftLeft, BitVec.getLsbD_setWidth]
  by_cases h0 : i < 8
  · simp [h0, show i < 16 by omega, show i < 24 by omega, hi]
  · have b0 : x0.getLsbD i = false := BitVec.getLsbD_of_ge _ _ (by omega)
    by_cases h1 : i < 16
    · simp [h0, h1, show i < 24 by omega, hi, show i - 8 < 32 by omega, show i - 8 < 8 by omega, b0]
    · have b1 : x1.getLsbD (i - 8) = false := BitVec.getLsbD_of_ge _ _ (by omega)
      by_cases h2 : i < 24
      · simp [h0, h1, h2, hi, show i - 16 < 32 by omega, show i - 16 < 8 by omega, show ¬ i - 8 < 8 by omega,
          show i - 8 < 32 by omega, show i - 8 - 8 = i - 16 by omega, b0, b1]
      · have b2 : x2.getLsbD (i - 16) = false := BitVec.getLsbD_of_ge _ _ (by omega)
        simp [h0, h1, h2, hi, show i - 24 < 32 by omega, show i - 24 < 8 by omega, show ¬ i - 8 < 8 by omega,
          show i - 8 < 32 by omega, show i - 16 < 32 by omega, show ¬ i - 16 < 8 by omega,
          show i - 8 - 8 = i - 16 by omega, show i - 16 - 8 = i - 24 by omega, b0, b1, b2]

theorem W_four (x0 x1 x2 x3 : Byte) : W (bits [x0, x1, x2, x3]) =
    (ext x0 <<< 0) ||| (ext x1 <<< 8) ||| (ext x2 <<< 16) ||| (ext x3 <<< 24) := by
  rw [W_bytes, W_bytes, W_bytes, W_bytes, or_eq_xor]; rfl

/-- feeding four bytes -/
theorem four (h : W32) (x0 x1 x2 x3 : Byte) : (bits [x0, x1, x2, x3]).foldl step h =
    zn 32 (h ^^^ ((ext x0 <<< 0) ||| (ext x1 <<< 8) ||| (ext x2 <<< 16) ||| (ext x3 <<< 24))) := by
  rw [fold_eq _ (by rw [bits_length]; simp), W_four, bits_length]; rfl

theorem list16 (l : List Byte) (h : l.length = 16) : ∃ a b c d e f g i j k m n o p q r,
    l = [a, b, c, d, e, f, g, i, j, k, m, n, o, p, q, r] := by
  match l, h with
  | [a, b, c, d, e, f, g, i, j, k, m, n, o, p, q, r], _ =>
    exact ⟨a, b, c, d, e, f, g, i, j, k, m, n, o, p, q, r, rfl⟩

/-- one 16-byte stride is the bit-at-a-time register fed with the 16 bytes -/
theorem body_bits (h : W32) (l : List Byte) (hl : l.length = 16) :
    body h (toBlock 16 l) = (bits l).foldl step h := by
  rw [body_eq]
  obtain ⟨a, b, c, d, e, f, g, i, j, k, m, n, o, p, q, r, rfl⟩ := list16 l hl
  rw [show [a, b, c, d, e, f, g, i, j, k, m, n, o, p, q, r] =
    [a, b, c, d] ++ ([e, f, g, i] ++ ([j, k, m, n] ++ [o, p, q, r])) from rfl,
    bits_append, bits_append, bits_append, List.foldl_append, List.foldl_append, List.foldl_append,
    four, four, four, four]
  rfl

/-- one byte of the simple loop -/
theorem tailByte_bits (h : W32) (x : Byte) : tailByte h x = (bits [x]).foldl step h := by
  rw [fold_eq _ (by rw [bits_length]; simp), W_byte, bits_length]
  unfold tailByte
  rw [at_toNat lut0_eq]
  show _ = zn 8 (h ^^^ ext x)
  have e : h ^^^ ext x = (h >>> 8) <<< 8 ^^^ ext (ror 8 h 0 ^^^ x) := by
    apply BitVec.eq_of_getLsbD_eq
    intro i hi
    simp only [ror, BitVec.getLsbD_xor, BitVec.getLsbD_shiftLeft, BitVec.getLsbD_setWidth,
      BitVec.getLsbD_ushiftRight]
    by_cases h0 : i < 8
    · simp [h0, hi]
    · simp [h0, hi, show 8 + (i - 8) = i by omega, BitVec.getLsbD_of_ge x i (by omega)]
  rw [e, zn_xor, zn_shift 8 (by decide)]
  rw [BitVec.toNat_ushiftRight, Nat.shiftRight_eq_div_pow]
  have := h.isLt
  omega

theorem tailLoop_eq (data : List Byte) : ∀ fuel processed h, data.length ≤ processed + fuel →
    tailLoop data fuel processed h = .ok ((bits (data.drop processed)).foldl step h) := by
  intro fuel
  induction fuel with
  | zero =>
    intro p h hp
    rw [tailLoop, if_neg (by omega), List.drop_of_length_le (by omega)]; rfl
  | succ n ih =>
    intro p h hp
    rw [tailLoop]
    by_cases hlt : p < data.length
    · rw [if_pos hlt, List.getElem?_eq_getElem hlt]
      simp only []
      rw [ih _ _ (by omega), List.drop_eq_getElem_cons hlt, bits_cons (data[p]), List.foldl_append, tailByte_bits]
    · rw [if_neg hlt, List.drop_of_length_le (by omega)]; rfl

theorem blocks_fold (d : List Byte) (h : W32) :
    (blocks 16 d).foldl (fun s l => body s (toBlock 16 l)) h =
      (bits (d.take (d.length / 16 * 16))).foldl step h := by
  induction hn : d.length / 16 generalizing d h with
  | zero =>
    rw [blocks_short 16 d (by omega)]; simp [bits]
  | succ n ih =>
    rw [blocks_cons 16 d (by decide) (by omega), List.foldl_cons, ih (d.drop 16) _ (by simp; omega),
      body_bits _ _ (by simp; omega), ← List.foldl_append, ← bits_append]
    congr 2
    rw [show (n + 1) * 16 = 16 + n * 16 by omega, List.take_add]

/-- `addData` is the bit-at-a-time register -/
theorem addData_eq (h : W32) (d : List Byte) : Model.CRC32.addData h d = .ok ((bits d).foldl step h) := by
  unfold Model.CRC32.addData
  rw [forBlocks_eq 16 (by decide)]
  simp only [bind, Except.bind]
  rw [tailLoop_eq d d.length _ _ (by omega), blocks_fold, ← List.foldl_append, ← bits_append,
    List.take_append_drop]

def refines : Refines CRC_32 (fun m => .ok (toBE 4 (crc32 m).toNat)) where
  R := fun o m => o = (bits m).foldl step (BitVec.allOnes 32)
  F := fun o m => o = crc32 m
  fresh := rfl
  add := fun o m d _ h => ⟨(bits d).foldl step o, addData_eq o d, by rw [h, bits_append, List.foldl_append]⟩
  fin := fun o m h => ⟨_, rfl, by rw [h]; rfl⟩
  resetR := fun _ _ _ => rfl
  resetF := fun _ _ _ => rfl
  out := fun o m h => by
    show resultArray 4 (storeBE 4 o) = _
    rw [h, storeBE_eq]
    exact resultArray_exact _ _ (toBE_length _ _)

end Verif.Proof.CRC32
