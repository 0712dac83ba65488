import Verif.Proof.KeccakF
import Verif.Proof.Block

/-! The SHA-3 model computes the sponge functions of FIPS 202. -/

namespace Verif.Proof.SHA3
open Model.SHA3 Spec

/-! ### Bits of byte strings -/

theorem bits_length (l : List Byte) : (Keccak.bits l).length = 8 * l.length := by
  unfold Keccak.bits
  rw [length_const_flatMap _ _ 8 (by simp), Nat.mul_comm]

theorem bits_append (a b : List Byte) : Keccak.bits (a ++ b) = Keccak.bits a ++ Keccak.bits b := by
  simp [Keccak.bits]

theorem bits_get (l : List Byte) (i : Nat) (h : i / 8 < l.length) :
    (Keccak.bits l)[i]? = some ((l[i / 8]).getLsbD (i % 8)) := by
  unfold Keccak.bits
  rw [getElem?_const_flatMap _ _ 8 (by decide) (by simp), List.getElem?_eq_getElem h]
  simp only [Option.bind_some]
  rw [List.getElem?_eq_getElem (by simp; omega)]
  simp

theorem bits_take (l : List Byte) (n : Nat) : Keccak.bits (l.take n) = (Keccak.bits l).take (8 * n) := by
  by_cases h : n ≤ l.length
  · conv => rhs; rw [← List.take_append_drop n l, bits_append]
    rw [List.take_append_of_le_length (by rw [bits_length]; simp; omega),
      List.take_of_length_le (l := Keccak.bits (l.take n)) (by rw [bits_length]; simp; omega)]
  · rw [List.take_of_length_le (by omega), List.take_of_length_le (by rw [bits_length]; omega)]

theorem bits_drop (l : List Byte) (n : Nat) : Keccak.bits (l.drop n) = (Keccak.bits l).drop (8 * n) := by
  by_cases h : n ≤ l.length
  · conv => rhs; rw [← List.take_append_drop n l, bits_append]
    rw [List.drop_append_of_le_length (by rw [bits_length]; simp; omega),
      List.drop_of_length_le (l := Keccak.bits (l.take n)) (by rw [bits_length]; simp; omega), List.nil_append]
  · rw [List.drop_of_length_le (by omega), List.drop_of_length_le (by rw [bits_length]; omega)]
    rfl

theorem byte_of_bits : ∀ i : Fin 256,
    let b := BitVec.ofNat 8 i.val
    BitVec.ofNat 8 ((b.getLsbD 0).toNat + 2 * (b.getLsbD 1).toNat + 4 * (b.getLsbD 2).toNat +
      8 * (b.getLsbD 3).toNat + 16 * (b.getLsbD 4).toNat + 32 * (b.getLsbD 5).toNat +
      64 * (b.getLsbD 6).toNat + 128 * (b.getLsbD 7).toNat) = b := by decide +kernel

theorem bytes_bits (l : List Byte) : Keccak.bytes (Keccak.bits l) = l := by
  induction l with
  | nil => rfl
  | cons b l ih =>
    have hb := byte_of_bits ⟨b.toNat, b.isLt⟩
    rw [show BitVec.ofNat 8 (⟨b.toNat, b.isLt⟩ : Fin 256).val = b by simp] at hb
    have : Keccak.bits (b :: l) = b.getLsbD 0 :: b.getLsbD 1 :: b.getLsbD 2 :: b.getLsbD 3 :: b.getLsbD 4 ::
      b.getLsbD 5 :: b.getLsbD 6 :: b.getLsbD 7 :: Keccak.bits l := rfl
    rw [this, Keccak.bytes, ih]
    exact congrArg (· :: l) hb

theorem stateToVector_get (s : Model.SHA3.State) (k : Nat) (hk : k < 200) :
    (stateToVector s)[k]? = some (ror 8 (s[k / 8]) (k % 8 * 8)) := by
  unfold stateToVector
  rw [getElem?_const_flatMap _ _ 8 (by decide) (by simp [storeLE]), List.getElem?_eq_getElem (by simp; omega)]
  simp only [Option.bind_some, storeLE]
  rw [List.getElem?_eq_getElem (by simp; omega)]
  simp

theorem bitsOf_length (s : Model.SHA3.State) : (bitsOf s).length = 1600 := ofState_length _

theorem bitsOf_get (s : Model.SHA3.State) (i : Nat) (hi : i < 1600) :
    (bitsOf s)[i]? = some ((s[i / 64]).getLsbD (i % 64)) := by
  unfold bitsOf
  rw [ofState_get _ _ hi]
  unfold arr lane
  simp only []
  congr 3
  omega

theorem bitsOf_eq (s : Model.SHA3.State) : bitsOf s = Keccak.bits (stateToVector s) := by
  apply List.ext_getElem?
  intro i
  by_cases hi : i < 1600
  · have h8 : i / 8 < (stateToVector s).length := by rw [stateToVector_length]; omega
    rw [bitsOf_get s i hi, bits_get _ _ h8]
    have := stateToVector_get s (i / 8) (by omega)
    rw [List.getElem?_eq_getElem h8] at this
    rw [Option.some.inj this]
    unfold ror
    rw [BitVec.getLsbD_setWidth, BitVec.getLsbD_ushiftRight]
    simp only [show i / 8 / 8 = i / 64 by omega, show i / 8 % 8 * 8 + i % 8 = i % 64 by omega,
      show i % 8 < 8 by omega, decide_true, Bool.true_and]
  · rw [List.getElem?_eq_none (by rw [bitsOf_length]; omega),
      List.getElem?_eq_none (by rw [bits_length, stateToVector_length]; omega)]

/-! ### One block -/

theorem loadLE64_bit {B : Nat} (m : Block B) (k : Nat) (h : 8 * k + 8 ≤ B) (j : Nat) (hj : j < 64) :
    (loadLE64 m k h).getLsbD j = (m[8 * k + j / 8]).getLsbD (j % 8) := by
  unfold loadLE64
  simp only [BitVec.getLsbD_or, BitVec.getLsbD_shiftLeft, BitVec.getLsbD_setWidth, hj, decide_true, Bool.true_and]
  have key : ∀ (q : Nat) (b : Byte), 8 * q ≤ 56 →
      (!decide (j < 8 * q) && (decide (j - 8 * q < 64) && b.getLsbD (j - 8 * q)))
        = (decide (j / 8 = q) && b.getLsbD (j % 8)) := by
    intro q b hq
    by_cases h1 : j < 8 * q
    · have : ¬ j / 8 = q := by omega
      simp [h1, this]
    · by_cases h2 : j / 8 = q
      · have : j - 8 * q = j % 8 := by omega
        rw [this]
        simp [h1, h2]
        omega
      · have : 8 ≤ j - 8 * q := by omega
        rw [BitVec.getLsbD_of_ge b _ this]
        simp [h2]
  have k0 := key 0 m[8 * k + 0] (by decide)
  have k1 := key 1 m[8 * k + 1] (by decide)
  have k2 := key 2 m[8 * k + 2] (by decide)
  have k3 := key 3 m[8 * k + 3] (by decide)
  have k4 := key 4 m[8 * k + 4] (by decide)
  have k5 := key 5 m[8 * k + 5] (by decide)
  have k6 := key 6 m[8 * k + 6] (by decide)
  have k7 := key 7 m[8 * k + 7] (by decide)
  simp only [Nat.reduceMul] at k0 k1 k2 k3 k4 k5 k6 k7
  rw [k0, k1, k2, k3, k4, k5, k6, k7]
  have : j / 8 = 0 ∨ j / 8 = 1 ∨ j / 8 = 2 ∨ j / 8 = 3 ∨ j / 8 = 4 ∨ j / 8 = 5 ∨ j / 8 = 6 ∨ j / 8 = 7 := by omega
  rcases this with e | e | e | e | e | e | e | e <;> simp [e]

theorem xorBlock_get {R : Nat} [hR : RateOK R] (s : Model.SHA3.State) (m : Block R) (k : Nat) (hk : k < 25) :
    (xorBlock s m)[k] = if h : k < R / 8 then s[k] ^^^ loadLE64 m k (by omega) else s[k] := by
  have hle := hR.le
  have := forRange_inv (lo := 0) (hi := R / 8) (by omega) (init := s)
    (body := fun i _ h s => s.set i (s[i] ^^^ loadLE64 m i))
    (fun n v => ∀ k (hk : k < 25), v[k] = if h : k < n ∧ k < R / 8 then s[k] ^^^ loadLE64 m k (by omega) else s[k])
    (by intro k hk; rw [dif_neg (by omega)])
    (by
      intro n _ hn v hv k hk
      rw [Vector.getElem_set]
      by_cases e : n = k
      · subst e
        rw [if_pos rfl, dif_pos (by omega), hv n hk, dif_neg (by omega)]
      · rw [if_neg e, hv k hk]
        by_cases h' : k < n
        · rw [dif_pos (by omega), dif_pos (by omega)]
        · rw [dif_neg (by omega), dif_neg (by omega)])
  have q := this k hk
  unfold xorBlock
  rw [q]
  by_cases h : k < R / 8
  · rw [dif_pos ⟨h, h⟩, dif_pos h]
  · rw [dif_neg (by omega), dif_neg h]

theorem xorBlock_bits {R : Nat} [hR : RateOK R] (h8 : R % 8 = 0) (s : Model.SHA3.State) (m : Block R) :
    bitsOf (xorBlock s m) =
      List.zipWith xor (bitsOf s) (Keccak.bits m.toList ++ List.replicate (1600 - 8 * R) false) := by
  have hle := hR.le
  apply List.ext_getElem?
  intro i
  rw [List.getElem?_zipWith]
  by_cases hi : i < 1600
  · rw [bitsOf_get _ _ hi, bitsOf_get _ _ hi, xorBlock_get s m (i / 64) (by omega), List.getElem?_append, bits_length,
      Vector.length_toList]
    by_cases h : i < 8 * R
    · rw [dif_pos (by omega), if_pos h, bits_get _ _ (by simp; omega)]
      simp only [BitVec.getLsbD_xor]
      rw [loadLE64_bit m (i / 64) (by omega) (i % 64) (by omega)]
      simp only [Vector.getElem_toList, show 8 * (i / 64) + i % 64 / 8 = i / 8 by omega,
        show i % 64 % 8 = i % 8 by omega]
    · rw [dif_neg (by omega), if_neg h, List.getElem?_replicate, if_pos (by omega)]
      simp
  · rw [List.getElem?_eq_none (by rw [bitsOf_length]; omega), List.getElem?_eq_none (l := bitsOf s)
      (by rw [bitsOf_length]; omega)]

theorem body_bits {R : Nat} [RateOK R] (h8 : R % 8 = 0) (s : Model.SHA3.State) (m : Block R) :
    bitsOf (body s m) = Keccak.keccakF
      (List.zipWith xor (bitsOf s) (Keccak.bits m.toList ++ List.replicate (1600 - 8 * R) false)) := by
  unfold body
  rw [← keccakF_bits, xorBlock_bits h8]

/-- absorbing a zero block is one permutation -/
theorem body_zero {R : Nat} [hR : RateOK R] (s : Model.SHA3.State) (m : Block R) (h : m.toList = List.replicate R 0) :
    body s m = permute s := by
  unfold body
  congr 1
  apply Vector.ext
  intro k hk
  rw [xorBlock_get s m k hk]
  by_cases h' : k < R / 8
  · rw [dif_pos h']
    have : loadLE64 m k (by omega) = 0 := by
      apply BitVec.eq_of_getLsbD_eq
      intro j hj
      rw [loadLE64_bit m k _ j hj]
      have : m[8 * k + j / 8] = m.toList[8 * k + j / 8]'(by simp; omega) := by simp
      rw [this]
      simp [h]
    rw [this]
    exact BitVec.xor_zero
  · rw [dif_neg h']

/-! ### Absorbing -/

theorem blocks_eq_map (n : Nat) (hn : 0 < n) (l : List Byte) :
    blocks n l = (List.range (l.length / n)).map fun i => (l.drop (n * i)).take n := by
  induction h : l.length / n generalizing l with
  | zero =>
    rw [blocks_short n l]
    · rfl
    · exact (Nat.div_eq_zero_iff_lt hn).mp h
  | succ k ih =>
    have hl : n ≤ l.length := by
      apply Nat.le_of_not_lt
      intro hh
      rw [Nat.div_eq_of_lt hh] at h
      omega
    rw [blocks_cons n l hn hl, ih (l.drop n), List.range_succ_eq_map, List.map_cons, List.map_map]
    · congr 1
      apply List.map_congr_left
      intro i _
      simp only [Function.comp, List.drop_drop]
      congr 2
      rw [Nat.mul_succ]; omega
    · rw [List.length_drop, show l.length - n = l.length - n * 1 by omega, Nat.sub_mul_div, h]; rfl

/-- `m_state` after absorbing a byte string of whole blocks -/
def absorbed (R : Nat) [RateOK R] (m : List Byte) : Model.SHA3.State := mdFold R body init.state m

theorem foldl_congr_fun {α β : Type} {f g : α → β → α} (h : ∀ a b, f a b = g a b) (l : List β) (a : α) :
    l.foldl f a = l.foldl g a := by
  rw [show f = g from funext fun a => funext fun b => h a b]

theorem absorbed_bits (R : Nat) [hR : RateOK R] (h8 : R % 8 = 0) (m : List Byte) :
    bitsOf (absorbed R m) =
      (List.range ((Keccak.bits m).length / (8 * R))).foldl (fun S i =>
        Keccak.keccakF (List.zipWith xor S (((Keccak.bits m).drop (8 * R * i)).take (8 * R) ++
          List.replicate (1600 - 8 * R) false))) (List.replicate 1600 false) := by
  unfold absorbed
  rw [mdFold_map (f := bitsOf) (scomp := fun S b => Keccak.keccakF (List.zipWith xor S (Keccak.bits b ++
    List.replicate (1600 - 8 * R) false))) (fun s m => body_bits h8 s m), blocks_eq_map R hR.pos,
    List.foldl_map, bits_length, Nat.mul_div_mul_left _ _ (by decide)]
  have h0 : bitsOf init.state = List.replicate 1600 false := by
    apply List.ext_getElem?
    intro i
    by_cases hi : i < 1600
    · rw [bitsOf_get _ _ hi, List.getElem?_replicate, if_pos hi]
      simp [init]
    · rw [List.getElem?_eq_none (by rw [bitsOf_length]; omega), List.getElem?_eq_none (by rw [List.length_replicate]; omega)]
  rw [h0]
  apply foldl_congr_fun
  intro S i
  rw [bits_take, bits_drop, Nat.mul_assoc]

/-! ### Padding -/

/-- `P` is the last message byte made of the suffix bits and the first bit of the padding -/
structure IsSuffix (P : Byte) (suf : List Bool) : Prop where
  short : suf.length ≤ 6
  plain : Keccak.bits [P] = suf ++ [true] ++ List.replicate (7 - suf.length) false
  last : Keccak.bits [P ||| 0x80] = suf ++ [true] ++ List.replicate (6 - suf.length) false ++ [true]

theorem suffix_sha3 : IsSuffix 0x06 [false, true] := by constructor <;> decide +kernel
theorem suffix_shake : IsSuffix 0x1F [true, true, true, true] := by constructor <;> decide +kernel
theorem suffix_cshake : IsSuffix 0x04 [false, false] := by constructor <;> decide +kernel

/-- the bytes `finalize()` appends to a message of `n` bytes -/
def padBytes (R : Nat) (P : Byte) (n : Nat) : List Byte :=
  if (2 * R - (n % R + 1)) % R = 0 then [P ||| 0x80]
  else [P] ++ List.replicate ((2 * R - (n % R + 1)) % R - 1) 0 ++ [0x80]

theorem zeros_mod {R t : Nat} (h : t < R) : (2 * R - (t + 1)) % R = R - (t + 1) := by
  rw [show 2 * R - (t + 1) = R + (R - (t + 1)) by omega, Nat.add_mod_left]
  by_cases h' : t + 1 = R
  · rw [h']; simp
  · exact Nat.mod_eq_of_lt (by omega)

theorem bits_zeros (k : Nat) : Keccak.bits (List.replicate k 0) = List.replicate (8 * k) false := by
  induction k with
  | zero => rfl
  | succ k ih =>
    rw [List.replicate_succ, show ((0 : Byte) :: List.replicate k 0) = [0] ++ List.replicate k 0 from rfl, bits_append,
      ih, show Keccak.bits [(0 : Byte)] = List.replicate 8 false from by decide +kernel, List.replicate_append_replicate]
    congr 1; omega

theorem bits_pad (R : Nat) (hR : 0 < R) (P : Byte) (suf : List Bool) (hs : IsSuffix P suf) (m : List Byte) :
    Keccak.bits (m ++ padBytes R P m.length) =
      (Keccak.bits m ++ suf) ++ Keccak.pad101 (8 * R) (Keccak.bits m ++ suf).length := by
  have hlt : m.length % R < R := Nat.mod_lt _ hR
  have h1 : (8 * m.length + suf.length + 2) % (8 * R) = (8 * (m.length % R) + suf.length + 2) % (8 * R) := by
    have : 8 * m.length = 8 * R * (m.length / R) + 8 * (m.length % R) := by
      rw [Nat.mul_assoc, ← Nat.mul_add, Nat.div_add_mod]
    rw [this, Nat.add_assoc, Nat.add_assoc, Nat.mul_add_mod, Nat.add_assoc]
  have hs6 := hs.short
  rw [bits_append, List.append_assoc]
  congr 1
  unfold padBytes Keccak.pad101
  rw [List.length_append, bits_length, h1, zeros_mod hlt]
  by_cases hk : R - (m.length % R + 1) = 0
  · rw [if_pos hk, hs.last]
    have hj : (8 * R - (8 * (m.length % R) + suf.length + 2) % (8 * R)) % (8 * R) = 6 - suf.length := by
      by_cases h6 : suf.length = 6
      · rw [show 8 * (m.length % R) + suf.length + 2 = 8 * R by omega, h6, Nat.mod_self]
        simp
      · rw [Nat.mod_eq_of_lt (show 8 * (m.length % R) + suf.length + 2 < 8 * R by omega),
          Nat.mod_eq_of_lt (by omega)]
        omega
    rw [hj]
    simp only [List.append_assoc]
  · rw [if_neg hk]
    have hj : (8 * R - (8 * (m.length % R) + suf.length + 2) % (8 * R)) % (8 * R)
        = (7 - suf.length) + (8 * (R - (m.length % R + 1) - 1) + 7) := by
      rw [Nat.mod_eq_of_lt (show 8 * (m.length % R) + suf.length + 2 < 8 * R by omega),
        Nat.mod_eq_of_lt (by omega)]
      omega
    rw [hj, bits_append, bits_append, hs.plain, bits_zeros, ← List.replicate_append_replicate,
      ← List.replicate_append_replicate (n := 8 * _),
      show Keccak.bits [(0x80 : Byte)] = List.replicate 7 false ++ [true] from by decide +kernel]
    simp only [List.append_assoc]

theorem padBytes_length (R : Nat) (hR : 0 < R) (P : Byte) (n : Nat) :
    (padBytes R P n).length = R - n % R := by
  have hlt : n % R < R := Nat.mod_lt _ hR
  unfold padBytes
  rw [zeros_mod hlt]
  split
  · simp; omega
  · simp; omega

theorem padded_mod (R : Nat) (hR : 0 < R) (P : Byte) (m : List Byte) :
    (m ++ padBytes R P m.length).length % R = 0 := by
  have hlt : m.length % R < R := Nat.mod_lt _ hR
  rw [List.length_append, padBytes_length R hR, Nat.add_mod]
  by_cases h : m.length % R = 0
  · rw [h]; simp
  · rw [Nat.mod_eq_of_lt (show R - m.length % R < R by omega), show m.length % R + (R - m.length % R) = R by omega,
      Nat.mod_self]

/-! ### Squeezing -/

/-- the bytes one squeeze step appends -/
def rateBytes (R : Nat) (s : Model.SHA3.State) : List Byte := (stateToVector s).take R

def out (R : Nat) (s : Model.SHA3.State) (n : Nat) : List Byte :=
  (List.range n).flatMap fun i => rateBytes R (Nat.repeat permute i s)

theorem rateBytes_length (R : Nat) [hR : RateOK R] (s : Model.SHA3.State) : (rateBytes R s).length = R := by
  have := hR.le
  simp [rateBytes, stateToVector_length]; omega

theorem out_length (R : Nat) [RateOK R] (s : Model.SHA3.State) (n : Nat) : (out R s n).length = n * R := by
  unfold out
  rw [length_const_flatMap _ _ R (fun _ _ => rateBytes_length R _), List.length_range]

theorem out_succ (R : Nat) (s : Model.SHA3.State) (n : Nat) :
    out R s (n + 1) = out R s n ++ rateBytes R (Nat.repeat permute n s) := by
  unfold out
  rw [List.range_succ, List.flatMap_append]
  simp

theorem out_add (R : Nat) (s : Model.SHA3.State) (n k : Nat) : ∃ t, out R s (n + k) = out R s n ++ t := by
  induction k with
  | zero => exact ⟨[], by simp⟩
  | succ k ih =>
    obtain ⟨t, e⟩ := ih
    exact ⟨_, by rw [← Nat.add_assoc, out_succ, e, List.append_assoc]⟩

theorem absorb_eq (R : Nat) [hR : RateOK R] (s : Model.SHA3.State) (d : List Byte) (h : d.length % R = 0) :
    absorb R s d = .ok (mdFold R body s d) := by
  unfold absorb
  rw [if_neg (by simp [h])]
  exact forBlocks_eq R hR.pos body d s

theorem absorb_zero (R : Nat) [hR : RateOK R] (s : Model.SHA3.State) :
    absorb R s (List.replicate R 0) = .ok (permute s) := by
  have hp := hR.pos
  rw [absorb_eq R s _ (by simp)]
  unfold mdFold
  rw [blocks_cons R _ hp (by simp), List.drop_of_length_le (by simp), blocks_nil, List.take_of_length_le (by simp)]
  simp only [List.foldl_cons, List.foldl_nil]
  rw [body_zero]
  rw [toList_toBlock]
  simp

theorem squeeze_step (R : Nat) [hR : RateOK R] (dl : Nat) (s : Model.SHA3.State) (n : Nat) (hn : n = (dl - 1) / R)
    (j : Nat) : ∀ i, i + j = n →
    squeeze R dl ⟨Nat.repeat permute i s, out R s i⟩ = .ok ⟨Nat.repeat permute n s, out R s (n + 1)⟩ := by
  have hp := hR.pos
  have hle := hR.le
  have hd := Nat.div_add_mod (dl - 1) R
  have hm := Nat.mod_lt (dl - 1) hp
  rw [← hn] at hd
  induction j with
  | zero =>
    intro i hi
    rw [squeeze]
    simp only []
    have e : out R s i ++ (stateToVector (Nat.repeat permute i s)).take R = out R s (i + 1) := (out_succ R s i).symm
    rw [dif_pos (by rw [stateToVector_length]; omega), e, dif_pos, show i = n by omega]
    rw [out_length, show i = n by omega, Nat.add_mul, Nat.mul_comm n R]
    omega
  | succ j ih =>
    intro i hi
    rw [squeeze]
    simp only []
    have e : out R s i ++ (stateToVector (Nat.repeat permute i s)).take R = out R s (i + 1) := (out_succ R s i).symm
    rw [dif_pos (by rw [stateToVector_length]; omega), e, dif_neg, absorb_zero]
    · exact ih (i + 1) (by omega)
    · rw [out_length]
      have : (i + 1) * R ≤ n * R := Nat.mul_le_mul_right R (by omega)
      have h0 : 0 < (i + 1) * R := Nat.mul_pos (by omega) hp
      rw [Nat.mul_comm n R] at this
      omega

theorem squeeze_eq (R : Nat) [RateOK R] (dl : Nat) (s : Model.SHA3.State) :
    squeeze R dl ⟨s, []⟩ = .ok ⟨Nat.repeat permute ((dl - 1) / R) s, out R s ((dl - 1) / R + 1)⟩ :=
  squeeze_step R dl s _ rfl ((dl - 1) / R) 0 (by omega)

theorem out_ge (R : Nat) [hR : RateOK R] (dl : Nat) (s : Model.SHA3.State) :
    dl ≤ (out R s ((dl - 1) / R + 1)).length := by
  have hd := Nat.div_add_mod (dl - 1) R
  have hm := Nat.mod_lt (dl - 1) hR.pos
  rw [out_length, Nat.add_mul, Nat.mul_comm _ R]
  omega

theorem out_take (R : Nat) [RateOK R] (dl : Nat) (s : Model.SHA3.State) :
    (out R s ((dl - 1) / R + 1)).take dl = (out R s (dl / R + 1)).take dl := by
  have : (dl - 1) / R ≤ dl / R := Nat.div_le_div_right (by omega)
  obtain ⟨t, e⟩ := out_add R s ((dl - 1) / R + 1) (dl / R - (dl - 1) / R)
  rw [show (dl - 1) / R + 1 + (dl / R - (dl - 1) / R) = dl / R + 1 by omega] at e
  rw [e, List.take_append_of_le_length (out_ge R dl s)]

theorem keccakF_repeat (s : Model.SHA3.State) (i : Nat) :
    Nat.repeat Keccak.keccakF i (bitsOf s) = bitsOf (Nat.repeat permute i s) := by
  induction i with
  | zero => rfl
  | succ i ih => rw [Nat.repeat, ih, keccakF_bits]; rfl

theorem flatMap_bits (l : List Nat) (f : Nat → List Byte) :
    (l.flatMap fun i => Keccak.bits (f i)) = Keccak.bits (l.flatMap f) := by
  induction l with
  | nil => rfl
  | cons a l ih => rw [List.flatMap_cons, List.flatMap_cons, bits_append, ih]

theorem absorb_spec (R : Nat) [hR : RateOK R] (h8 : R % 8 = 0) (P : Byte) (suf : List Bool) (hs : IsSuffix P suf)
    (m : List Byte) :
    Keccak.absorb (8 * R) (Keccak.bits m ++ suf) = bitsOf (absorbed R (m ++ padBytes R P m.length)) := by
  unfold Keccak.absorb
  dsimp only
  rw [← bits_pad R hR.pos P suf hs m, ← absorbed_bits R h8]

/-- the digest the code computes is the specification's sponge -/
theorem sponge_eq (R : Nat) [hR : RateOK R] (h8 : R % 8 = 0) (P : Byte) (suf : List Bool) (hs : IsSuffix P suf)
    (m : List Byte) (dl : Nat) :
    Keccak.bytes (Keccak.sponge (8 * R) (Keccak.bits m ++ suf) (8 * dl)) =
      (out R (absorbed R (m ++ padBytes R P m.length)) (dl / R + 1)).take dl := by
  unfold Keccak.sponge
  rw [absorb_spec R h8 P suf hs, Nat.mul_div_mul_left _ _ (by decide)]
  have : (fun i => List.take (8 * R) (Nat.repeat Keccak.keccakF i (bitsOf (absorbed R (m ++ padBytes R P m.length)))))
      = fun i => Keccak.bits (rateBytes R (Nat.repeat permute i (absorbed R (m ++ padBytes R P m.length)))) := by
    funext i
    rw [keccakF_repeat, bitsOf_eq, ← bits_take]
    rfl
  rw [this, flatMap_bits, ← bits_take, bytes_bits]
  rfl

/-! ### The class -/

def den (R : Nat) [RateOK R] (m : List Byte) : KState := ⟨absorbed R m, []⟩

theorem implOK (R : Nat) [hR : RateOK R] : ImplOK R (impl R) (den R) := by
  intro m d hm hd _
  unfold impl den
  dsimp only
  rw [absorb_eq R _ d hd]
  simp only [bind, Except.bind, pure, Except.pure]
  congr 2
  exact (mdFold_append R body init.state hR.pos m d hm).symm

theorem getAt_holds {N : Nat} {b : Buffer N} {l : List Byte} (h : b.Holds l) (p : Nat) (hp : p < l.length) :
    b.getAt p = .ok l[p] := by
  have hN := h.le
  unfold Buffer.getAt
  rw [dif_pos (by omega)]
  obtain ⟨h1, h2⟩ := h
  subst h2
  simp [Buffer.contents]

theorem set_append_last (a b : List Byte) (p : Nat) (v : Byte) : (a ++ b).set (a.length + p) v = a ++ b.set p v := by
  rw [List.set_append, if_neg (by omega), Nat.add_sub_cancel_left]

/-- what is left after `finalize()` of a message -/
def Final (R : Nat) [RateOK R] (P : Byte) (dl : Nat) (o : Obj R KState) (m : List Byte) : Prop :=
  o.chain.state = Nat.repeat permute ((dl - 1) / R) (absorbed R (m ++ padBytes R P m.length)) ∧
  o.chain.final = (out R (absorbed R (m ++ padBytes R P m.length)) (dl / R + 1)).take dl

theorem finalize_rel (R : Nat) [hR : RateOK R] (P : Byte) (dl : Nat) (o : Obj R KState) (m : List Byte)
    (h : Rel R (den R) o m) : ∃ o', finalize R P dl o = .ok o' ∧ Final R P dl o' m := by
  obtain ⟨hc, hb⟩ := h
  have hp := hR.pos
  have hle := hR.le
  have hr := restPart_length R m
  have hlt : m.length % R < R := Nat.mod_lt _ hp
  have hal : (alignedPart R m).length % R = 0 := by
    rw [alignedPart_length]; exact alignedLen_mod R m
  have hm := aligned_append_rest R m
  unfold finalize
  obtain ⟨b1, e1, h1⟩ := Buffer.fill_holds hb P 1 (by omega) (by omega)
  rw [e1]
  simp only [bind, Except.bind]
  have hs1 : b1.size = m.length % R + 1 := by rw [h1.size_eq, List.length_append, hr]; simp
  obtain ⟨b2, e2, h2⟩ := Buffer.fill_holds h1 0 ((2 * R - b1.size) % R)
    (by simp; omega) (by rw [hs1, zeros_mod hlt]; simp; omega)
  rw [e2]
  simp only []
  have hk : (2 * R - b1.size) % R = R - (m.length % R + 1) := by rw [hs1, zeros_mod hlt]
  rw [hk] at h2
  have hs2 : b2.size = R := by rw [h2.size_eq]; simp; omega
  have hl2 : (restPart R m ++ List.replicate 1 P ++ List.replicate (R - (m.length % R + 1)) 0).length = R := by
    simp; omega
  rw [hs2, getAt_holds h2 (R - 1) (by omega)]
  simp only []
  obtain ⟨b3, e3, h3⟩ := Buffer.setAt_holds h2 (R - 1)
    ((restPart R m ++ List.replicate 1 P ++ List.replicate (R - (m.length % R + 1)) 0)[R - 1] ||| 0x80) (by omega)
  rw [e3]
  simp only []
  have hpad : (restPart R m ++ List.replicate 1 P ++ List.replicate (R - (m.length % R + 1)) 0).set (R - 1)
      ((restPart R m ++ List.replicate 1 P ++ List.replicate (R - (m.length % R + 1)) 0)[R - 1] ||| 0x80)
      = restPart R m ++ padBytes R P m.length := by
    unfold padBytes
    rw [zeros_mod hlt]
    by_cases hz : R - (m.length % R + 1) = 0
    · rw [if_pos hz]
      simp only [hz, List.replicate_zero, List.append_nil, show R - 1 = (restPart R m).length + 0 by omega]
      rw [set_append_last]
      simp
    · rw [if_neg hz]
      obtain ⟨q, hq⟩ : ∃ q, R - (m.length % R + 1) = q + 1 := ⟨R - (m.length % R + 1) - 1, by omega⟩
      have hRm : R - 1 = (restPart R m).length + (1 + (q + 0)) := by omega
      have hget : (restPart R m ++ List.replicate 1 P ++ List.replicate (R - (m.length % R + 1)) (0 : Byte))[R - 1]
          = 0 := by
        rw [List.getElem_append_right (by simp; omega), List.getElem_replicate]
      rw [hget, hq, List.append_assoc, List.append_assoc, hRm, set_append_last]
      congr 1
      rw [show (1 : Nat) + (q + 0) = (List.replicate 1 P).length + (q + 0) by simp, set_append_last,
        List.replicate_succ' (n := q)]
      rw [show q + 0 = (List.replicate q (0 : Byte)).length + 0 by simp, set_append_last]
      simp
  rw [hpad] at h3
  have e4 := implOK R (alignedPart R m) (restPart R m ++ padBytes R P m.length) hal
    (by rw [List.length_append, padBytes_length R hp, hr]; simp [show m.length % R + (R - m.length % R) = R by omega])
    (by rw [List.length_append, padBytes_length R hp, hr]; omega)
  rw [← List.append_assoc, hm] at e4
  rw [h3.2, hc, e4]
  simp only [den]
  rw [squeeze_eq]
  simp only [pure, Except.pure]
  refine ⟨_, rfl, rfl, ?_⟩
  dsimp only
  have := out_ge R dl (absorbed R (m ++ padBytes R P m.length))
  rw [show dl - (out R (absorbed R (m ++ padBytes R P m.length)) ((dl - 1) / R + 1)).length = 0 by omega,
    List.replicate_zero, List.append_nil, out_take]

theorem den_nil (R : Nat) [RateOK R] : den R [] = init := by
  unfold den absorbed mdFold
  rw [blocks_nil]
  rfl

/-- `Keccak<R, P>(dl)` computes the sponge function with rate `R` bytes and the suffix in `P` -/
def refines (R : Nat) [hR : RateOK R] (h8 : R % 8 = 0) (P : Byte) (suf : List Bool) (hs : IsSuffix P suf) (dl : Nat) :
    Refines (Keccak R P dl)
      (fun m => .ok (Keccak.bytes (Keccak.sponge (8 * R) (Keccak.bits m ++ suf) (8 * dl)))) :=
  blockRefines (out := toVector) (N := R) hR.pos (by have := hR.le; omega) (Nat.le_refl R) (den_nil R) (implOK R)
    (Final R P dl) (finalize_rel R P dl)
    (dig := fun m => .ok (Keccak.bytes (Keccak.sponge (8 * R) (Keccak.bits m ++ suf) (8 * dl))))
    (by
      intro o m h
      unfold toVector
      rw [h.2, sponge_eq R h8 P suf hs])

theorem sponge_length (R : Nat) [hR : RateOK R] (h8 : R % 8 = 0) (P : Byte) (suf : List Bool) (hs : IsSuffix P suf)
    (m : List Byte) (dl : Nat) :
    (Keccak.bytes (Keccak.sponge (8 * R) (Keccak.bits m ++ suf) (8 * dl))).length = dl := by
  rw [sponge_eq R h8 P suf hs, ← out_take, List.length_take]
  have := out_ge R dl (absorbed R (m ++ padBytes R P m.length))
  omega

def refines224 : Refines SHA3_224 (fun m => .ok (Keccak.sha3_224 m)) := refines 144 rfl 0x06 _ suffix_sha3 28
def refines256 : Refines SHA3_256 (fun m => .ok (Keccak.sha3_256 m)) := refines 136 rfl 0x06 _ suffix_sha3 32
def refines384 : Refines SHA3_384 (fun m => .ok (Keccak.sha3_384 m)) := refines 104 rfl 0x06 _ suffix_sha3 48
def refines512 : Refines SHA3_512 (fun m => .ok (Keccak.sha3_512 m)) := refines 72 rfl 0x06 _ suffix_sha3 64
def refinesShake128 (d : Nat) : Refines (SHAKE_128 d) (fun m => .ok (Keccak.shake128 m d)) :=
  refines 168 rfl 0x1F _ suffix_shake d
def refinesShake256 (d : Nat) : Refines (SHAKE_256 d) (fun m => .ok (Keccak.shake256 m d)) :=
  refines 136 rfl 0x1F _ suffix_shake d

theorem sha3_224_length (m : List Byte) : (Keccak.sha3_224 m).length = 28 := sponge_length 144 rfl 0x06 _ suffix_sha3 m 28
theorem sha3_256_length (m : List Byte) : (Keccak.sha3_256 m).length = 32 := sponge_length 136 rfl 0x06 _ suffix_sha3 m 32
theorem sha3_384_length (m : List Byte) : (Keccak.sha3_384 m).length = 48 := sponge_length 104 rfl 0x06 _ suffix_sha3 m 48
theorem sha3_512_length (m : List Byte) : (Keccak.sha3_512 m).length = 64 := sponge_length 72 rfl 0x06 _ suffix_sha3 m 64
theorem shake128_length (m : List Byte) (d : Nat) : (Keccak.shake128 m d).length = d := sponge_length 168 rfl 0x1F _ suffix_shake m d
theorem shake256_length (m : List Byte) (d : Nat) : (Keccak.shake256 m d).length = d := sponge_length 136 rfl 0x1F _ suffix_shake m d

end Verif.Proof.SHA3
