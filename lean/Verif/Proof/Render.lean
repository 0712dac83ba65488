import Verif.Core.Render
import Verif.Proof.Num

/-! # `renderHex` and `convertInt` -/

namespace Verif.Proof.Render
open Spec

theorem hexChar_upper (c : Byte) : hexChar (ror 8 c 4) = hexDigit (c.toNat / 16) := by
  revert c; decide +kernel

theorem hexChar_lower (c : Byte) : hexChar (c &&& 0xf) = hexDigit (c.toNat % 16) := by
  revert c; decide +kernel

theorem hex_length (l : List Byte) : (hex l).length = 2 * l.length := by
  induction l with
  | nil => rfl
  | cons b l ih =>
    have : hex (b :: l) = [hexDigit (b.toNat / 16), hexDigit (b.toNat % 16)] ++ hex l := rfl
    rw [this, List.length_append, ih]; simp; omega

theorem hexLoop_eq (cs : List Byte) : ∀ (pre : List Char) (post : List Char),
    post.length = 2 * cs.length → hexLoop cs (pre ++ post) pre.length = .ok (pre ++ hex cs) := by
  induction cs with
  | nil => intro pre post h; simp at h; subst h; simp [hexLoop, hex]
  | cons c cs ih =>
    intro pre post h
    match post, h with
    | x :: y :: post, h =>
      have hp : post.length = 2 * cs.length := by simp at h; omega
      have e1 : writeChar (pre ++ x :: y :: post) pre.length (hexChar (ror 8 c 4)) =
          .ok (pre ++ hexDigit (c.toNat / 16) :: y :: post) := by
        unfold writeChar
        rw [if_pos (by simp), List.set_append_right _ _ (Nat.le_refl _), Nat.sub_self, hexChar_upper]
        rfl
      have e2 : writeChar (pre ++ hexDigit (c.toNat / 16) :: y :: post) (pre.length + 1)
          (hexChar (c &&& 0xf)) =
          .ok (pre ++ hexDigit (c.toNat / 16) :: hexDigit (c.toNat % 16) :: post) := by
        unfold writeChar
        rw [if_pos (by simp), List.set_append_right _ _ (by omega), hexChar_lower,
          show pre.length + 1 - pre.length = 1 from by omega]
        rfl
      unfold hexLoop
      simp only [e1, e2, bind, Except.bind]
      have := ih (pre ++ [hexDigit (c.toNat / 16), hexDigit (c.toNat % 16)]) post hp
      simp only [List.append_assoc, List.length_append, List.length_cons, List.length_nil,
        List.cons_append, List.nil_append] at this
      rw [this]
      rfl
    | [], h => simp at h
    | [_], h => simp at h; omega

theorem renderHex_eq (d : List Byte) (h : d ≠ []) : renderHex d = .ok (hex d) := by
  have hl : 0 < d.length := List.length_pos_iff.2 h
  unfold renderHex
  simp only [List.length_replicate]
  rw [if_neg (by omega)]
  exact hexLoop_eq d [] _ (by simp)

theorem renderHex_nil : renderHex [] = .error .emptyFront := rfl

theorem hexDigit_inj : ∀ a b : Fin 16, hexDigit a.val = hexDigit b.val → a = b := by decide

theorem hex_inj : ∀ {l m : List Byte}, hex l = hex m → l = m
  | [], [], _ => rfl
  | [], b :: m, h => by simp [hex] at h
  | b :: l, [], h => by simp [hex] at h
  | b :: l, c :: m, h => by
    have e : ∀ (b : Byte) l, hex (b :: l) = hexDigit (b.toNat / 16) :: hexDigit (b.toNat % 16) :: hex l :=
      fun _ _ => rfl
    rw [e, e] at h
    injection h with h1 h
    injection h with h2 h3
    have hb := b.isLt
    have hc := c.isLt
    have k1 := hexDigit_inj ⟨b.toNat / 16, by omega⟩ ⟨c.toNat / 16, by omega⟩ h1
    have k2 := hexDigit_inj ⟨b.toNat % 16, by omega⟩ ⟨c.toNat % 16, by omega⟩ h2
    have k1 := congrArg Fin.val k1
    have k2 := congrArg Fin.val k2
    simp only at k1 k2
    have : b = c := BitVec.eq_of_toNat_eq (by omega)
    rw [this, hex_inj h3]

theorem ofBE_lt (l : List Byte) : ofBE l < 256 ^ l.length := by
  rw [ofBE_eq, ← List.length_reverse]
  induction l.reverse with
  | nil => simp [ofLE]
  | cons b l ih =>
    have hb := b.isLt
    rw [ofLE, List.length_cons, Nat.pow_succ]
    omega

theorem intLoop_eq (k : Nat) (d : List Byte) : ∀ (n i : Nat) (ret : BitVec (8 * k)), n + i ≤ k →
    n + i ≤ d.length → ret.toNat = ofBE (d.take i) →
    ∃ v, intLoop k d n i ret = .ok v ∧ v.toNat = ofBE (d.take (n + i)) := by
  intro n
  induction n with
  | zero => intro i ret _ _ h; exact ⟨ret, rfl, by simpa using h⟩
  | succ n ih =>
    intro i ret hk hd h
    have hi : i < d.length := by omega
    have hget : d[i]? = some d[i] := List.getElem?_eq_getElem hi
    unfold intLoop
    rw [hget]
    simp only
    have hv : ((ret <<< 8) ||| (d[i]).setWidth (8 * k)).toNat = ofBE (d.take (i + 1)) := by
      have ht : d.take (i + 1) = d.take i ++ [d[i]] := by rw [List.take_succ, hget]; rfl
      have hlt := ofBE_lt (d.take i)
      rw [List.length_take, Nat.min_eq_left (by omega)] at hlt
      have hb := (d[i]).isLt
      have hp : 256 ^ (i + 1) ≤ 2 ^ (8 * k) := by
        rw [show (256 : Nat) = 2 ^ 8 from rfl, ← Nat.pow_mul]
        exact Nat.pow_le_pow_right (by omega) (by omega)
      have hp8 : 2 ^ 8 ≤ 2 ^ (8 * k) := Nat.pow_le_pow_right (by omega) (by omega)
      rw [ht, ofBE_append_one, BitVec.toNat_or, BitVec.toNat_shiftLeft, BitVec.toNat_setWidth, h,
        Nat.mod_eq_of_lt (a := (d[i]).toNat) (by omega), Nat.shiftLeft_eq, Nat.mod_eq_of_lt (by
          rw [Nat.pow_succ] at hp; omega), ← Nat.shiftLeft_eq, ← Nat.shiftLeft_add_eq_or_of_lt hb,
        Nat.shiftLeft_eq]
      omega
    obtain ⟨v, e, ev⟩ := ih (i + 1) _ (by omega) (by omega) hv
    exact ⟨v, e, by rw [ev]; congr 2; omega⟩

theorem convertInt_eq (k : Nat) (d : List Byte) :
    ∃ v, convertInt k d = .ok v ∧ v.toNat = ofBE (d.take k) := by
  obtain ⟨v, e, ev⟩ := intLoop_eq k d (min k d.length) 0 0 (by omega) (by omega) (by simp [ofBE])
  refine ⟨v, e, ?_⟩
  rw [ev, Nat.add_zero]
  congr 1
  rcases Nat.le_total k d.length with h | h
  · rw [Nat.min_eq_left h]
  · rw [Nat.min_eq_right h, List.take_of_length_le (Nat.le_refl _), List.take_of_length_le h]

theorem hexFaithful {O : Type} {A : API O} {n : Nat} (h : A.DigestSize n) (hn : 0 < n) : A.HexFaithful := by
  intro ops hl
  obtain ⟨o, d, e, ed, hd⟩ := h ops hl
  refine ⟨o, d, e, ed, ?_, ?_⟩
  · simp [API.toVector, ed, bind, Except.bind, pure, Except.pure]
  · simp only [API.toString, ed, bind, Except.bind]
    exact renderHex_eq d (by rintro rfl; simp at hd; omega)

theorem intFaithful {O : Type} {A : API O} {n : Nat} (h : A.DigestSize n) : A.IntFaithful := by
  intro ops hl
  obtain ⟨o, d, e, ed, hd⟩ := h ops hl
  have key : ∀ k, ∃ v, A.toUInt k o = .ok v ∧ v.toNat = ofBE (d.take k) := by
    intro k
    simp only [API.toUInt, ed, bind, Except.bind]
    exact convertInt_eq k d
  exact ⟨o, d, e, ed, key, key 8⟩

end Verif.Proof.Render
