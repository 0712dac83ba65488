import Verif.Proof.Stream

/-! The Merkle-Damgård style classes as folds of the compression function over the padded message. -/

namespace Verif
open Spec

/-- chaining value after a block-aligned byte string -/
def mdFold {H : Type} (B : Nat) (comp : H → Block B → H) (iv : H) (m : List Byte) : H :=
  (blocks B m).foldl (fun s l => comp s (toBlock B l)) iv

theorem mdFold_append {H : Type} (B : Nat) (comp : H → Block B → H) (iv : H) (hB : 0 < B)
    (a b : List Byte) (ha : a.length % B = 0) :
    mdFold B comp iv (a ++ b)
      = (blocks B b).foldl (fun s l => comp s (toBlock B l)) (mdFold B comp iv a) := by
  unfold mdFold
  rw [blocks_append B a b hB ha, List.foldl_append]

theorem mdImpl_ok {C H : Type} (B : Nat) (hB : 0 < B) (cnt : Counter C) (comp : H → Block B → H)
    (iv : H) : MDImplOK B cnt.add (mdImpl B cnt comp) (mdFold B comp iv) := by
  intro c m d hm hd
  unfold mdImpl
  rw [forBlocks_eq B hB, mdFold_append B comp iv hB m d hm]
  simp [hd, bind, Except.bind]
  rfl

/-- The counter `cnt` counts bytes and its length field for `n` bytes is `field n`. -/
structure CounterOK {C : Type} (cnt : Counter C) (L : Nat) (field : Nat → List Byte) where
  val : Nat → C
  val0 : val 0 = cnt.zero
  act : CntAct cnt.add val
  fieldC : C → List Byte
  writes : LenWritesOK L cnt.writes fieldC
  len : ∀ c, (fieldC c).length = L
  field_eq : ∀ n, fieldC (val n) = field n

/-- The padded message, in the form of the standards: one marker byte, the least number of zero
bytes, the length field. -/
def padded (B L : Nat) (padByte : Byte) (field : Nat → List Byte) (m : List Byte) : List Byte :=
  m ++ [padByte] ++ List.replicate ((B - (m.length + 1 + L) % B) % B) 0 ++ field m.length

theorem padZeros_eq (B L n : Nat) (hL : L + 1 ≤ B) :
    padZeros B L n = (B - (n + 1 + L) % B) % B := by
  have hr := Nat.mod_lt n (show 0 < B by omega)
  have h1 : (n + 1 + L) % B = (n % B + 1 + L) % B := by
    rw [Nat.add_assoc, Nat.add_assoc, Nat.mod_add_mod]
  unfold padZeros
  rw [h1]
  by_cases h : n % B + 1 + L < B
  · rw [Nat.mod_eq_of_lt h, show 2 * B - (n % B + 1 + L) = (B - (n % B + 1 + L)) + B by omega,
      Nat.add_mod_right]
  · have : (n % B + 1 + L) % B = n % B + 1 + L - B := by
      rw [show n % B + 1 + L = (n % B + 1 + L - B) + B by omega, Nat.add_mod_right,
        Nat.mod_eq_of_lt (by omega)]
      omega
    rw [this]
    congr 1; omega

theorem mdPad_padded {C : Type} {cnt : Counter C} {B L : Nat} {field : Nat → List Byte}
    (ok : CounterOK cnt L field) (hL : L + 1 ≤ B) (padByte : Byte) (m : List Byte) :
    m ++ mdPad B L padByte ok.val ok.fieldC m.length = padded B L padByte field m := by
  unfold mdPad padded
  rw [padZeros_eq B L _ hL, ok.field_eq]
  simp

/-- Every Merkle-Damgård style class refines "fold the compression function over the blocks of the
padded message". -/
def mdRefines {C H : Type} {B L : Nat} (hL : L + 1 ≤ B) (hBS : B < 2 ^ 64) (padByte : Byte)
    {cnt : Counter C} {field : Nat → List Byte} (ok : CounterOK cnt L field)
    (comp : H → Block B → H) (iv : H) (out : H → Except Fault (List Byte)) :
    Refines (mdApi B L padByte cnt comp iv out)
      (fun m => out (mdFold B comp iv (padded B L padByte field m))) where
  R := fun o m => Rel B (mdDen ok.val (mdFold B comp iv)) o m
  F := fun o m => o.chain.h = mdFold B comp iv (padded B L padByte field m)
  fresh := by
    refine ⟨?_, ?_⟩
    · simp only [mdApi, mdDen, alignedPart]
      simp [alignedLen, mdFold, blocks_nil, ok.val0]
    · have : restPart B ([] : List Byte) = [] := by simp [restPart]
      rw [this]
      exact Buffer.holds_clear {}
  add := by
    intro o m d hd h
    exact addData_rel (by omega) hBS (by omega)
      ((mdImpl_ok B (by omega) cnt comp iv).implOK ok.act) h d hd
  fin := by
    intro o m h
    obtain ⟨o', e, h'⟩ := mdFinalize_rel (padByte := padByte) (cntPost := cnt.post) hL hBS
      (Nat.le_refl _) ok.len ok.writes ok.act (mdImpl_ok B (by omega) cnt comp iv) h
    refine ⟨o', e, ?_⟩
    rw [h', mdPad_padded ok hL]
  resetR := fun _ _ _ => rfl
  resetF := fun _ _ _ => rfl
  out := by
    intro o m h
    simp only [mdApi]
    rw [h]

/-! ### The three counters -/

theorem toLE_mod (n x : Nat) : toLE n (x % 256 ^ n) = toLE n x := by
  induction n generalizing x with
  | zero => rfl
  | succ n ih =>
    simp only [toLE]
    rw [Nat.pow_succ, Nat.mul_comm, Nat.mod_mul_right_div_self, ih]
    congr 1
    apply BitVec.eq_of_toNat_eq
    simp only [BitVec.toNat_ofNat]
    exact Nat.mod_mul_right_mod _ _ _

theorem toBE_mod (n x : Nat) : toBE n (x % 256 ^ n) = toBE n x := by
  unfold toBE; rw [toLE_mod]

theorem toLE_add (a b x : Nat) : toLE (a + b) x = toLE a x ++ toLE b (x / 256 ^ a) := by
  induction a generalizing x with
  | zero => simp [toLE]
  | succ a ih =>
    rw [Nat.succ_add]
    simp only [toLE, List.cons_append]
    rw [ih, Nat.div_div_eq_div_mul, Nat.pow_succ, Nat.mul_comm 256]

theorem toBE_add (a b x : Nat) : toBE (a + b) x = toBE a (x / 256 ^ b) ++ toBE b x := by
  unfold toBE
  rw [Nat.add_comm, toLE_add, List.reverse_append]

theorem mul8_64 (n : Nat) : (BitVec.ofNat 64 n * 8).toNat = (8 * n) % 256 ^ 8 := by
  rw [BitVec.toNat_mul, BitVec.toNat_ofNat, show (8 : W64).toNat = 8 from rfl]
  omega

def counterBE64_ok : CounterOK counterBE64 8 (fun n => toBE 8 (8 * n)) where
  val := BitVec.ofNat 64
  val0 := rfl
  act := cntAct64
  fieldC := fun c => toBE 8 (c * 8).toNat
  writes := lenWritesBE64_ok
  len := fun _ => toBE_length _ _
  field_eq := fun n => by rw [mul8_64, toBE_mod]

def counterLE64_ok : CounterOK counterLE64 8 (fun n => toLE 8 (8 * n)) where
  val := BitVec.ofNat 64
  val0 := rfl
  act := cntAct64
  fieldC := fun c => toLE 8 (c * 8).toNat
  writes := lenWritesLE64_ok
  len := fun _ => toLE_length _ _
  field_eq := fun n => by rw [mul8_64, toLE_mod]

theorem lenWritesBE128_ok :
    LenWritesOK 16 (fun s (c : Uint128) => lenWritesBE128 s c.mul8)
      (fun c => toBE 8 c.mul8.hi.toNat ++ toBE 8 c.mul8.lo.toNat) := by
  constructor
  · intro s c hs w hw
    simp [lenWritesBE128, List.range_succ] at hw
    rcases hw with h | h | h | h | h | h | h | h | h | h | h | h | h | h | h | h <;> subst h <;>
      simp only [] <;> omega
  · intro l c
    rw [← storeBE_eq, ← storeBE_eq]
    simp [lenWritesBE128, List.range_succ, storeBE, Nat.add_assoc, List.replicate]

theorem mul8_cnt128 (n : Nat) : (cnt128 n).mul8 = cnt128 (8 * n) := by
  unfold Uint128.mul8 cnt128
  simp only [Uint128.mk.injEq]
  constructor
  · apply BitVec.eq_of_toNat_eq
    rw [BitVec.toNat_shiftLeft, BitVec.toNat_ofNat, BitVec.toNat_ofNat, Nat.shiftLeft_eq]
    omega
  · apply BitVec.eq_of_toNat_eq
    have h1 : ((BitVec.ofNat 64 n >>> 61).setWidth 8).toNat = n % 2 ^ 64 / 2 ^ 61 := by
      rw [BitVec.toNat_setWidth, BitVec.toNat_ushiftRight, BitVec.toNat_ofNat, Nat.shiftRight_eq_div_pow]
      omega
    have h2 : (BitVec.ofNat 64 (n / 2 ^ 64) <<< 3).toNat = 2 ^ 3 * (n / 2 ^ 64 % 2 ^ 61) := by
      rw [BitVec.toNat_shiftLeft, BitVec.toNat_ofNat, Nat.shiftLeft_eq]
      omega
    rw [BitVec.toNat_or, h2, BitVec.toNat_setWidth, h1, BitVec.toNat_ofNat,
      Nat.mod_eq_of_lt (a := n % 2 ^ 64 / 2 ^ 61) (b := 2 ^ 64) (by omega),
      ← Nat.two_pow_add_eq_or_of_lt (by omega)]
    omega

theorem cnt128_field (n : Nat) :
    toBE 8 (cnt128 n).hi.toNat ++ toBE 8 (cnt128 n).lo.toNat = toBE 16 n := by
  rw [show (16 : Nat) = 8 + 8 from rfl, toBE_add]
  simp only [cnt128, BitVec.toNat_ofNat]
  rw [show (2 : Nat) ^ 64 = 256 ^ 8 from by decide, toBE_mod, toBE_mod]

def counterBE128_ok : CounterOK counterBE128 16 (fun n => toBE 16 (8 * n)) where
  val := cnt128
  val0 := rfl
  act := cntAct128
  fieldC := fun c => toBE 8 c.mul8.hi.toNat ++ toBE 8 c.mul8.lo.toNat
  writes := lenWritesBE128_ok
  len := fun _ => by simp [toBE_length]
  field_eq := fun n => by rw [mul8_cnt128, cnt128_field]

/-- Replacing the model's compression function by a specification's. -/
theorem mdFold_map {H S : Type} {B : Nat} {comp : H → Block B → H} {scomp : S → List Byte → S}
    {f : H → S} (hc : ∀ h (b : Block B), f (comp h b) = scomp (f h) b.toList) (iv : H)
    (m : List Byte) : f (mdFold B comp iv m) = (blocks B m).foldl scomp (f iv) := by
  unfold mdFold
  have hb : ∀ b ∈ blocks B m, b.length = B := fun b h => mem_blocks_length B m b h
  revert hb
  generalize blocks B m = bs
  intro hb
  induction bs generalizing iv with
  | nil => rfl
  | cons b bs ih =>
    rw [List.foldl_cons, List.foldl_cons, ih _ (fun b' h => hb b' (by simp [h])),
      hc, toList_toBlock b (hb b (by simp))]

end Verif
