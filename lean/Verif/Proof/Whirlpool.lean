import Verif.Model.Whirlpool
import Verif.Proof.WhirlpoolTables
import Verif.Proof.Regs

/-! The Whirlpool model computes the Whirlpool specification. -/

namespace Verif.Proof.Whirlpool
open Model.Whirlpool Spec

def matOf (x : Vector W64 8) : Whirlpool.Mat := fun i j => col x[i] j

theorem col_xor (x y : W64) (j : Fin 8) : col (x ^^^ y) j = col x j ^^^ col y j := by
  unfold col ror
  ext i hi
  simp

theorem col_rot (x : W64) (k j : Fin 8) : col (x.rotateRight (8 * k.val)) j = col x (j - k) := by
  unfold col ror
  apply BitVec.eq_of_getLsbD_eq
  intro i hi
  simp only [BitVec.getLsbD_setWidth, BitVec.getLsbD_ushiftRight, BitVec.getLsbD_rotateRight, hi,
    decide_true, Bool.true_and, Fin.sub_def, Bool.cond_decide]
  have hk := k.isLt
  have hj := j.isLt
  rw [Nat.mod_eq_of_lt (show 8 * k.val < 64 by omega)]
  by_cases h : k.val ≤ j.val
  · have e : (8 - k.val + j.val) % 8 = j.val - k.val := by omega
    rw [e, if_pos (by omega)]
    congr 1; omega
  · have e : (8 - k.val + j.val) % 8 = 8 + j.val - k.val := by omega
    rw [e]
    by_cases h2 : 56 - 8 * j.val + i < 64 - 8 * k.val
    · omega
    · rw [if_neg h2]
      have : 56 - 8 * j.val + i < 64 := by omega
      simp only [this, decide_true, Bool.true_and]
      congr 1; omega

theorem col_c0 (v : Byte) (j : Fin 8) : col (c0 v) j =
    Whirlpool.gmul (Whirlpool.sbox v) (Whirlpool.cir.getD j.val 0) := by
  have := c0_table ⟨v.toNat, v.isLt⟩ j
  rwa [show BitVec.ofNat 8 (⟨v.toNat, v.isLt⟩ : Fin 256).val = v by simp] at this

/-- column `j` of table `k` -/
theorem col_ck {t : Byte → W64} (k : Fin 8) (h : ∀ v : Byte, t v = (c0 v).rotateRight (8 * k.val))
    (v : Byte) (j : Fin 8) : col (t v) j = Whirlpool.gmul (Whirlpool.sbox v) (Whirlpool.C k j) := by
  rw [h, col_rot, col_c0]
  rfl

theorem tables (v : Fin 256) (j : Fin 8) :
    let p (k : Fin 8) := Whirlpool.gmul (Whirlpool.sbox (BitVec.ofNat 8 v.val)) (Whirlpool.C k j)
    col cTable0[v] j = p 0 ∧ col cTable1[v] j = p 1 ∧ col cTable2[v] j = p 2 ∧ col cTable3[v] j = p 3 ∧
    col cTable4[v] j = p 4 ∧ col cTable5[v] j = p 5 ∧ col cTable6[v] j = p 6 ∧ col cTable7[v] j = p 7 := by
  have hv : (BitVec.ofNat 8 v.val).toNat = v.val := by simp
  have g : ∀ (t : Vector W64 256), t[(BitVec.ofNat 8 v.val).toNat]'(BitVec.isLt _) = t[v.val] := by
    intro t; congr 1
  have q0 := col_ck (t := c0) 0 (fun v => by simp [BitVec.rotateRight_def]) (BitVec.ofNat 8 v.val) j
  have q1 := col_ck (t := c1) 1 (fun v => rot1 ⟨v.toNat, v.isLt⟩) (BitVec.ofNat 8 v.val) j
  have q2 := col_ck (t := c2) 2 (fun v => rot2 ⟨v.toNat, v.isLt⟩) (BitVec.ofNat 8 v.val) j
  have q3 := col_ck (t := c3) 3 (fun v => rot3 ⟨v.toNat, v.isLt⟩) (BitVec.ofNat 8 v.val) j
  have q4 := col_ck (t := c4) 4 (fun v => rot4 ⟨v.toNat, v.isLt⟩) (BitVec.ofNat 8 v.val) j
  have q5 := col_ck (t := c5) 5 (fun v => rot5 ⟨v.toNat, v.isLt⟩) (BitVec.ofNat 8 v.val) j
  have q6 := col_ck (t := c6) 6 (fun v => rot6 ⟨v.toNat, v.isLt⟩) (BitVec.ofNat 8 v.val) j
  have q7 := col_ck (t := c7) 7 (fun v => rot7 ⟨v.toNat, v.isLt⟩) (BitVec.ofNat 8 v.val) j
  unfold c0 at q0; unfold c1 at q1; unfold c2 at q2; unfold c3 at q3
  unfold c4 at q4; unfold c5 at q5; unfold c6 at q6; unfold c7 at q7
  rw [g] at q0 q1 q2 q3 q4 q5 q6 q7
  exact ⟨q0, q1, q2, q3, q4, q5, q6, q7⟩

theorem func_eq (x : Vector W64 8) (i j : Fin 8) :
    col (func x i (i - 1) (i - 2) (i - 3) (i - 4) (i - 5) (i - 6) (i - 7)) j
      = Whirlpool.theta (Whirlpool.pi (Whirlpool.gamma (matOf x))) i j := by
  unfold func Whirlpool.theta
  simp only [col_xor]
  rw [col_ck (t := c0) 0 (fun v => by simp [BitVec.rotateRight_def]) _ j,
    col_ck (t := c1) 1 (fun v => rot1 ⟨v.toNat, v.isLt⟩) _ j,
    col_ck (t := c2) 2 (fun v => rot2 ⟨v.toNat, v.isLt⟩) _ j,
    col_ck (t := c3) 3 (fun v => rot3 ⟨v.toNat, v.isLt⟩) _ j,
    col_ck (t := c4) 4 (fun v => rot4 ⟨v.toNat, v.isLt⟩) _ j,
    col_ck (t := c5) 5 (fun v => rot5 ⟨v.toNat, v.isLt⟩) _ j,
    col_ck (t := c6) 6 (fun v => rot6 ⟨v.toNat, v.isLt⟩) _ j,
    col_ck (t := c7) 7 (fun v => rot7 ⟨v.toNat, v.isLt⟩) _ j]
  rw [show List.finRange 8 = [0, 1, 2, 3, 4, 5, 6, 7] from rfl]
  simp only [List.foldl_cons, List.foldl_nil]
  rw [show ∀ x : Byte, (0 : Byte) ^^^ x = x from fun _ => BitVec.zero_xor]
  simp only [Whirlpool.pi, Whirlpool.gamma, matOf]
  rw [(by decide : ∀ i : Fin 8, i - 0 = i) i]
  rfl

theorem rc_eq : ∀ (r : Fin 10) (j : Fin 8), col roundConstant[r] j = Whirlpool.rc (r.val + 1) 0 j := by
  decide +kernel

/-- the eight rows of one application of θ ∘ π ∘ γ -/
def rows (x : Vector W64 8) : Vector W64 8 := #v[
    func x 0 7 6 5 4 3 2 1, func x 1 0 7 6 5 4 3 2, func x 2 1 0 7 6 5 4 3, func x 3 2 1 0 7 6 5 4,
    func x 4 3 2 1 0 7 6 5, func x 5 4 3 2 1 0 7 6, func x 6 5 4 3 2 1 0 7, func x 7 6 5 4 3 2 1 0]

theorem rows_eq (x : Vector W64 8) (i : Fin 8) :
    (rows x)[i] = func x i (i - 1) (i - 2) (i - 3) (i - 4) (i - 5) (i - 6) (i - 7) := by
  match i with
  | 0 => rfl | 1 => rfl | 2 => rfl | 3 => rfl | 4 => rfl | 5 => rfl | 6 => rfl | 7 => rfl

theorem fin8 {p : Fin 8 → Prop} (h0 : p 0) (h1 : p 1) (h2 : p 2) (h3 : p 3) (h4 : p 4) (h5 : p 5)
    (h6 : p 6) (h7 : p 7) (i : Fin 8) : p i := by
  match i with
  | 0 => exact h0 | 1 => exact h1 | 2 => exact h2 | 3 => exact h3
  | 4 => exact h4 | 5 => exact h5 | 6 => exact h6 | 7 => exact h7

theorem roundKey_eq (k s : Vector W64 8) (r : Fin 10) :
    matOf (round k s r).1 = Whirlpool.rho (Whirlpool.rc (r.val + 1)) (matOf k) := by
  funext i j
  show col ((round k s r).1[i]) j = Whirlpool.theta (Whirlpool.pi (Whirlpool.gamma (matOf k))) i j
    ^^^ Whirlpool.rc (r.val + 1) i j
  rw [← func_eq, ← rows_eq]
  have hz (i : Fin 8) (h : i ≠ 0) : Whirlpool.rc (r.val + 1) i j = 0 := by
    unfold Whirlpool.rc; rw [if_neg h]
  revert i
  refine fin8 ?_ ?_ ?_ ?_ ?_ ?_ ?_ ?_
  · show col ((rows k)[(0 : Fin 8)] ^^^ roundConstant[r]) j = _
    rw [col_xor, rc_eq]
  all_goals
    rw [hz _ (by decide), show ∀ x : Byte, x ^^^ 0 = x from fun _ => BitVec.xor_zero]
    rfl

theorem roundState_eq (k s : Vector W64 8) (r : Fin 10) :
    matOf (round k s r).2 = Whirlpool.rho (matOf (round k s r).1) (matOf s) := by
  funext i j
  show col ((round k s r).2[i]) j = Whirlpool.theta (Whirlpool.pi (Whirlpool.gamma (matOf s))) i j
    ^^^ col ((round k s r).1[i]) j
  rw [← func_eq, ← rows_eq, ← col_xor]
  revert i
  refine fin8 ?_ ?_ ?_ ?_ ?_ ?_ ?_ ?_ <;> rfl

/-- the state after the first `n` rounds -/
theorem rounds_inv (k s : Vector W64 8) (n : Nat) (hn : n ≤ 10) :
    let p := ((List.finRange 10).take n).foldl (fun s r => round s.1 s.2 r) (k, s)
    matOf p.1 = Whirlpool.key (matOf k) n ∧
    matOf p.2 = (List.range n).foldl (fun a r => Whirlpool.rho (Whirlpool.key (matOf k) (r + 1)) a) (matOf s) := by
  induction n with
  | zero => exact ⟨rfl, rfl⟩
  | succ n ih =>
    obtain ⟨h1, h2⟩ := ih (by omega)
    have e : (List.finRange 10).take (n + 1) = (List.finRange 10).take n ++ [⟨n, by omega⟩] := by
      rw [List.take_add_one, List.getElem?_eq_getElem (by simp; omega), List.getElem_finRange]
      rfl
    simp only [e, List.foldl_append, List.foldl_cons, List.foldl_nil, List.range_succ]
    generalize List.foldl _ (k, s) ((List.finRange 10).take n) = p at h1 h2
    refine ⟨?_, ?_⟩
    · rw [roundKey_eq, h1]
      rfl
    · rw [roundState_eq, roundKey_eq, h1, h2]
      rfl

theorem rounds_eq (k s : Vector W64 8) : matOf (rounds k s).2
    = (List.range 10).foldl (fun a r => Whirlpool.rho (Whirlpool.key (matOf k) (r + 1)) a) (matOf s) :=
  (rounds_inv k s 10 (by decide)).2

/-- the message block as words is the block as a matrix -/
theorem load_col (m : Block 64) (i j : Fin 8) : col (loadBE64 m i) j = Whirlpool.mu m.toList i j := by
  have hi := i.isLt
  have hj := j.isLt
  unfold Whirlpool.mu
  rw [List.getD_eq_getElem?_getD, List.getElem?_eq_getElem (by simp; omega), Option.getD_some,
    Vector.getElem_toList]
  apply BitVec.eq_of_toNat_eq
  unfold col ror
  rw [BitVec.toNat_setWidth, BitVec.toNat_ushiftRight, Nat.shiftRight_eq_div_pow]
  simp only [loadBE64, BitVec.toNat_or]
  rw [shl_toNat _ _ _ (by decide), shl_toNat _ _ _ (by decide), shl_toNat _ _ _ (by decide),
    shl_toNat _ _ _ (by decide), shl_toNat _ _ _ (by decide), shl_toNat _ _ _ (by decide),
    shl_toNat _ _ _ (by decide), shl_toNat _ _ _ (by decide), toNat_or8]
  have b (k : Nat) (hk : k < 64) : m[k].toNat < 256 := m[k].isLt
  have b0 := b (8 * i.val + 0) (by omega)
  have b1 := b (8 * i.val + 1) (by omega)
  have b2 := b (8 * i.val + 2) (by omega)
  have b3 := b (8 * i.val + 3) (by omega)
  have b4 := b (8 * i.val + 4) (by omega)
  have b5 := b (8 * i.val + 5) (by omega)
  have b6 := b (8 * i.val + 6) (by omega)
  have b7 := b (8 * i.val + 7) (by omega)
  obtain ⟨j, hj'⟩ := j
  simp only at hj ⊢
  have : j = 0 ∨ j = 1 ∨ j = 2 ∨ j = 3 ∨ j = 4 ∨ j = 5 ∨ j = 6 ∨ j = 7 := by omega
  rcases this with h | h | h | h | h | h | h | h <;> subst h <;> simp <;> omega

theorem compress_eq (h : Vector W64 8) (m : Block 64) :
    matOf (compress h m) = Whirlpool.compress (matOf h) m.toList := by
  have e1 : matOf (Vector.ofFn fun j : Fin 8 => loadBE64 m j ^^^ h[j])
      = Whirlpool.sigma (Whirlpool.key (matOf h) 0) (Whirlpool.mu m.toList) := by
    funext i j
    simp only [matOf, Whirlpool.sigma, Whirlpool.key]
    rw [← load_col, ← col_xor]
    simp
  have e2 := rounds_eq h (Vector.ofFn fun j : Fin 8 => loadBE64 m j ^^^ h[j])
  rw [e1] at e2
  funext i j
  unfold compress Whirlpool.compress Whirlpool.W
  rw [← e2, ← load_col]
  simp only [matOf]
  rw [← col_xor, ← col_xor]
  simp

theorem toArray_eq (h : Vector W64 8) : toArray h = .ok (Whirlpool.unmu (matOf h)) := by
  unfold toArray
  have e : h.toList.flatMap (storeBE 8) = Whirlpool.unmu (matOf h) := by
    rw [vec8_toList]
    rfl
  rw [e, resultArray_exact _ _ (show (Whirlpool.unmu (matOf h)).length = 64 from rfl)]

/-! ### The 32-byte length field -/

theorem writes32_ok : LenWritesOK 32 counterBE128.writes
    (fun c => List.replicate 16 0 ++ (toBE 8 c.mul8.hi.toNat ++ toBE 8 c.mul8.lo.toNat)) where
  bound := fun s c hs w hw => lenWritesBE128_ok.bound s c (by omega) w hw
  value := fun l c => by
    have := lenWritesBE128_ok.value (l ++ List.replicate 16 0) c
    rw [List.length_append, List.length_replicate, List.append_assoc, List.append_assoc,
      List.replicate_append_replicate, Nat.add_assoc] at this
    exact this

def counter32_ok : CounterOK counterBE128 32 (fun n => List.replicate 16 0 ++ toBE 16 (8 * n)) where
  val := cnt128
  val0 := rfl
  act := cntAct128
  fieldC := fun c => List.replicate 16 0 ++ (toBE 8 c.mul8.hi.toNat ++ toBE 8 c.mul8.lo.toNat)
  writes := writes32_ok
  len := fun _ => by simp [toBE_length]
  field_eq := fun n => by rw [mul8_cnt128, cnt128_field]

/-- the padding with the length reduced to 128 bits -/
def pad128 (M : List Byte) : List Byte :=
  padded 64 32 0x80 (fun n => List.replicate 16 0 ++ toBE 16 (8 * n)) M

/-- the digest for every message, however long -/
def whirlpool128 (M : List Byte) : List Byte :=
  Whirlpool.unmu ((blocks 64 (pad128 M)).foldl Whirlpool.compress (fun _ _ => 0))

theorem matOf_iv : matOf iv = fun _ _ => 0 := by
  funext i j
  revert i j
  decide +kernel

def refines : Refines Whirlpool (fun m => .ok (whirlpool128 m)) :=
  (mdRefines (by decide) (by decide) 0x80 counter32_ok compress iv toArray).congr fun m => by
    rw [toArray_eq, mdFold_map (f := matOf) compress_eq, matOf_iv]
    rfl

theorem toLE_small (a b x : Nat) (h : x < 256 ^ a) : toLE (a + b) x = toLE a x ++ List.replicate b 0 := by
  rw [toLE_add, Nat.div_eq_of_lt h]
  congr 1
  clear h
  induction b with
  | zero => rfl
  | succ b ih => simp only [toLE, Nat.zero_div, ih, List.replicate_succ]; rfl

/-- below 2^125 bytes the 256-bit length is the 128-bit one -/
theorem pad128_eq (M : List Byte) (h : M.length < 2 ^ 125) : pad128 M = Whirlpool.pad M := by
  unfold pad128 padded Whirlpool.pad
  have : toBE 32 (8 * M.length) = List.replicate 16 0 ++ toBE 16 (8 * M.length) := by
    unfold toBE
    rw [toLE_small 16 16 _ (by omega), List.reverse_append, List.reverse_replicate]
  rw [this]

theorem whirlpool128_eq (M : List Byte) (h : M.length < 2 ^ 125) : whirlpool128 M = Whirlpool.whirlpool M := by
  unfold whirlpool128 Whirlpool.whirlpool
  rw [pad128_eq M h]

end Verif.Proof.Whirlpool
