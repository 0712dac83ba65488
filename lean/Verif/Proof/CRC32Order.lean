import Verif.Proof.CRC32
import Mathlib.Data.Nat.Prime.Basic
import Mathlib.Tactic.NormNum.Prime

/-!
# Error detection of CRC-32, and the period of its shift register
-/

namespace Verif.Proof.CRC32
open Spec Spec.CRC32

/-! ### tables -/

theorem shift1_eq (x : W32) : shift1 x = z x := by
  rw [z_eq]
  unfold shift1
  congr 1
  have h : x &&& 1 = bw (x.getLsbD 0) := by
    apply BitVec.eq_of_getLsbD_eq
    intro i hi
    rw [BitVec.getLsbD_and]
    by_cases h0 : i = 0
    · subst h0; cases x.getLsbD 0 <;> decide
    · have h1 : (1 : W32).getLsbD i = false := by
        show (1#32).getLsbD i = false
        rw [BitVec.getLsbD_one]; simp; omega
      rw [h1, Bool.and_false]
      cases x.getLsbD 0
      · show false = (0#32).getLsbD i; simp
      · exact h1.symm
  rw [h]
  cases x.getLsbD 0 <;> decide

theorem entry0_eq (i : Nat) : entry0 i = zn 8 (BitVec.ofNat 32 i) := by
  unfold entry0
  simp only [shift1_eq]
  rfl

theorem zn8_split (x : W32) : zn 8 x = (x >>> 8) ^^^ zn 8 (x &&& 0xFF) := by
  have e : x = (x >>> 8) <<< 8 ^^^ (x &&& 0xFF) := by
    apply BitVec.eq_of_getLsbD_eq
    intro i hi
    rw [BitVec.getLsbD_xor, BitVec.getLsbD_and, BitVec.getLsbD_shiftLeft, BitVec.getLsbD_ushiftRight]
    have hff : (0xFF : W32).getLsbD i = decide (i < 8) := by
      have : ∀ i : Fin 32, (0xFF : W32).getLsbD i.val = decide (i.val < 8) := by decide
      exact this ⟨i, hi⟩
    rw [hff]
    by_cases h0 : i < 8
    · simp [h0]
    · simp [h0, hi, show 8 + (i - 8) = i by omega]
  have hs : zn 8 ((x >>> 8) <<< 8) = x >>> 8 := by
    apply zn_shift 8 (by decide)
    rw [BitVec.toNat_ushiftRight, Nat.shiftRight_eq_div_pow]
    have := x.isLt
    omega
  have h2 := congrArg (zn 8) e
  rw [zn_xor, hs] at h2
  exact h2

theorem table_eq (i : Fin 256) (k : Nat) : table k i.val = zn (8 * k + 8) (BitVec.ofNat 32 i.val) := by
  induction k with
  | zero => exact entry0_eq _
  | succ k ih =>
    rw [table, entry0_eq, BitVec.ofNat_toNat, BitVec.setWidth_eq, ← zn8_split, ih, ← zn_add]
    congr 1

/-! ### bursts -/

theorem byte_bits_inj (x y : Byte) (h : bits [x] = bits [y]) : x = y := by
  have h := congrArg W h
  rw [W_byte, W_byte] at h
  have := congrArg BitVec.toNat h
  rw [← ofNat_ext, ← ofNat_ext, BitVec.toNat_ofNat, BitVec.toNat_ofNat, Nat.mod_eq_of_lt (by omega),
    Nat.mod_eq_of_lt (by omega)] at this
  exact BitVec.eq_of_toNat_eq this

theorem bits_inj {a b : List Byte} (h : bits a = bits b) : a = b := by
  induction a generalizing b with
  | nil =>
    cases b with
    | nil => rfl
    | cons y b =>
      have := congrArg List.length h
      rw [bits_length, bits_length] at this
      simp at this
  | cons x a ih =>
    cases b with
    | nil =>
      have := congrArg List.length h
      rw [bits_length, bits_length] at this
      simp at this
    | cons y b =>
      rw [bits_cons x, bits_cons y] at h
      have h2 := List.append_inj h (by rw [bits_length, bits_length]; rfl)
      rw [byte_bits_inj x y h2.1, ih h2.2]

theorem xor_eq_zero {a b : W32} (h : a ^^^ b = 0) : a = b := by
  have := congrArg (· ^^^ b) h
  simpa [BitVec.xor_assoc] using this

/-- the difference of two registers -/
theorem crc_diff (a b : List Byte) (h : (bits a).length = (bits b).length) :
    crc32 a ^^^ crc32 b = (List.zipWith xor (bits a) (bits b)).foldl step 0 := by
  unfold crc32
  have h1 : ∀ x y : W32, ~~~ x ^^^ ~~~ y = x ^^^ y := by
    intro x y
    apply BitVec.eq_of_getLsbD_eq
    intro i hi
    simp [hi]
  rw [h1, fold_diff _ _ h, BitVec.xor_self]; rfl

theorem zip_self (l : List Bool) : List.zipWith xor l l = List.replicate l.length false := by
  induction l with
  | nil => rfl
  | cons b l ih => rw [List.zipWith_cons_cons, ih, Bool.xor_self]; rfl

theorem zip_ne (l r : List Bool) (hl : l.length = r.length) (h : l ≠ r) : true ∈ List.zipWith xor l r := by
  induction l generalizing r with
  | nil => cases r with
    | nil => exact absurd rfl h
    | cons => cases hl
  | cons x l ih => cases r with
    | nil => cases hl
    | cons y r =>
      rw [List.zipWith_cons_cons]
      by_cases hxy : x = y
      · subst hxy
        exact List.mem_cons_of_mem _ (ih r (by simpa using hl) (fun he => h (by rw [he])))
      · have : xor x y = true := by cases x <;> cases y <;> simp_all
        rw [this]; exact List.mem_cons_self

theorem burst (a b : List Byte) (before wa wb after : List Bool)
    (ha : bits a = before ++ wa ++ after) (hb : bits b = before ++ wb ++ after)
    (hlen : wa.length = wb.length) (h32 : wa.length ≤ 32) (hne : wa ≠ wb) : crc32 a ≠ crc32 b := by
  intro he
  have hd := crc_diff a b (by rw [ha, hb]; simp [hlen])
  rw [he, BitVec.xor_self, ha, hb, List.append_assoc, List.append_assoc, List.zipWith_append (by simp),
    List.zipWith_append hlen, zip_self, zip_self, List.foldl_append, List.foldl_append, fold_zeros, fold_zeros,
    zn_zero, fold_eq _ (by simp; omega)] at hd
  have h1 := zn_ker _ _ (zn_ker _ _ hd.symm)
  rw [show (0 : W32) ^^^ W (List.zipWith xor wa wb) = _ from BitVec.zero_xor] at h1
  exact W_ne _ (by simp; omega) (zip_ne wa wb hlen hne) h1

/-! ### affinity -/

theorem byte_bits_xor (x y : Byte) : bits [x ^^^ y] = List.zipWith xor (bits [x]) (bits [y]) := by
  simp [bits, List.range, List.range.loop]

theorem bits_xor (a b : List Byte) (h : a.length = b.length) :
    bits (List.zipWith (· ^^^ ·) a b) = List.zipWith xor (bits a) (bits b) := by
  induction a generalizing b with
  | nil => rfl
  | cons x a ih => cases b with
    | nil => cases h
    | cons y b =>
      rw [List.zipWith_cons_cons, bits_cons, bits_cons x, bits_cons y, byte_bits_xor, ih b (by simpa using h),
        List.zipWith_append (by rw [bits_length, bits_length]; rfl)]

theorem fold_xor3 (a b c : List Byte) (h1 : a.length = b.length) (h2 : b.length = c.length) (g : W32) :
    (bits (List.zipWith (· ^^^ ·) a (List.zipWith (· ^^^ ·) b c))).foldl step g =
      (bits a).foldl step g ^^^ ((bits b).foldl step g ^^^ (bits c).foldl step g) := by
  rw [fold_diff _ _ (by rw [bits_length, bits_length, h2]), ← bits_xor b c h2, BitVec.xor_self,
    fold_diff _ _ (by rw [bits_length, bits_length]; simp; omega), ← bits_xor _ _ (by simp; omega)]
  rw [show g ^^^ (0#32) = g from BitVec.xor_zero]

theorem affine (a b c : List Byte) (h1 : a.length = b.length) (h2 : b.length = c.length) :
    crc32 (List.zipWith (· ^^^ ·) a (List.zipWith (· ^^^ ·) b c)) = crc32 a ^^^ (crc32 b ^^^ crc32 c) := by
  unfold crc32
  rw [fold_xor3 a b c h1 h2]
  apply BitVec.eq_of_getLsbD_eq
  intro i hi
  simp [hi]

theorem toLE_xor (n x y : Nat) : toLE n (x ^^^ y) = List.zipWith (· ^^^ ·) (toLE n x) (toLE n y) := by
  induction n generalizing x y with
  | zero => rfl
  | succ n ih =>
    rw [toLE, toLE, toLE, List.zipWith_cons_cons]
    have h := Nat.shiftRight_xor_distrib (i := 8) (a := x) (b := y)
    rw [Nat.shiftRight_eq_div_pow, Nat.shiftRight_eq_div_pow, Nat.shiftRight_eq_div_pow] at h
    rw [show (256 : Nat) = 2 ^ 8 from rfl, h, ih]
    congr 1
    apply BitVec.eq_of_toNat_eq
    rw [BitVec.toNat_xor, BitVec.toNat_ofNat, BitVec.toNat_ofNat, BitVec.toNat_ofNat, Nat.xor_mod_two_pow]

theorem toBE_xor (n x y : Nat) : toBE n (x ^^^ y) = List.zipWith (· ^^^ ·) (toBE n x) (toBE n y) := by
  unfold toBE
  rw [toLE_xor, List.reverse_zipWith]
  rw [toLE_length, toLE_length]

/-! ### the period of the register -/

/-- the images of the 32 one-bit words -/
def cols (f : W32 → W32) : List W32 := (List.range 32).map fun i => f (BitVec.twoPow 32 i)

/-- the linear map with the given images, applied to a word -/
def app (c : List W32) (x : W32) : W32 :=
  (c.zip (List.range 32)).foldl (fun acc p => if x.getLsbD p.2 then acc ^^^ p.1 else acc) 0

/-- the part of a word below bit `n` -/
def low : Nat → W32 → W32
  | 0, _ => 0
  | n + 1, x => if x.getLsbD n then low n x ^^^ BitVec.twoPow 32 n else low n x

theorem low_bit (n : Nat) (x : W32) (i : Nat) (hi : i < 32) (hn : n ≤ 32) :
    (low n x).getLsbD i = (decide (i < n) && x.getLsbD i) := by
  induction n with
  | zero => simp [low]
  | succ n ih =>
    have ih := ih (by omega)
    rw [low]
    by_cases hx : x.getLsbD n
    · rw [if_pos hx, BitVec.getLsbD_xor, ih, BitVec.getLsbD_twoPow]
      by_cases h : i = n
      · subst h; simp [hx, hi]
      · have e : decide (i < n + 1) = decide (i < n) := by simp; omega
        rw [e]
        simp [Ne.symm h]
    · rw [if_neg hx, ih]
      by_cases h : i = n
      · subst h; simp at hx; simp [hx]
      · have e : decide (i < n + 1) = decide (i < n) := by simp; omega
        rw [e]

theorem low_32 (x : W32) : low 32 x = x := by
  apply BitVec.eq_of_getLsbD_eq
  intro i hi
  rw [low_bit 32 x i hi (by decide)]; simp [hi]

theorem app_cols (f : W32 → W32) (hf : ∀ x y, f (x ^^^ y) = f x ^^^ f y) (h0 : f 0 = 0) (x : W32) :
    app (cols f) x = f x := by
  have key : ∀ n ≤ 32, (((List.range n).map fun i => f (BitVec.twoPow 32 i)).zip (List.range n)).foldl
      (fun acc p => if x.getLsbD p.2 then acc ^^^ p.1 else acc) 0 = f (low n x) := by
    intro n hn
    induction n with
    | zero => exact h0.symm
    | succ n ih =>
      rw [List.range_succ, List.map_append, List.zip_append (by simp), List.foldl_append, ih (by omega)]
      show (if x.getLsbD n then _ ^^^ _ else _) = _
      rw [low]
      by_cases hx : x.getLsbD n
      · rw [if_pos hx, if_pos hx, hf]
      · rw [if_neg hx, if_neg hx]
  have := key 32 (by decide)
  rw [low_32] at this
  exact this

/-- columns of the map `n = 2^k` steps further, by repeated squaring -/
def pw : Nat → List W32
  | 0 => cols z
  | k + 1 => (pw k).map (app (pw k))

theorem pw_eq (k : Nat) : pw k = cols (zn (2 ^ k)) := by
  induction k with
  | zero => rfl
  | succ k ih =>
    rw [pw, ih]
    unfold cols
    rw [List.map_map]
    apply List.map_congr_left
    intro i _
    show app (cols _) _ = _
    rw [app_cols _ (zn_xor _) (zn_zero _), Nat.pow_succ, Nat.mul_two, zn_add]

theorem app_pw (k : Nat) (x : W32) : app (pw k) x = zn (2 ^ k) x := by
  rw [pw_eq, app_cols _ (zn_xor _) (zn_zero _)]

/-- `n` steps, given the bits of `n`, least significant first -/
def far : Nat → List Bool → W32 → W32
  | _, [], x => x
  | k, b :: bs, x => far (k + 1) bs (if b then app (pw k) x else x)

def num : Nat → List Bool → Nat
  | _, [] => 0
  | k, b :: bs => (if b then 2 ^ k else 0) + num (k + 1) bs

theorem far_eq (bs : List Bool) (k : Nat) (x : W32) : far k bs x = zn (num k bs) x := by
  induction bs generalizing k x with
  | nil => rfl
  | cons b bs ih =>
    rw [far, num, ih]
    cases b with
    | false => simp
    | true => simp only [if_true]; rw [app_pw, zn_add]

/-- binary digits of a 32-bit number -/
def bin (n : Nat) : List Bool := (List.range 32).map n.testBit

theorem far_bin (n : Nat) (h : num 0 (bin n) = n) (x : W32) : zn n x = far 0 (bin n) x := by
  rw [far_eq, h]

/-- the period -/
def N : Nat := 2 ^ 32 - 1

theorem period : zn N 1 = 1 := by
  rw [far_bin N (by decide +kernel)]
  decide +kernel

theorem not3 : zn (N / 3) 1 ≠ 1 := by
  rw [far_bin (N / 3) (by decide +kernel)]; decide +kernel
theorem not5 : zn (N / 5) 1 ≠ 1 := by
  rw [far_bin (N / 5) (by decide +kernel)]; decide +kernel
theorem not17 : zn (N / 17) 1 ≠ 1 := by
  rw [far_bin (N / 17) (by decide +kernel)]; decide +kernel
theorem not257 : zn (N / 257) 1 ≠ 1 := by
  rw [far_bin (N / 257) (by decide +kernel)]; decide +kernel
theorem not65537 : zn (N / 65537) 1 ≠ 1 := by
  rw [far_bin (N / 65537) (by decide +kernel)]; decide +kernel

theorem zn_mul (n k : Nat) (x : W32) (h : zn n x = x) : zn (n * k) x = x := by
  induction k with
  | zero => rfl
  | succ k ih => rw [Nat.mul_succ, zn_add, ih, h]

theorem zn_inj (n : Nat) {x y : W32} (h : zn n x = zn n y) : x = y := by
  apply xor_eq_zero
  apply zn_ker n
  rw [zn_xor, h, BitVec.xor_self]; rfl

theorem zn_mod (m n : Nat) (x : W32) (hm : zn m x = x) (hn : zn n x = x) : zn (n % m) x = x := by
  have h : n = m * (n / m) + n % m := (Nat.div_add_mod n m).symm
  rw [h, zn_add, zn_mul m _ x hm] at hn
  exact hn

theorem zn_gcd (m n : Nat) (x : W32) (hm : zn m x = x) (hn : zn n x = x) : zn (Nat.gcd m n) x = x := by
  induction m, n using Nat.gcd.induction with
  | H0 n => rwa [Nat.gcd_zero_left]
  | H1 m n hpos ih =>
    rw [Nat.gcd_rec]
    exact ih (zn_mod m n x hm hn) hm

/-- a proper divisor of 2^32 - 1 = 3 * 5 * 17 * 257 * 65537 divides one of the five maximal ones -/
theorem proper_divisor (g : Nat) (hd : g ∣ N) (hlt : g < N) :
    g ∣ N / 3 ∨ g ∣ N / 5 ∨ g ∣ N / 17 ∨ g ∣ N / 257 ∨ g ∣ N / 65537 := by
  obtain ⟨k, hk⟩ := hd
  have hN : N = 3 * 5 * 17 * 257 * 65537 := by decide
  have hk1 : k ≠ 1 := by rintro rfl; omega
  have hkd : k ∣ 3 * 5 * 17 * 257 * 65537 := by rw [← hN, hk]; exact Nat.dvd_mul_left _ _
  obtain ⟨p, hp, hpk⟩ := Nat.exists_prime_and_dvd hk1
  have hpN := Nat.dvd_trans hpk hkd
  have hcase : ∀ q, 0 < q → p = q → g ∣ N / q := by
    intro q hq hpq
    subst hpq
    obtain ⟨j, hj⟩ := hpk
    rw [hk, hj, show g * (p * j) = p * (g * j) by ac_rfl, Nat.mul_div_cancel_left _ hq]
    exact Nat.dvd_mul_right _ _
  have hprime : ∀ q, Nat.Prime q → p ∣ q → p = q := fun q hq h => (Nat.prime_dvd_prime_iff_eq hp hq).mp h
  rw [hp.dvd_mul, hp.dvd_mul, hp.dvd_mul, hp.dvd_mul] at hpN
  rcases hpN with (((h | h) | h) | h) | h
  · exact .inl (hcase 3 (by decide) (hprime 3 (by norm_num) h))
  · exact .inr (.inl (hcase 5 (by decide) (hprime 5 (by norm_num) h)))
  · exact .inr (.inr (.inl (hcase 17 (by decide) (hprime 17 (by norm_num) h))))
  · exact .inr (.inr (.inr (.inl (hcase 257 (by decide) (hprime 257 (by norm_num) h)))))
  · exact .inr (.inr (.inr (.inr (hcase 65537 (by decide) (hprime 65537 (by norm_num) h)))))

/-- the register returns to 1 for the first time after 2^32 - 1 steps -/
theorem order (n : Nat) (h0 : 0 < n) (hn : n < N) : zn n 1 ≠ 1 := by
  intro h
  have hg := zn_gcd n N 1 h period
  have hgd : Nat.gcd n N ∣ N := Nat.gcd_dvd_right _ _
  have hgl : Nat.gcd n N < N := Nat.lt_of_le_of_lt (Nat.le_of_dvd h0 (Nat.gcd_dvd_left _ _)) hn
  have hmul : ∀ M, Nat.gcd n N ∣ M → zn M 1 = 1 := by
    rintro M ⟨k, hk⟩
    rw [hk]; exact zn_mul _ k 1 hg
  rcases proper_divisor _ hgd hgl with h | h | h | h | h
  · exact not3 (hmul _ h)
  · exact not5 (hmul _ h)
  · exact not17 (hmul _ h)
  · exact not257 (hmul _ h)
  · exact not65537 (hmul _ h)

/-- the difference two flipped bits make -/
theorem two_diff (a b : List Byte) (before between after : List Bool) (x y : Bool)
    (ha : bits a = before ++ x :: between ++ y :: after) (hb : bits b = before ++ (!x) :: between ++ (!y) :: after) :
    crc32 a ^^^ crc32 b = zn after.length (z (zn (between.length + 1) 1 ^^^ 1)) := by
  have hx : ∀ x : Bool, xor x (!x) = true := by decide
  rw [crc_diff a b (by rw [ha, hb]; simp), ha, hb, List.zipWith_append (by simp), List.zipWith_append (by simp),
    List.zipWith_cons_cons, List.zipWith_cons_cons, zip_self, zip_self, zip_self, hx, hx,
    List.foldl_append, List.foldl_append, fold_zeros, zn_zero, List.foldl_cons, List.foldl_cons, fold_zeros,
    fold_zeros, step_eq, step_eq]
  rfl

theorem two_bits (a b : List Byte) (before between after : List Bool) (x y : Bool)
    (ha : bits a = before ++ x :: between ++ y :: after) (hb : bits b = before ++ (!x) :: between ++ (!y) :: after)
    (hd : between.length + 1 < 2 ^ 32 - 1) : crc32 a ≠ crc32 b := by
  intro he
  have h := two_diff a b before between after x y ha hb
  rw [he, BitVec.xor_self] at h
  exact order (between.length + 1) (by omega) hd (xor_eq_zero (z_ker _ (zn_ker _ _ h.symm)))

theorem two_bits_limit (a b : List Byte) (before between after : List Bool) (x y : Bool)
    (ha : bits a = before ++ x :: between ++ y :: after) (hb : bits b = before ++ (!x) :: between ++ (!y) :: after)
    (hd : between.length + 1 = 2 ^ 32 - 1) : crc32 a = crc32 b := by
  apply xor_eq_zero
  rw [two_diff a b before between after x y ha hb, hd, show 2 ^ 32 - 1 = N from rfl, period, BitVec.xor_self,
    show (0#32) = (0 : W32) from rfl, z_zero, zn_zero]

end Verif.Proof.CRC32
