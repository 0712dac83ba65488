import Verif.Proof.CRC32Three

/-!
# Four flipped bits

Four flipped bits go undetected if and only if the register, started with a single bit, meets `z^e (z^a + 1) = z^c + 1`
for the distances between them. With logarithms `L d`, so that `z^(L d) = z^d + 1`, this is `e + L a = L c`: the check is
that logarithms of numbers below 3006 are far from each other. Those of the odd numbers are given in `CRC32Logs`, and the
kernel verifies every one of them, derives the others, sorts them all and looks at the distances. The definitions use the
recursors and the built-in operations on natural numbers only, because the kernel is quick at them.
-/

namespace Verif.Proof.CRC32
open Spec Spec.CRC32

/-- `f v`, after `v` has been evaluated -/
noncomputable def force {α : Type} (v : Nat) (f : Nat → α) : α := Nat.rec (f 0) (fun p _ => f (Nat.succ p)) v

theorem force_eq {α : Type} (v : Nat) (f : Nat → α) : force v f = f v := by cases v <;> rfl

/-! ### powers -/

/-- the linear map with the columns `m`, applied to `x` -/
noncomputable def appN (m : List Nat) : Nat → Nat → Nat :=
  List.rec (fun _ acc => acc) (fun c _ ih x acc =>
    ih (Nat.shiftRight x 1) (Nat.xor acc (Nat.mul (Nat.land x 1) c))) m

/-- `l` steps from `x`, where `ms` are the columns of 1, 2, 4, ... steps -/
noncomputable def expN (ms : List (List Nat)) : Nat → Nat → Nat :=
  List.rec (fun _ x => x) (fun m _ ih l x =>
    force (cond (Nat.beq (Nat.land l 1) 1) (appN m x 0) x) (ih (Nat.shiftRight l 1))) ms

/-- `m'` is the square of `m`. -/
noncomputable def sqOk (m : List Nat) (cs : List Nat) : List Nat → Bool :=
  List.rec (fun ds => List.rec true (fun _ _ _ => false) ds) (fun c _ ih ds =>
    List.rec false (fun d ds _ => cond (Nat.beq (appN m c 0) d) (ih ds) false) ds) cs

noncomputable def matsOk (ms : List (List Nat)) : List Nat → Bool :=
  List.rec (fun _ => true) (fun m' _ ih m => cond (sqOk m m m') (ih m') false) ms

/-- the columns of `f` as numbers -/
def colsN (f : W32 → W32) : List Nat := (cols f).map BitVec.toNat

theorem appN_cons (c : Nat) (m : List Nat) (x acc : Nat) :
    appN (c :: m) x acc = appN m (x >>> 1) (acc ^^^ ((x &&& 1) * c)) := rfl

theorem appN_fold (cs : List W32) (i : Nat) (x acc : W32) :
    appN (cs.map BitVec.toNat) (x.toNat >>> i) acc.toNat =
      ((cs.zip (List.range' i cs.length)).foldl (fun acc p => if x.getLsbD p.2 then acc ^^^ p.1 else acc) acc).toNat := by
  induction cs generalizing i acc with
  | nil => rfl
  | cons c cs ih =>
    rw [List.map_cons, appN_cons, List.length_cons, List.range'_succ, List.zip_cons_cons, List.foldl_cons, ← ih,
      Nat.shiftRight_add]
    congr 1
    have h : x.getLsbD i = decide ((x.toNat >>> i) % 2 = 1) := by
      show x.toNat.testBit i = _
      rw [Nat.testBit, Nat.one_and_eq_mod_two]
      have : (x.toNat >>> i) % 2 = 0 ∨ (x.toNat >>> i) % 2 = 1 := by omega
      rcases this with h | h <;> simp [h]
    rw [Nat.and_one_is_mod]
    dsimp only
    rw [h]
    have : (x.toNat >>> i) % 2 = 0 ∨ (x.toNat >>> i) % 2 = 1 := by omega
    rcases this with h | h <;> simp [h]

theorem appN_eq (f : W32 → W32) (hf : ∀ x y, f (x ^^^ y) = f x ^^^ f y) (h0 : f 0 = 0) (x : W32) :
    appN (colsN f) x.toNat 0 = (f x).toNat := by
  have h := appN_fold (cols f) 0 x 0
  rw [show (0 : W32).toNat = 0 from rfl, Nat.shiftRight_zero] at h
  unfold colsN
  rw [h, ← app_cols f hf h0 x]
  unfold app
  congr 2

theorem sqOk_eq (m cs ds : List Nat) (h : sqOk m cs ds = true) : ds = cs.map fun c => appN m c 0 := by
  induction cs generalizing ds with
  | nil =>
    cases ds with
    | nil => rfl
    | cons => exact absurd h (by simp [sqOk])
  | cons c cs ih =>
    cases ds with
    | nil => exact absurd h (by simp [sqOk])
    | cons d ds =>
      have h' : cond (Nat.beq (appN m c 0) d) (sqOk m cs ds) false = true := h
      cases hb : Nat.beq (appN m c 0) d with
      | false => rw [hb] at h'; cases h'
      | true =>
        rw [hb] at h'
        rw [List.map_cons, ← ih ds h', Nat.eq_of_beq_eq_true hb]

theorem colsN_zn' (k : Nat) (m : List Nat) (hm : colsN (zn k) = m) :
    (colsN (zn k)).map (fun c => appN m c 0) = colsN (zn (k + k)) := by
  unfold colsN cols
  simp only [List.map_map]
  apply List.map_congr_left
  intro i _
  have := appN_eq (zn k) (zn_xor k) (zn_zero k) (zn k (BitVec.twoPow 32 i))
  rw [hm] at this
  simp only [Function.comp]
  rw [this, zn_add]

theorem colsN_zn (k : Nat) : (colsN (zn k)).map (fun c => appN (colsN (zn k)) c 0) = colsN (zn (k + k)) :=
  colsN_zn' k _ rfl

/-- the columns of 1, 2, 4, ... steps from `2 ^ k` on -/
def mapsN : Nat → Nat → List (List Nat)
  | 0, _ => []
  | n + 1, k => colsN (zn (2 ^ k)) :: mapsN n (k + 1)

theorem matsOk_eq (ms : List (List Nat)) (k : Nat) (h : matsOk ms (colsN (zn (2 ^ k))) = true) :
    ms = mapsN ms.length (k + 1) := by
  induction ms generalizing k with
  | nil => rfl
  | cons m ms ih =>
    have h' : cond (sqOk (colsN (zn (2 ^ k))) (colsN (zn (2 ^ k))) m)
      (matsOk ms m) false = true := h
    cases hb : sqOk (colsN (zn (2 ^ k))) (colsN (zn (2 ^ k))) m with
    | false => rw [hb] at h'; cases h'
    | true =>
      rw [hb] at h'
      have e := sqOk_eq _ _ _ hb
      rw [colsN_zn, ← Nat.mul_two, ← Nat.pow_succ] at e
      rw [e] at h'
      have := ih (k + 1) h'
      rw [List.length_cons, mapsN, ← this, e]

theorem expN_cons (m : List Nat) (ms : List (List Nat)) (l x : Nat) :
    expN (m :: ms) l x = expN ms (l >>> 1) (cond (Nat.beq (l &&& 1) 1) (appN m x 0) x) := by
  show force _ _ = _
  rw [force_eq]; rfl

theorem expN_eq (n k l : Nat) (x : W32) (hl : l < 2 ^ n) : expN (mapsN n k) l x.toNat = (zn (2 ^ k * l) x).toNat := by
  induction n generalizing k l x with
  | zero =>
    obtain rfl : l = 0 := by omega
    rfl
  | succ n ih =>
    have hs : l >>> 1 = l / 2 := by rw [Nat.shiftRight_eq_div_pow]
    rw [mapsN, expN_cons, Nat.and_one_is_mod, hs]
    have hm : l % 2 = 0 ∨ l % 2 = 1 := by omega
    have e := Nat.div_add_mod l 2
    have hlt : l / 2 < 2 ^ n := by rw [Nat.pow_succ] at hl; omega
    rcases hm with hm | hm
    · rw [hm, show cond (Nat.beq 0 1) _ x.toNat = x.toNat from rfl, ih _ _ _ hlt]
      congr 2
      rw [Nat.pow_succ, Nat.mul_assoc]
      congr 1; omega
    · rw [hm, show cond (Nat.beq 1 1) (appN (colsN (zn (2 ^ k))) x.toNat 0) x.toNat = appN (colsN (zn (2 ^ k))) x.toNat 0 from rfl,
        appN_eq _ (zn_xor _) (zn_zero _), ih _ _ _ hlt, ← zn_add]
      congr 2
      have : 2 ^ (k + 1) * (l / 2) = 2 ^ k * (2 * (l / 2)) := by rw [Nat.pow_succ, Nat.mul_assoc]
      rw [this]
      calc 2 ^ k + 2 ^ k * (2 * (l / 2)) = 2 ^ k * (1 + 2 * (l / 2)) := by rw [Nat.mul_add, Nat.mul_one]
        _ = 2 ^ k * l := by congr 1; omega

/-! ### logarithms -/

/-- `l` is a logarithm of `z^d + 1`. -/
def IsLog (l d : Nat) : Prop := l < N ∧ zn l 1 = zn d 1 ^^^ 1

/-- Every element of `ls` is one of the numbers `d`, `d + 2`, ..., where `v` is the register after `d` steps. -/
noncomputable def oddOk (ms : List (List Nat)) (ls : List Nat) : Nat → Bool :=
  List.rec (fun _ => true) (fun l _ ih v =>
    cond (Nat.ble (Nat.succ l) 4294967295)
      (cond (Nat.beq (expN ms l 1) (Nat.xor v 1)) (force (zN (zN v)) ih) false) false) ls

/-- logarithm and number, in one -/
noncomputable def enc (ls : List Nat) : Nat → List Nat :=
  List.rec (fun _ => []) (fun l _ ih d => force (Nat.add (Nat.mul l 4096) d) fun x => x :: ih (Nat.add d 2)) ls

def GoodE (x : Nat) : Prop := IsLog (x / 4096) (x % 4096)

theorem oddOk_eq (ls : List Nat) (d : Nat) (h : oddOk (mapsN 32 0) ls (zn d 1).toNat = true) (hd : d + 2 * ls.length ≤ 4096) :
    (∀ x ∈ enc ls d, GoodE x) ∧ ∀ i, i < ls.length → ∃ x ∈ enc ls d, x % 4096 = d + 2 * i := by
  induction ls generalizing d with
  | nil => exact ⟨fun _ h => (nomatch h), fun i h => absurd h (Nat.not_lt_zero _)⟩
  | cons l ls ih =>
    have h' : cond (Nat.ble (Nat.succ l) 4294967295)
      (cond (Nat.beq (expN (mapsN 32 0) l 1) (Nat.xor (zn d 1).toNat 1))
        (force (zN (zN (zn d 1).toNat)) (oddOk (mapsN 32 0) ls)) false) false = true := h
    have e : enc (l :: ls) d = (l * 4096 + d) :: enc ls (d + 2) := by
      show force (l * 4096 + d) (fun x => x :: enc ls (d + 2)) = _
      rw [force_eq]
    rw [List.length_cons] at hd
    cases hb : Nat.ble (Nat.succ l) 4294967295 with
    | false => rw [hb] at h'; cases h'
    | true =>
      rw [hb] at h'
      have hl : l < 4294967295 := Nat.le_of_ble_eq_true hb
      cases hc : Nat.beq (expN (mapsN 32 0) l 1) (Nat.xor (zn d 1).toNat 1) with
      | false => rw [hc] at h'; cases h'
      | true =>
        rw [hc] at h'
        have hv := Nat.eq_of_beq_eq_true hc
        have he := expN_eq 32 0 l 1 (by omega)
        rw [Nat.pow_zero, Nat.one_mul, show (1 : W32).toNat = 1 from rfl, hv] at he
        have hlog : zn l 1 = zn d 1 ^^^ 1 := by
          apply BitVec.eq_of_toNat_eq
          rw [BitVec.toNat_xor, ← he]; rfl
        have h2 : oddOk (mapsN 32 0) ls (zn (d + 2) 1).toNat = true := by
          have h3 : force (zN (zN (zn d 1).toNat)) (oddOk (mapsN 32 0) ls) = true := h'
          rw [force_eq, zN_eq, zN_eq] at h3
          rw [Nat.add_comm d 2, Nat.add_comm 2 d, zn_add d 2]
          exact h3
        obtain ⟨i1, i2⟩ := ih (d + 2) h2 (by omega)
        rw [e]
        refine ⟨?_, ?_⟩
        · intro x hx
          rcases List.mem_cons.mp hx with rfl | hx
          · unfold GoodE
            rw [show (l * 4096 + d) / 4096 = l by omega, show (l * 4096 + d) % 4096 = d by omega]
            exact ⟨hl, hlog⟩
          · exact i1 x hx
        · intro i hi
          cases i with
          | zero => exact ⟨_, List.mem_cons_self, by omega⟩
          | succ i =>
            obtain ⟨x, hx, hm⟩ := i2 i (by rw [List.length_cons] at hi; omega)
            exact ⟨x, List.mem_cons_of_mem _ hx, by omega⟩

/-! ### doubling -/

/-- from a number to its double -/
noncomputable def dblE (x : Nat) : Nat :=
  cond (Nat.ble 17592186040320 (Nat.mul 2 x)) (Nat.sub (Nat.mul 2 x) 17592186040320) (Nat.mul 2 x)

/-- the doubles below `n` -/
noncomputable def dbl (n : Nat) (l : List Nat) : List Nat :=
  List.rec [] (fun x _ ih => cond (Nat.ble n (Nat.mul 2 (Nat.mod x 4096))) ih (force (dblE x) fun y => y :: ih)) l

/-- `l`, the doubles, the doubles of the doubles, ... -/
noncomputable def levels (n k : Nat) : List Nat → List Nat :=
  Nat.rec (fun l => l) (fun _ ih l => l ++ ih (dbl n l)) k

theorem log_dbl (l d : Nat) (h : zn l 1 = zn d 1 ^^^ 1) : zn (l + l) 1 = zn (d + d) 1 ^^^ 1 := by
  rw [zn_add l l, h, zn_xor, ← zn_add d l, Nat.add_comm d l, zn_add l d, h, zn_xor, zn_add d d]
  generalize zn d (zn d 1) = a
  generalize zn d 1 = b
  rw [BitVec.xor_assoc, ← BitVec.xor_assoc b b, BitVec.xor_self, BitVec.zero_xor]

theorem dblM (m x : Nat) : cond (Nat.ble m (Nat.mul 2 x)) (Nat.sub (Nat.mul 2 x) m) (Nat.mul 2 x) =
    if m ≤ 2 * x then 2 * x - m else 2 * x := by
  cases hb : Nat.ble m (Nat.mul 2 x) with
  | false =>
    have : ¬ m ≤ 2 * x := fun h => absurd (hb.symm.trans (Nat.ble_eq_true_of_le h)) (by decide)
    rw [if_neg this]; rfl
  | true =>
    have : m ≤ 2 * x := Nat.le_of_ble_eq_true hb
    rw [if_pos this]; rfl

theorem dblE_if (x : Nat) : dblE x = if 4096 * N ≤ 2 * x then 2 * x - 4096 * N else 2 * x := by
  rw [← dblM, show 4096 * N = 17592186040320 by rfl]
  rfl

theorem dblE_eq (x : Nat) (h : GoodE x) (hd : 2 * (x % 4096) < 4096) :
    GoodE (dblE x) ∧ dblE x % 4096 = 2 * (x % 4096) := by
  obtain ⟨hl, he⟩ := h
  have h2 := log_dbl _ _ he
  rw [dblE_if]
  have hp := period
  unfold GoodE IsLog
  generalize N = n at *
  by_cases hc : 4096 * n ≤ 2 * x
  · rw [if_pos hc]
    have e1 : (2 * x - 4096 * n) % 4096 = 2 * (x % 4096) := by omega
    have e2 : (2 * x - 4096 * n) / 4096 = x / 4096 + x / 4096 - n := by omega
    rw [e1, e2, Nat.two_mul]
    refine ⟨⟨by omega, ?_⟩, rfl⟩
    obtain ⟨r, hr⟩ : ∃ r, x / 4096 + x / 4096 = n + r := ⟨x / 4096 + x / 4096 - n, by omega⟩
    rw [← h2, hr, zn_add n, hp, Nat.add_sub_cancel_left]
  · rw [if_neg hc]
    have e1 : (2 * x) % 4096 = 2 * (x % 4096) := by omega
    have e2 : (2 * x) / 4096 = x / 4096 + x / 4096 := by omega
    rw [e1, e2, Nat.two_mul]
    exact ⟨⟨by omega, h2⟩, rfl⟩

theorem dbl_cons (n x : Nat) (l : List Nat) :
    dbl n (x :: l) = cond (Nat.ble n (2 * (x % 4096))) (dbl n l) (dblE x :: dbl n l) := by
  show cond _ _ (force _ _) = _
  rw [force_eq]; rfl

theorem dbl_eq (n : Nat) (hn : n ≤ 4096) (l : List Nat) (h : ∀ x ∈ l, GoodE x) :
    (∀ y ∈ dbl n l, GoodE y) ∧ ∀ x ∈ l, 2 * (x % 4096) < n → ∃ y ∈ dbl n l, y % 4096 = 2 * (x % 4096) := by
  induction l with
  | nil => exact ⟨fun _ h => (nomatch h), fun _ h => (nomatch h)⟩
  | cons x l ih =>
    obtain ⟨i1, i2⟩ := ih fun y hy => h y (List.mem_cons_of_mem _ hy)
    rw [dbl_cons]
    cases hb : Nat.ble n (2 * (x % 4096)) with
    | true =>
      have hle := Nat.le_of_ble_eq_true hb
      refine ⟨i1, ?_⟩
      intro y hy hlt
      rcases List.mem_cons.mp hy with rfl | hy
      · omega
      · exact i2 y hy hlt
    | false =>
      have hlt : ¬ n ≤ 2 * (x % 4096) := fun h => by
        have := Nat.ble_eq_true_of_le h
        exact absurd (hb.symm.trans this) (by decide)
      obtain ⟨g, e⟩ := dblE_eq x (h x List.mem_cons_self) (by omega)
      refine ⟨?_, ?_⟩
      · intro y hy
        rcases List.mem_cons.mp hy with rfl | hy
        · exact g
        · exact i1 y hy
      · intro y hy hlt
        rcases List.mem_cons.mp hy with rfl | hy
        · exact ⟨_, List.mem_cons_self, e⟩
        · obtain ⟨w, hw, he⟩ := i2 y hy hlt
          exact ⟨w, List.mem_cons_of_mem _ hw, he⟩

theorem levels_eq (n : Nat) (hn : n ≤ 4096) (k : Nat) (l : List Nat) (h : ∀ x ∈ l, GoodE x) :
    (∀ y ∈ levels n k l, GoodE y) ∧
      ∀ x ∈ l, ∀ j ≤ k, 2 ^ j * (x % 4096) < n → ∃ y ∈ levels n k l, y % 4096 = 2 ^ j * (x % 4096) := by
  induction k generalizing l with
  | zero =>
    refine ⟨h, ?_⟩
    intro x hx j hj hlt
    obtain rfl : j = 0 := by omega
    exact ⟨x, hx, by omega⟩
  | succ k ih =>
    obtain ⟨d1, d2⟩ := dbl_eq n hn l h
    obtain ⟨i1, i2⟩ := ih (dbl n l) d1
    have e : levels n (k + 1) l = l ++ levels n k (dbl n l) := rfl
    rw [e]
    refine ⟨?_, ?_⟩
    · intro y hy
      rcases List.mem_append.mp hy with hy | hy
      · exact h y hy
      · exact i1 y hy
    · intro x hx j hj hlt
      cases j with
      | zero => exact ⟨x, List.mem_append_left _ hx, by omega⟩
      | succ j =>
        have e2 : 2 ^ (j + 1) * (x % 4096) = 2 ^ j * (2 * (x % 4096)) := by rw [Nat.pow_succ, Nat.mul_assoc]
        rw [e2] at hlt ⊢
        have hle : 2 * (x % 4096) ≤ 2 ^ j * (2 * (x % 4096)) := Nat.le_mul_of_pos_left _ (Nat.two_pow_pos j)
        obtain ⟨y, hy, hm⟩ := d2 x hx (by omega)
        rw [← hm] at hlt ⊢
        obtain ⟨w, hw, he⟩ := i2 y hy j (by omega) hlt
        exact ⟨w, List.mem_append_right _ hw, he⟩

/-! ### sorting -/

structure Sorted where
  (a rest : List Nat)

/-- the first `2 ^ k` elements, sorted, and the others -/
noncomputable def msort (k : Nat) : List Nat → Sorted :=
  Nat.rec (fun l => List.rec ⟨[], []⟩ (fun x t _ => ⟨[x], t⟩) l)
    (fun _ ih l => Sorted.rec (fun a r => Sorted.rec (fun b r' => ⟨merge a b, r'⟩) (ih r)) (ih l)) k

theorem msort_perm (k : Nat) (l : List Nat) : ((msort k l).a ++ (msort k l).rest).Perm l := by
  induction k generalizing l with
  | zero => cases l <;> exact .refl _
  | succ k ih =>
    have e : msort (k + 1) l = ⟨merge (msort k l).a (msort k (msort k l).rest).a, (msort k (msort k l).rest).rest⟩ := rfl
    rw [e]
    dsimp only
    refine ((merge_perm _ _).append_right _).trans ?_
    rw [List.append_assoc]
    exact ((ih _).append_left _).trans (ih l)

/-! ### distances -/

/-- The logarithms after `x` in the list are at least `n` further, or the number is near `n`. -/
noncomputable def nearOk (n x : Nat) (t : List Nat) : Bool :=
  List.rec true (fun y _ ih =>
    cond (Nat.ble x y)
      (cond (Nat.ble n (Nat.sub (Nat.div y 4096) (Nat.div x 4096))) true
        (cond (Nat.ble n (Nat.add (Nat.mod x 4096) (Nat.sub (Nat.div y 4096) (Nat.div x 4096)))) ih false)) false) t

noncomputable def scan (n : Nat) (l : List Nat) : Bool :=
  List.rec true (fun x t ih => cond (Nat.ble (Nat.mul n 4096) x) (cond (nearOk n x t) ih false) false) l

/-- the whole check -/
noncomputable def fourOk (n : Nat) (ls : List Nat) : Bool :=
  Sorted.rec (fun a r => List.rec (scan n a) (fun _ _ _ => false) r) (msort 12 (levels n 12 (enc ls 1)))

def Far (n x y : Nat) : Prop := n ≤ y / 4096 - x / 4096 ∨ n ≤ x % 4096 + (y / 4096 - x / 4096)

theorem nearOk_cons (n x y : Nat) (t : List Nat) : nearOk n x (y :: t) =
    cond (Nat.ble x y) (cond (Nat.ble n (y / 4096 - x / 4096)) true
      (cond (Nat.ble n (x % 4096 + (y / 4096 - x / 4096))) (nearOk n x t) false)) false := rfl

theorem nearOk_eq (n x : Nat) (t : List Nat) (hs : t.Pairwise (· ≤ ·)) (h : nearOk n x t = true) :
    ∀ y ∈ t, x ≤ y ∧ Far n x y := by
  induction t with
  | nil => exact fun _ h => (nomatch h)
  | cons y t ih =>
    obtain ⟨h1, h2⟩ := List.pairwise_cons.mp hs
    rw [nearOk_cons] at h
    cases hb : Nat.ble x y with
    | false => rw [hb] at h; cases h
    | true =>
      have hxy := Nat.le_of_ble_eq_true hb
      rw [hb, cond_true] at h
      cases hc : Nat.ble n (y / 4096 - x / 4096) with
      | true =>
        have hn := Nat.le_of_ble_eq_true hc
        intro w hw
        rcases List.mem_cons.mp hw with rfl | hw
        · exact ⟨hxy, .inl hn⟩
        · have := h1 w hw
          have hdiv : y / 4096 ≤ w / 4096 := Nat.div_le_div_right this
          exact ⟨by omega, .inl (by omega)⟩
      | false =>
        rw [hc, cond_false] at h
        cases hd : Nat.ble n (x % 4096 + (y / 4096 - x / 4096)) with
        | false => rw [hd] at h; cases h
        | true =>
          rw [hd, cond_true] at h
          intro w hw
          rcases List.mem_cons.mp hw with rfl | hw
          · exact ⟨hxy, .inr (Nat.le_of_ble_eq_true hd)⟩
          · exact ih h2 h w hw

theorem scan_eq (n : Nat) (l : List Nat) (h : scan n l = true) :
    l.Pairwise (fun x y => x ≤ y ∧ Far n x y) ∧ ∀ x ∈ l, n * 4096 ≤ x := by
  induction l with
  | nil => exact ⟨.nil, fun _ h => (nomatch h)⟩
  | cons x t ih =>
    have h' : cond (Nat.ble (n * 4096) x) (cond (nearOk n x t) (scan n t) false) false = true := h
    cases hb : Nat.ble (n * 4096) x with
    | false => rw [hb] at h'; cases h'
    | true =>
      rw [hb, cond_true] at h'
      cases hc : nearOk n x t with
      | false => rw [hc] at h'; cases h'
      | true =>
        rw [hc, cond_true] at h'
        obtain ⟨i1, i2⟩ := ih h'
        refine ⟨List.pairwise_cons.mpr ⟨nearOk_eq n x t (i1.imp fun h => h.1) hc, i1⟩, ?_⟩
        intro y hy
        rcases List.mem_cons.mp hy with rfl | hy
        · exact Nat.le_of_ble_eq_true hb
        · exact i2 y hy

/-- what a check that came out well says about numbers below `n` -/
theorem fourOk_eq (n : Nat) (ls : List Nat) (h : fourOk n ls = true) :
    ∀ x ∈ levels n 12 (enc ls 1), n * 4096 ≤ x ∧ ∀ y ∈ levels n 12 (enc ls 1), x ≠ y → x ≤ y → Far n x y := by
  have hp := msort_perm 12 (levels n 12 (enc ls 1))
  unfold fourOk at h
  generalize msort 12 (levels n 12 (enc ls 1)) = s at h hp
  obtain ⟨a, r⟩ := s
  cases r with
  | cons => cases h
  | nil =>
    rw [show (Sorted.mk a []).a ++ (Sorted.mk a []).rest = a from List.append_nil a] at hp
    obtain ⟨s1, s2⟩ := scan_eq n a h
    intro x hx
    refine ⟨s2 x (hp.mem_iff.mpr hx), ?_⟩
    intro y hy hne hle
    have key : ∀ l : List Nat, l.Pairwise (fun x y => x ≤ y ∧ Far n x y) → x ∈ l → y ∈ l → Far n x y := by
      intro l
      induction l with
      | nil => exact fun _ h => (nomatch h)
      | cons w t ih =>
        intro hl hx hy
        obtain ⟨l1, l2⟩ := List.pairwise_cons.mp hl
        rcases List.mem_cons.mp hx with rfl | hx
        · rcases List.mem_cons.mp hy with rfl | hy
          · exact absurd rfl hne
          · exact (l1 y hy).2
        · rcases List.mem_cons.mp hy with hyw | hy
          · have := (l1 x hx).1
            omega
          · exact ih l2 hx hy
    exact key a s1 (hp.mem_iff.mpr hx) (hp.mem_iff.mpr hy)

theorem odd_part (d : Nat) (h : 0 < d) : ∃ j i, d = 2 ^ j * (1 + 2 * i) := by
  induction d using Nat.strongRecOn with
  | _ d ih =>
    by_cases ho : d % 2 = 1
    · exact ⟨0, d / 2, by rw [Nat.pow_zero]; omega⟩
    · obtain ⟨j, i, e⟩ := ih (d / 2) (by omega) (by omega)
      refine ⟨j + 1, i, ?_⟩
      rw [Nat.pow_succ, Nat.mul_assoc, Nat.mul_left_comm, ← e]
      omega

/-- every number below `n` has its logarithm in the list -/
theorem covered (n : Nat) (hn : n ≤ 4096) (ls : List Nat) (hlen : n ≤ 2 * ls.length + 1) (hlen' : 2 * ls.length < 4096)
    (h : oddOk (mapsN 32 0) ls (zn 1 1).toNat = true) :
    (∀ x ∈ levels n 12 (enc ls 1), GoodE x) ∧ ∀ d, 0 < d → d < n → ∃ x ∈ levels n 12 (enc ls 1), x % 4096 = d := by
  obtain ⟨o1, o2⟩ := oddOk_eq ls 1 h (by omega)
  obtain ⟨l1, l2⟩ := levels_eq n hn 12 (enc ls 1) o1
  refine ⟨l1, ?_⟩
  intro d h0 hd
  obtain ⟨j, i, e⟩ := odd_part d h0
  have hle : 1 + 2 * i ≤ d := by rw [e]; exact Nat.le_mul_of_pos_left _ (Nat.two_pow_pos j)
  have hj : 2 ^ j ≤ d := by rw [e]; exact Nat.le_mul_of_pos_right _ (by omega)
  obtain ⟨x, hx, hm⟩ := o2 i (by omega)
  have hj12 : j ≤ 12 := by
    refine Classical.byContradiction fun hc => ?_
    have : 2 ^ 13 ≤ 2 ^ j := Nat.pow_le_pow_right (by decide) (by omega)
    omega
  obtain ⟨y, hy, hz⟩ := l2 x hx j hj12 (by rw [hm, ← e]; exact hd)
  exact ⟨y, hy, by rw [hz, hm, ← e]⟩

theorem exp_inj (p q : Nat) (h : zn p 1 = zn q 1) (hpq : p < q) (hq : q < p + N) : False := by
  obtain ⟨k, rfl⟩ : ∃ k, q = k + p := ⟨q - p, by omega⟩
  rw [zn_add k p] at h
  exact order k (by omega) (by omega) (zn_inj p h).symm

/-- no four of the values, the first of them the start, cancel out -/
theorem no_quadrinomial (n : Nat) (hn : n ≤ 4096) (ls : List Nat) (hlen : n ≤ 2 * ls.length + 1) (hlen' : 2 * ls.length < 4096)
    (h : oddOk (mapsN 32 0) ls (zn 1 1).toNat = true) (hf : fourOk n ls = true) (a b c : Nat)
    (ha : 0 < a) (hb : 0 < b) (hc : 0 < c) (hs : a + (b + c) < n) :
    zn (a + (b + c)) 1 ^^^ zn (b + c) 1 ≠ zn c 1 ^^^ 1 := by
  intro he
  obtain ⟨c1, c2⟩ := covered n hn ls hlen hlen' h
  have f := fourOk_eq n ls hf
  obtain ⟨x, hx, xa⟩ := c2 a ha (by omega)
  obtain ⟨y, hy, yc⟩ := c2 c hc (by omega)
  obtain ⟨gx, ex⟩ := c1 x hx
  obtain ⟨gy, ey⟩ := c1 y hy
  rw [xa] at ex
  rw [yc] at ey
  have e : zn (x / 4096 + (b + c)) 1 = zn (y / 4096) 1 := by
    rw [zn_add, ex, zn_xor, ← zn_add, he, ey]
  have n1 := (f x hx).1
  have n2 := (f y hy).1
  have k1 : n ≤ x / 4096 := by omega
  have k2 : n ≤ y / 4096 := by omega
  have heq : x / 4096 + (b + c) = y / 4096 := by
    rcases Nat.lt_trichotomy (x / 4096 + (b + c)) (y / 4096) with hlt | heq | hlt
    · exact (exp_inj _ _ e hlt (by omega)).elim
    · exact heq
    · exact (exp_inj _ _ e.symm hlt (by omega)).elim
  have := (f x hx).2 y hy (by intro hxy; rw [hxy] at heq; omega) (by omega)
  rcases this with h | h <;> omega

end Verif.Proof.CRC32
