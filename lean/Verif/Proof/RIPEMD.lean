import Verif.Model.RIPEMD
import Verif.Spec.RIPEMD
import Verif.Proof.Regs

/-! The RIPEMD models compute the RIPEMD specification. -/

namespace Verif.Proof.RIPEMD
open Model.RIPEMD Spec

/-! ### The two lines are independent -/

/-- The left (right) calls of a program, in order. -/
def lefts {C : Type} (p : List (Stmt C)) : List C :=
  p.filterMap fun | .left q => some q | .right _ => none
def rights {C : Type} (p : List (Stmt C)) : List C :=
  p.filterMap fun | .left _ => none | .right q => some q

theorem foldl_exec {C V : Type} (line : V → C → V) (p : List (Stmt C)) (s : V × V) :
    p.foldl (exec line) s = ((lefts p).foldl line s.1, (rights p).foldl line s.2) := by
  induction p generalizing s with
  | nil => rfl
  | cons x p ih => cases x <;> (rw [List.foldl_cons, ih]; rfl)

theorem lefts_append {C : Type} (p q : List (Stmt C)) : lefts (p ++ q) = lefts p ++ lefts q := by
  simp [lefts]
theorem rights_append {C : Type} (p q : List (Stmt C)) : rights (p ++ q) = rights p ++ rights q := by
  simp [rights]

/-! ### Functions and tables -/

def fnOf : Fin 5 → Fn
  | 0 => .f1 | 1 => .f2 | 2 => .f3 | 3 => .f4 | 4 => .f5

theorem fn_eq (i : Fin 5) (x y z : W32) : fn (fnOf i) x y z = RIPEMD.f i x y z := by
  have e1 : (x &&& (y ^^^ z)) ^^^ z = (x &&& y) ||| (~~~x &&& z) := by
    ext i hi; simp
    cases x[i] <;> cases y[i] <;> cases z[i] <;> rfl
  have e2 : ((x ^^^ y) &&& z) ^^^ y = (x &&& z) ||| (y &&& ~~~z) := by
    ext i hi; simp
    cases x[i] <;> cases y[i] <;> cases z[i] <;> rfl
  match i with
  | 0 => rfl
  | 1 => exact e1
  | 2 => rfl
  | 3 => exact e2
  | 4 => rfl

theorem r_lt (j : Fin 80) : RIPEMD.r j < 16 := by revert j; decide +kernel
theorem r'_lt (j : Fin 80) : RIPEMD.r' j < 16 := by revert j; decide +kernel
theorem s_lt (j : Fin 80) : RIPEMD.s j < 32 := by revert j; decide +kernel
theorem s'_lt (j : Fin 80) : RIPEMD.s' j < 32 := by revert j; decide +kernel

/-! ### Four registers -/

def seg4 : Fin 4 → List (Stmt Call4)
  | 0 => seg4_0 | 1 => seg4_1 | 2 => seg4_2 | 3 => seg4_3

def mk4 (g : Fin 5) (k : W32) (r : Fin 16) (s : Nat) (j : Nat) : Call4 :=
  ⟨⟨(3 * j) % 4, by omega⟩, ⟨(1 + 3 * j) % 4, by omega⟩, ⟨(2 + 3 * j) % 4, by omega⟩,
    ⟨(3 + 3 * j) % 4, by omega⟩, fnOf g, k, r, s⟩

def genL4 (k : Fin 4) (t : Fin 16) : Call4 :=
  mk4 ⟨k, by omega⟩ (RIPEMD.K k) ⟨RIPEMD.r (16 * k + t), r_lt ⟨16 * k + t, by omega⟩⟩
    (RIPEMD.s (16 * k + t)) (16 * k + t)
def genR4 (k : Fin 4) (t : Fin 16) : Call4 :=
  mk4 ⟨3 - k, by omega⟩ (RIPEMD.K4' k) ⟨RIPEMD.r' (16 * k + t), r'_lt ⟨16 * k + t, by omega⟩⟩
    (RIPEMD.s' (16 * k + t)) (16 * k + t)

theorem seg4_left : ∀ k : Fin 4, lefts (seg4 k) = (List.finRange 16).map (genL4 k) := by
  decide +kernel
theorem seg4_right : ∀ k : Fin 4, rights (seg4 k) = (List.finRange 16).map (genR4 k) := by
  decide +kernel

theorem line4_view (x : Block 64) (v : Vector W32 4) (g : Fin 5) (k : W32) (r : Fin 16) (s : Nat)
    (hs : s < 32) (j : Nat) :
    view4 (j + 1) (line4 x v (mk4 g k r s j))
      = RIPEMD.step4 g (wordLE 32 x.toList r) k s (view4 j v) := by
  unfold line4 mk4
  simp only [fn_eq, rotl_eq _ _ hs, loadLE32_eq]
  exact view4_set j v _

theorem lines4 (x : Block 64) (gen : Fin 16 → Call4) (stp : RIPEMD.Q4 → Nat → RIPEMD.Q4) (n : Nat)
    (h : ∀ (t : Fin 16) (v : Vector W32 4),
      view4 (n + t.val + 1) (line4 x v (gen t)) = stp (view4 (n + t.val) v) (n + t.val))
    (v : Vector W32 4) :
    view4 (n + 16) (((List.finRange 16).map gen).foldl (line4 x) v)
      = (List.range 16).foldl (fun q i => stp q (n + i)) (view4 n v) := by
  have key := foldl_inv ((List.finRange 16).map gen) (line4 x) v
    (fun t w => view4 (n + t) w = (List.range t).foldl (fun q i => stp q (n + i)) (view4 n v)) rfl
    (by
      intro t ht w hw
      have ht' : t < 16 := by simpa using ht
      have e : ((List.finRange 16).map gen)[t]'ht = gen ⟨t, ht'⟩ := by
        rw [List.getElem_map, List.getElem_finRange]; rfl
      rw [e, foldl_range_succ, ← hw]
      exact h ⟨t, ht'⟩ w)
  simpa using key

theorem left4_seg (x : Block 64) (k : Fin 4) (v : Vector W32 4) :
    view4 (16 * k.val + 16) ((lefts (seg4 k)).foldl (line4 x) v)
      = (List.range 16).foldl (fun q i => RIPEMD.left4 (wordLE 32 x.toList) q (16 * k.val + i))
        (view4 (16 * k.val) v) := by
  rw [seg4_left]
  apply lines4
  intro t v
  have h16 : (16 * k.val + t.val) / 16 = k.val := by omega
  unfold genL4 RIPEMD.left4
  rw [line4_view x v _ _ _ _ (s_lt ⟨16 * k.val + t.val, by omega⟩), h16]

theorem right4_seg (x : Block 64) (k : Fin 4) (v : Vector W32 4) :
    view4 (16 * k.val + 16) ((rights (seg4 k)).foldl (line4 x) v)
      = (List.range 16).foldl (fun q i => RIPEMD.right4 (wordLE 32 x.toList) q (16 * k.val + i))
        (view4 (16 * k.val) v) := by
  rw [seg4_right]
  apply lines4
  intro t v
  have h16 : (16 * k.val + t.val) / 16 = k.val := by omega
  unfold genR4 RIPEMD.right4
  rw [line4_view x v _ _ _ _ (s'_lt ⟨16 * k.val + t.val, by omega⟩), h16]

/-- 64 steps as four groups of 16. -/
theorem fold64 {σ : Type} (f : σ → Nat → σ) (s : σ) :
    (List.range 64).foldl f s =
      (List.range 16).foldl (fun q i => f q (16 * 3 + i))
      ((List.range 16).foldl (fun q i => f q (16 * 2 + i))
      ((List.range 16).foldl (fun q i => f q (16 * 1 + i))
      ((List.range 16).foldl (fun q i => f q (16 * 0 + i)) s))) := by
  rw [show (64 : Nat) = 16 + 16 + 16 + 16 by decide, foldl_range_add, foldl_range_add,
    foldl_range_add]
  simp

theorem fold80 {σ : Type} (f : σ → Nat → σ) (s : σ) :
    (List.range 80).foldl f s =
      (List.range 16).foldl (fun q i => f q (16 * 4 + i)) ((List.range 64).foldl f s) := by
  rw [show (80 : Nat) = 64 + 16 by decide, foldl_range_add]

theorem view4_mod (n : Nat) (v : Vector W32 4) : view4 (4 * n) v = tup4 v := by
  simp only [view4, tup4, Prod.mk.injEq]
  refine ⟨?_, ?_, ?_, ?_⟩ <;> (congr 1; omega)

theorem compress128_eq (h : Vector W32 4) (x : Block 64) :
    tup4 (compress128 h x) = RIPEMD.compress128 (tup4 h) x.toList := by
  have l0 := left4_seg x 0
  have l1 := left4_seg x 1
  have l2 := left4_seg x 2
  have l3 := left4_seg x 3
  have r0 := right4_seg x 0
  have r1 := right4_seg x 1
  have r2 := right4_seg x 2
  have r3 := right4_seg x 3
  have hl : tup4 ((lefts (seg4_0 ++ seg4_1 ++ seg4_2 ++ seg4_3)).foldl (line4 x)
      #v[h[0], h[1], h[2], h[3]])
      = (List.range 64).foldl (RIPEMD.left4 (wordLE 32 x.toList)) (tup4 h) := by
    rw [fold64, lefts_append, lefts_append, lefts_append, List.foldl_append, List.foldl_append,
      List.foldl_append]
    rw [← view4_mod 16]
    erw [l3, l2, l1, l0]
    rfl
  have hr : tup4 ((rights (seg4_0 ++ seg4_1 ++ seg4_2 ++ seg4_3)).foldl (line4 x)
      #v[h[0], h[1], h[2], h[3]])
      = (List.range 64).foldl (RIPEMD.right4 (wordLE 32 x.toList)) (tup4 h) := by
    rw [fold64, rights_append, rights_append, rights_append, List.foldl_append, List.foldl_append,
      List.foldl_append]
    rw [← view4_mod 16]
    erw [r3, r2, r1, r0]
    rfl
  unfold compress128 RIPEMD.compress128
  simp only []
  rw [foldl_exec, ← hl, ← hr]
  generalize (lefts _).foldl _ _ = a
  generalize (rights _).foldl _ _ = b
  simp [tup4]

/-- One round of both lines with the exchange after its last step. -/
theorem foldBoth {σ : Type} (L R : σ → Nat → σ) (ex : Nat → σ × σ → σ × σ) (k : Nat) (p : σ × σ) :
    (List.range 16).foldl (fun p i => (fun (p : σ × σ) j =>
        if j % 16 = 15 then ex (j / 16) (L p.1 j, R p.2 j) else (L p.1 j, R p.2 j)) p (16 * k + i)) p
      = ex k ((List.range 16).foldl (fun q i => L q (16 * k + i)) p.1,
          (List.range 16).foldl (fun q i => R q (16 * k + i)) p.2) := by
  have h15 : ∀ n, n ≤ 15 → (List.range n).foldl (fun p i => (fun (p : σ × σ) j =>
        if j % 16 = 15 then ex (j / 16) (L p.1 j, R p.2 j) else (L p.1 j, R p.2 j)) p (16 * k + i)) p
      = ((List.range n).foldl (fun q i => L q (16 * k + i)) p.1,
          (List.range n).foldl (fun q i => R q (16 * k + i)) p.2) := by
    intro n hn
    induction n with
    | zero => rfl
    | succ n ih =>
      rw [foldl_range_succ, foldl_range_succ, foldl_range_succ, ih (by omega)]
      simp only []
      rw [if_neg (by omega)]
  rw [foldl_range_succ _ _ 15, foldl_range_succ _ _ 15, foldl_range_succ _ _ 15,
    h15 15 (by omega)]
  simp only []
  rw [if_pos (by omega), show (16 * k + 15) / 16 = k by omega]

theorem swap4_eq (i : Fin 4) (s : Vector W32 4 × Vector W32 4) :
    (tup4 (swap i s).1, tup4 (swap i s).2) = RIPEMD.exchange4 i (tup4 s.1, tup4 s.2) := by
  match i with
  | ⟨0, _⟩ => simp [swap, tup4, RIPEMD.exchange4]
  | ⟨1, _⟩ => simp [swap, tup4, RIPEMD.exchange4]
  | ⟨2, _⟩ => simp [swap, tup4, RIPEMD.exchange4]
  | ⟨3, _⟩ => simp [swap, tup4, RIPEMD.exchange4]; exact ⟨rfl, rfl⟩

/-- Round `k` of RIPEMD-256. -/
theorem round256 (x : Block 64) (k : Fin 4) (s : Vector W32 4 × Vector W32 4) :
    (fun p : Vector W32 4 × Vector W32 4 => (tup4 p.1, tup4 p.2))
        (swap k ((seg4 k).foldl (exec (line4 x)) s))
      = (List.range 16).foldl (fun p i => RIPEMD.both4 (wordLE 32 x.toList) p (16 * k.val + i))
        (tup4 s.1, tup4 s.2) := by
  have hf := foldBoth (RIPEMD.left4 (wordLE 32 x.toList)) (RIPEMD.right4 (wordLE 32 x.toList))
    RIPEMD.exchange4 k.val (tup4 s.1, tup4 s.2)
  have hl := left4_seg x k s.1
  have hr := right4_seg x k s.2
  rw [show 16 * k.val + 16 = 4 * (4 * k.val + 4) by omega, show 16 * k.val = 4 * (4 * k.val) by omega,
    view4_mod, view4_mod] at hl hr
  rw [show 4 * (4 * k.val) = 16 * k.val by omega] at hl hr
  simp only []
  rw [swap4_eq, foldl_exec, hl, hr]
  exact hf.symm

/-- the eight words as two lines -/
def two4 (h : Vector W32 8) : RIPEMD.Q4 × RIPEMD.Q4 :=
  ((h[0], h[1], h[2], h[3]), (h[4], h[5], h[6], h[7]))

theorem compress256_eq (h : Vector W32 8) (x : Block 64) :
    two4 (compress256 h x) = RIPEMD.compress256 (two4 h) x.toList := by
  have key (s : Vector W32 4 × Vector W32 4) : (fun p : Vector W32 4 × Vector W32 4 => (tup4 p.1, tup4 p.2))
      (swap 3 (seg4_3.foldl (exec (line4 x)) (swap 2 (seg4_2.foldl (exec (line4 x))
        (swap 1 (seg4_1.foldl (exec (line4 x)) (swap 0 (seg4_0.foldl (exec (line4 x)) s))))))))
      = (List.range 64).foldl (RIPEMD.both4 (wordLE 32 x.toList)) (tup4 s.1, tup4 s.2) := by
    rw [fold64]
    refine (round256 x 3 _).trans ?_
    refine congrArg (List.foldl _ · _) ((round256 x 2 _).trans ?_)
    refine congrArg (List.foldl _ · _) ((round256 x 1 _).trans ?_)
    refine congrArg (List.foldl _ · _) (round256 x 0 _)
  have k := key (#v[h[0], h[1], h[2], h[3]], #v[h[4], h[5], h[6], h[7]])
  have e : two4 h = (tup4 #v[h[0], h[1], h[2], h[3]], tup4 #v[h[4], h[5], h[6], h[7]]) := rfl
  have fin (s : Vector W32 4 × Vector W32 4) : two4
      #v[h[0] + s.1[0], h[1] + s.1[1], h[2] + s.1[2], h[3] + s.1[3],
        h[4] + s.2[0], h[5] + s.2[1], h[6] + s.2[2], h[7] + s.2[3]]
      = (fun p : RIPEMD.Q4 × RIPEMD.Q4 =>
          let ((A, B, C, D), (A', B', C', D')) := p
          let ((h0, h1, h2, h3), (h4, h5, h6, h7)) := two4 h
          ((h0 + A, h1 + B, h2 + C, h3 + D), (h4 + A', h5 + B', h6 + C', h7 + D')))
        (tup4 s.1, tup4 s.2) := rfl
  refine (fin _).trans ?_
  unfold RIPEMD.compress256
  simp only []
  rw [e, ← k]

/-! ### Five registers -/

/-- Five registers seen after `t` steps that each rotate the names by one. -/
def view5 (t : Nat) (r : Vector W32 5) : RIPEMD.Q5 :=
  (r[(4 * t) % 5]'(by omega), r[(1 + 4 * t) % 5]'(by omega), r[(2 + 4 * t) % 5]'(by omega),
    r[(3 + 4 * t) % 5]'(by omega), r[(4 + 4 * t) % 5]'(by omega))

theorem view5_set (t : Nat) (r : Vector W32 5) (a c : W32) :
    view5 (t + 1) ((r.set ((4 * t) % 5) a (by omega)).set ((2 + 4 * t) % 5) c (by omega))
      = ((view5 t r).2.2.2.2, a, (view5 t r).2.1, c, (view5 t r).2.2.2.1) := by
  simp only [view5, Vector.getElem_set, Prod.mk.injEq]
  refine ⟨?_, ?_, ?_, ?_, ?_⟩
  · rw [if_neg (by omega), if_neg (by omega)]; congr 1; omega
  · rw [if_neg (by omega), if_pos (by omega)]
  · rw [if_neg (by omega), if_neg (by omega)]; congr 1; omega
  · rw [if_pos (by omega)]
  · rw [if_neg (by omega), if_neg (by omega)]; congr 1; omega

def tup5 (v : Vector W32 5) : RIPEMD.Q5 := (v[0], v[1], v[2], v[3], v[4])

theorem view5_mod (n : Nat) (v : Vector W32 5) : view5 (5 * n) v = tup5 v := by
  simp only [view5, tup5, Prod.mk.injEq]
  refine ⟨?_, ?_, ?_, ?_, ?_⟩ <;> (congr 1; omega)

def seg5 : Fin 5 → List (Stmt Call5)
  | 0 => seg5_0 | 1 => seg5_1 | 2 => seg5_2 | 3 => seg5_3 | 4 => seg5_4

def mk5 (g : Fin 5) (k : W32) (r : Fin 16) (s : Nat) (j : Nat) : Call5 :=
  ⟨⟨(4 * j) % 5, by omega⟩, ⟨(1 + 4 * j) % 5, by omega⟩, ⟨(2 + 4 * j) % 5, by omega⟩,
    ⟨(3 + 4 * j) % 5, by omega⟩, ⟨(4 + 4 * j) % 5, by omega⟩, fnOf g, k, r, s⟩

def genL5 (k : Fin 5) (t : Fin 16) : Call5 :=
  mk5 k (RIPEMD.K k) ⟨RIPEMD.r (16 * k + t), r_lt ⟨16 * k + t, by omega⟩⟩
    (RIPEMD.s (16 * k + t)) (16 * k + t)
def genR5 (k : Fin 5) (t : Fin 16) : Call5 :=
  mk5 ⟨4 - k, by omega⟩ (RIPEMD.K' k) ⟨RIPEMD.r' (16 * k + t), r'_lt ⟨16 * k + t, by omega⟩⟩
    (RIPEMD.s' (16 * k + t)) (16 * k + t)

theorem seg5_left : ∀ k : Fin 5, lefts (seg5 k) = (List.finRange 16).map (genL5 k) := by
  decide +kernel
theorem seg5_right : ∀ k : Fin 5, rights (seg5 k) = (List.finRange 16).map (genR5 k) := by
  decide +kernel

theorem line5_view (x : Block 64) (v : Vector W32 5) (g : Fin 5) (k : W32) (r : Fin 16) (s : Nat)
    (hs : s < 32) (j : Nat) :
    view5 (j + 1) (line5 x v (mk5 g k r s j))
      = RIPEMD.step5 g (wordLE 32 x.toList r) k s (view5 j v) := by
  have hc (a : W32) : (v.set ((4 * j) % 5) a (by omega))[(2 + 4 * j) % 5]'(by omega)
      = v[(2 + 4 * j) % 5]'(by omega) := by
    rw [Vector.getElem_set, if_neg (by omega)]
  unfold line5 mk5
  simp only [fn_eq, rotl_eq _ _ hs, loadLE32_eq, Fin.getElem_fin, hc,
    rotl_eq _ 10 (show 10 < 32 by decide)]
  exact view5_set j v _ _

theorem lines5 (x : Block 64) (gen : Fin 16 → Call5) (stp : RIPEMD.Q5 → Nat → RIPEMD.Q5) (n : Nat)
    (h : ∀ (t : Fin 16) (v : Vector W32 5),
      view5 (n + t.val + 1) (line5 x v (gen t)) = stp (view5 (n + t.val) v) (n + t.val))
    (v : Vector W32 5) :
    view5 (n + 16) (((List.finRange 16).map gen).foldl (line5 x) v)
      = (List.range 16).foldl (fun q i => stp q (n + i)) (view5 n v) := by
  have key := foldl_inv ((List.finRange 16).map gen) (line5 x) v
    (fun t w => view5 (n + t) w = (List.range t).foldl (fun q i => stp q (n + i)) (view5 n v)) rfl
    (by
      intro t ht w hw
      have ht' : t < 16 := by simpa using ht
      have e : ((List.finRange 16).map gen)[t]'ht = gen ⟨t, ht'⟩ := by
        rw [List.getElem_map, List.getElem_finRange]; rfl
      rw [e, foldl_range_succ, ← hw]
      exact h ⟨t, ht'⟩ w)
  simpa using key

theorem left5_seg (x : Block 64) (k : Fin 5) (v : Vector W32 5) :
    view5 (16 * k.val + 16) ((lefts (seg5 k)).foldl (line5 x) v)
      = (List.range 16).foldl (fun q i => RIPEMD.left5 (wordLE 32 x.toList) q (16 * k.val + i))
        (view5 (16 * k.val) v) := by
  rw [seg5_left]
  apply lines5
  intro t v
  have h16 : (16 * k.val + t.val) / 16 = k.val := by omega
  unfold genL5 RIPEMD.left5
  rw [line5_view x v _ _ _ _ (s_lt ⟨16 * k.val + t.val, by omega⟩), h16]

theorem right5_seg (x : Block 64) (k : Fin 5) (v : Vector W32 5) :
    view5 (16 * k.val + 16) ((rights (seg5 k)).foldl (line5 x) v)
      = (List.range 16).foldl (fun q i => RIPEMD.right5 (wordLE 32 x.toList) q (16 * k.val + i))
        (view5 (16 * k.val) v) := by
  rw [seg5_right]
  apply lines5
  intro t v
  have h16 : (16 * k.val + t.val) / 16 = k.val := by omega
  unfold genR5 RIPEMD.right5
  rw [line5_view x v _ _ _ _ (s'_lt ⟨16 * k.val + t.val, by omega⟩), h16]

theorem compress160_eq (h : Vector W32 5) (x : Block 64) :
    tup5 (compress160 h x) = RIPEMD.compress160 (tup5 h) x.toList := by
  have l0 := left5_seg x 0
  have l1 := left5_seg x 1
  have l2 := left5_seg x 2
  have l3 := left5_seg x 3
  have l4 := left5_seg x 4
  have r0 := right5_seg x 0
  have r1 := right5_seg x 1
  have r2 := right5_seg x 2
  have r3 := right5_seg x 3
  have r4 := right5_seg x 4
  have hl : tup5 ((lefts (seg5_0 ++ seg5_1 ++ seg5_2 ++ seg5_3 ++ seg5_4)).foldl (line5 x)
      #v[h[0], h[1], h[2], h[3], h[4]])
      = (List.range 80).foldl (RIPEMD.left5 (wordLE 32 x.toList)) (tup5 h) := by
    rw [fold80, fold64, lefts_append, lefts_append, lefts_append, lefts_append, List.foldl_append,
      List.foldl_append, List.foldl_append, List.foldl_append]
    rw [← view5_mod 16]
    erw [l4, l3, l2, l1, l0]
    rfl
  have hr : tup5 ((rights (seg5_0 ++ seg5_1 ++ seg5_2 ++ seg5_3 ++ seg5_4)).foldl (line5 x)
      #v[h[0], h[1], h[2], h[3], h[4]])
      = (List.range 80).foldl (RIPEMD.right5 (wordLE 32 x.toList)) (tup5 h) := by
    rw [fold80, fold64, rights_append, rights_append, rights_append, rights_append,
      List.foldl_append, List.foldl_append, List.foldl_append, List.foldl_append]
    rw [← view5_mod 16]
    erw [r4, r3, r2, r1, r0]
    rfl
  unfold compress160 RIPEMD.compress160
  simp only []
  rw [foldl_exec, ← hl, ← hr]
  generalize (lefts _).foldl _ _ = a
  generalize (rights _).foldl _ _ = b
  simp [tup5]

/-- Exchanging the variable number `k` after round `k` is the specification's exchange. -/
theorem swap5_eq (k : Fin 5) (s : Vector W32 5 × Vector W32 5) :
    (view5 (16 * k.val + 16) (swap k s).1, view5 (16 * k.val + 16) (swap k s).2)
      = RIPEMD.exchange5 k (view5 (16 * k.val + 16) s.1, view5 (16 * k.val + 16) s.2) := by
  match k with
  | ⟨0, _⟩ => simp [swap, view5, RIPEMD.exchange5]
  | ⟨1, _⟩ => simp [swap, view5, RIPEMD.exchange5]
  | ⟨2, _⟩ => simp [swap, view5, RIPEMD.exchange5]
  | ⟨3, _⟩ => simp [swap, view5, RIPEMD.exchange5]; exact ⟨rfl, rfl⟩
  | ⟨4, _⟩ => simp [swap, view5, RIPEMD.exchange5]; exact ⟨rfl, rfl⟩

/-- Round `k` of RIPEMD-320. -/
theorem round320 (x : Block 64) (k : Fin 5) (s : Vector W32 5 × Vector W32 5) :
    (fun p : Vector W32 5 × Vector W32 5 => (view5 (16 * k.val + 16) p.1, view5 (16 * k.val + 16) p.2))
        (swap k ((seg5 k).foldl (exec (line5 x)) s))
      = (List.range 16).foldl (fun p i => RIPEMD.both5 (wordLE 32 x.toList) p (16 * k.val + i))
        (view5 (16 * k.val) s.1, view5 (16 * k.val) s.2) := by
  have hf := foldBoth (RIPEMD.left5 (wordLE 32 x.toList)) (RIPEMD.right5 (wordLE 32 x.toList))
    RIPEMD.exchange5 k.val (view5 (16 * k.val) s.1, view5 (16 * k.val) s.2)
  have hl := left5_seg x k s.1
  have hr := right5_seg x k s.2
  simp only []
  rw [swap5_eq, foldl_exec, hl, hr]
  exact hf.symm

/-- the ten words as two lines -/
def two5 (h : Vector W32 10) : RIPEMD.Q5 × RIPEMD.Q5 :=
  ((h[0], h[1], h[2], h[3], h[4]), (h[5], h[6], h[7], h[8], h[9]))

theorem compress320_eq (h : Vector W32 10) (x : Block 64) :
    two5 (compress320 h x) = RIPEMD.compress320 (two5 h) x.toList := by
  have key (s : Vector W32 5 × Vector W32 5) :
      (fun p : Vector W32 5 × Vector W32 5 => (view5 (16 * 4 + 16) p.1, view5 (16 * 4 + 16) p.2))
      (swap 4 (seg5_4.foldl (exec (line5 x)) (swap 3 (seg5_3.foldl (exec (line5 x))
        (swap 2 (seg5_2.foldl (exec (line5 x)) (swap 1 (seg5_1.foldl (exec (line5 x))
        (swap 0 (seg5_0.foldl (exec (line5 x)) s))))))))))
      = (List.range 80).foldl (RIPEMD.both5 (wordLE 32 x.toList))
        (view5 (16 * 0) s.1, view5 (16 * 0) s.2) := by
    rw [fold80, fold64]
    refine (round320 x 4 _).trans ?_
    refine congrArg (List.foldl _ · _) ((round320 x 3 _).trans ?_)
    refine congrArg (List.foldl _ · _) ((round320 x 2 _).trans ?_)
    refine congrArg (List.foldl _ · _) ((round320 x 1 _).trans ?_)
    refine congrArg (List.foldl _ · _) (round320 x 0 _)
  have k := key (#v[h[0], h[1], h[2], h[3], h[4]], #v[h[5], h[6], h[7], h[8], h[9]])
  rw [show 16 * 4 + 16 = 5 * 16 by decide, show 16 * 0 = 5 * 0 by decide] at k
  simp only [view5_mod] at k
  have e : two5 h = (tup5 #v[h[0], h[1], h[2], h[3], h[4]], tup5 #v[h[5], h[6], h[7], h[8], h[9]]) := rfl
  have fin (s : Vector W32 5 × Vector W32 5) : two5
      #v[h[0] + s.1[0], h[1] + s.1[1], h[2] + s.1[2], h[3] + s.1[3], h[4] + s.1[4],
        h[5] + s.2[0], h[6] + s.2[1], h[7] + s.2[2], h[8] + s.2[3], h[9] + s.2[4]]
      = (fun p : RIPEMD.Q5 × RIPEMD.Q5 =>
          let ((A, B, C, D, E), (A', B', C', D', E')) := p
          let ((h0, h1, h2, h3, h4), (h5, h6, h7, h8, h9)) := two5 h
          ((h0 + A, h1 + B, h2 + C, h3 + D, h4 + E), (h5 + A', h6 + B', h7 + C', h8 + D', h9 + E')))
        (tup5 s.1, tup5 s.2) := rfl
  refine (fin _).trans ?_
  unfold RIPEMD.compress320
  simp only []
  rw [e, ← k]

/-! ### The hash functions -/

theorem toArray_eq {n : Nat} (h : Vector W32 n) : toArray h = .ok (bytesLE h.toList) := by
  unfold toArray
  rw [flatMap_storeLE (w := 32), resultArray_exact _ _ (by rw [bytesLE_length]; simp)]

def r128 : Refines RIPEMD_128 (fun m => .ok (RIPEMD.ripemd128 m)) :=
  (mdRefines (by decide) (by decide) 0x80 counterLE64_ok compress128 iv128 toArray).congr fun m => by
    rw [toArray_eq, vec4_toList]
    show Except.ok (bytesLE (RIPEMD.words4 (tup4 _))) = _
    rw [mdFold_map (f := tup4) compress128_eq]
    rfl

def r160 : Refines RIPEMD_160 (fun m => .ok (RIPEMD.ripemd160 m)) :=
  (mdRefines (by decide) (by decide) 0x80 counterLE64_ok compress160 iv160 toArray).congr fun m => by
    rw [toArray_eq, vec5_toList]
    show Except.ok (bytesLE (RIPEMD.words5 (tup5 _))) = _
    rw [mdFold_map (f := tup5) compress160_eq]
    rfl

def r256 : Refines RIPEMD_256 (fun m => .ok (RIPEMD.ripemd256 m)) :=
  (mdRefines (by decide) (by decide) 0x80 counterLE64_ok compress256 iv256 toArray).congr fun m => by
    rw [toArray_eq, vec8_toList]
    show Except.ok (bytesLE (RIPEMD.words4 (two4 _).1 ++ RIPEMD.words4 (two4 _).2)) = _
    rw [mdFold_map (f := two4) compress256_eq]
    rfl

theorem vec10_toList {α : Type} (v : Vector α 10) :
    v.toList = [v[0], v[1], v[2], v[3], v[4], v[5], v[6], v[7], v[8], v[9]] := by
  apply List.ext_getElem
  · simp
  · intro i h1 h2
    simp at h1
    have : i = 0 ∨ i = 1 ∨ i = 2 ∨ i = 3 ∨ i = 4 ∨ i = 5 ∨ i = 6 ∨ i = 7 ∨ i = 8 ∨ i = 9 := by omega
    rcases this with h | h | h | h | h | h | h | h | h | h <;> subst h <;> simp

def r320 : Refines RIPEMD_320 (fun m => .ok (RIPEMD.ripemd320 m)) :=
  (mdRefines (by decide) (by decide) 0x80 counterLE64_ok compress320 iv320 toArray).congr fun m => by
    rw [toArray_eq, vec10_toList]
    show Except.ok (bytesLE (RIPEMD.words5 (two5 _).1 ++ RIPEMD.words5 (two5 _).2)) = _
    rw [mdFold_map (f := two5) compress320_eq]
    rfl

end Verif.Proof.RIPEMD
