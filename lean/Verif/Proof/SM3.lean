import Verif.Model.SM3
import Verif.Spec.SM3
import Verif.Proof.Regs

/-! The SM3 model computes the SM3 standard. -/

namespace Verif.Proof.SM3
open Model.SM3 Spec

theorem P1_eq (x : W32) : permutation1 x = SM3.P1 x := by
  simp only [permutation1, SM3.P1, rotl_eq _ 15 (show 15 < 32 by decide),
    rotl_eq _ 23 (show 23 < 32 by decide)]

theorem P0_eq (x : W32) : permutation0 x = SM3.P0 x := by
  simp only [permutation0, SM3.P0, rotl_eq _ 9 (show 9 < 32 by decide),
    rotl_eq _ 17 (show 17 < 32 by decide)]

theorem expand_eq (m : Block 64) (t : Nat) (ht : t < 68) :
    (expand m)[t] = SM3.W (wordBE 32 m.toList) t := by
  have h1 := forRange_inv (lo := 0) (hi := 16) (by decide)
    (init := (Vector.replicate 68 (0 : W32)))
    (body := fun t _ h w => w.set t (loadBE32 m t))
    (fun t w => ∀ j (_ : j < t) (hj : j < 68), w[j] = SM3.W (wordBE 32 m.toList) j)
    (by intro j hj; omega)
    (by
      intro t _ h2 s hP j hj hj2
      rw [Vector.getElem_set]
      split
      · subst_vars
        rw [loadBE32_eq, SM3.W, if_pos h2]
      · exact hP j (by omega) hj2)
  have h2 := forRange_inv (lo := 16) (hi := 68) (by decide)
    (init := forRange 0 16 (Vector.replicate 68 (0 : W32)) fun t _ h w => w.set t (loadBE32 m t))
    (body := fun t h1 h2 w => w.set t (permutation1 (rotl w[t - 3] 15 ^^^ w[t - 9] ^^^ w[t - 16])
      ^^^ rotl w[t - 13] 7 ^^^ w[t - 6]))
    (fun t w => ∀ j (_ : j < t) (hj : j < 68), w[j] = SM3.W (wordBE 32 m.toList) j)
    h1
    (by
      intro t h1 h2 s hP j hj hj2
      rw [Vector.getElem_set]
      split
      · subst_vars
        rw [hP _ (by omega), hP _ (by omega), hP _ (by omega), hP _ (by omega), hP _ (by omega),
          rotl_eq _ 15 (by decide), rotl_eq _ 7 (by decide), P1_eq]
        conv => rhs; rw [SM3.W, if_neg (by omega)]
        congr 3
        rw [BitVec.xor_assoc, BitVec.xor_comm, BitVec.xor_comm (SM3.W _ (_ - 9))]
      · exact hP j (by omega) hj2)
  exact h2 t ht ht

def rndOf (t : Nat) : Round := if t < 16 then .r1 else .r2

/-- The call for iteration `t`. -/
def gen (t : Fin 64) : Call :=
  ⟨rndOf t, ⟨(3 * t.val) % 4, by omega⟩, ⟨(1 + 3 * t.val) % 4, by omega⟩,
    ⟨(2 + 3 * t.val) % 4, by omega⟩, ⟨(3 + 3 * t.val) % 4, by omega⟩,
    ⟨(3 * t.val) % 4, by omega⟩, ⟨(1 + 3 * t.val) % 4, by omega⟩,
    ⟨(2 + 3 * t.val) % 4, by omega⟩, ⟨(3 + 3 * t.val) % 4, by omega⟩,
    (SM3.T t).rotateLeft (t % 32), t⟩

theorem calls_length : calls.length = 64 := by decide +kernel

theorem calls_eq : ∀ t : Fin 64, calls[t] = gen t := by decide +kernel

theorem ff_eq (t : Nat) (a b c : W32) : ff (rndOf t) a b c = SM3.FF t a b c := by
  have e : (a &&& b) ||| (c &&& (a ||| b)) = (a &&& b) ||| (a &&& c) ||| (b &&& c) := by
    ext i hi; simp
    cases a[i] <;> cases b[i] <;> cases c[i] <;> rfl
  unfold rndOf SM3.FF
  by_cases h : t < 16
  · simp only [h, if_true, ff]
  · simp only [h, if_false, ff, e]

theorem gg_eq (t : Nat) (a b c : W32) : gg (rndOf t) a b c = SM3.GG t a b c := by
  have e : c ^^^ (a &&& (b ^^^ c)) = (a &&& b) ||| (~~~a &&& c) := by
    ext i hi; simp
    cases a[i] <;> cases b[i] <;> cases c[i] <;> rfl
  unfold rndOf SM3.GG
  by_cases h : t < 16
  · simp only [h, if_true, gg]
  · simp only [h, if_false, gg, e]

theorem view4_set2 {α : Type} (t : Nat) (r : Vector α 4) (b d : α) :
    view4 (t + 1) ((r.set ((1 + 3 * t) % 4) b (by omega)).set ((3 + 3 * t) % 4) d (by omega))
      = (d, (view4 t r).1, b, (view4 t r).2.2.1) := by
  simp only [view4, Vector.getElem_set, Prod.mk.injEq]
  refine ⟨?_, ?_, ?_, ?_⟩
  · rw [if_pos (by omega)]
  · rw [if_neg (by omega), if_neg (by omega)]; congr 1; omega
  · rw [if_neg (by omega), if_pos (by omega)]
  · rw [if_neg (by omega), if_neg (by omega)]; congr 1; omega

/-- The two register quadruples seen after `t` iterations. -/
def view (t : Nat) (r : Vector W32 4 × Vector W32 4) : SM3.State := (view4 t r.1, view4 t r.2)

theorem exec_view (m : Block 64) (r : Vector W32 4 × Vector W32 4) (t : Fin 64) :
    view (t.val + 1) (exec (expand m) r (gen t))
      = SM3.step (wordBE 32 m.toList) (view t.val r) t.val := by
  simp only [exec, gen, view, Fin.getElem_fin, expand_eq, ff_eq, gg_eq, P0_eq,
    rotl_eq _ 12 (show 12 < 32 by decide), rotl_eq _ 7 (show 7 < 32 by decide),
    rotl_eq _ 9 (show 9 < 32 by decide), rotl_eq _ 19 (show 19 < 32 by decide), view4_set2]
  rfl

/-- the eight words as the standard's state -/
def two (h : Vector W32 8) : SM3.State := ((h[0], h[1], h[2], h[3]), (h[4], h[5], h[6], h[7]))

theorem compress_eq (h : Vector W32 8) (m : Block 64) :
    two (compress h m) = SM3.compress (two h) m.toList := by
  have key := foldl_inv calls (exec (expand m)) (#v[h[0], h[1], h[2], h[3]], #v[h[4], h[5], h[6], h[7]])
    (fun t r => view t r = (List.range t).foldl (SM3.step (wordBE 32 m.toList)) (two h))
    rfl
    (by
      intro t ht r h1
      rw [calls_length] at ht
      rw [show calls[t] = gen ⟨t, ht⟩ from calls_eq ⟨t, ht⟩]
      rw [exec_view m r ⟨t, ht⟩, foldl_range_succ, h1])
  rw [calls_length] at key
  unfold compress SM3.compress
  simp only []
  rw [← key]
  simp only [two, view, view4, Nat.reduceMul, Nat.reduceMod, Nat.reduceAdd]
  simp [BitVec.xor_comm]

theorem toArray_eq (h : Vector W32 8) :
    toArray h = .ok (bytesBE [(two h).1.1, (two h).1.2.1, (two h).1.2.2.1, (two h).1.2.2.2,
      (two h).2.1, (two h).2.2.1, (two h).2.2.2.1, (two h).2.2.2.2]) := by
  unfold toArray
  rw [flatMap_storeBE (w := 32), resultArray_exact _ _ (by rw [bytesBE_length]; simp), vec8_toList]
  rfl

def refines : Refines SM3 (fun m => .ok (SM3.sm3 m)) :=
  (mdRefines (by decide) (by decide) 0x80 counterBE64_ok compress iv toArray).congr fun m => by
    rw [toArray_eq, mdFold_map (f := two) compress_eq]
    rfl

end Verif.Proof.SM3
