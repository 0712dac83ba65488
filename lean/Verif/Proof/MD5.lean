import Verif.Model.MD5
import Verif.Spec.MD5
import Verif.Proof.Regs

/-! The MD5 model computes RFC 1321. -/

namespace Verif.Proof.MD5
open Model.MD5 Spec

def fnOf (t : Nat) : Fn := if t < 16 then .f else if t < 32 then .g else if t < 48 then .h else .ii

theorem k_lt (t : Fin 64) : MD5.k t < 16 := by revert t; decide +kernel

theorem s_lt (t : Fin 64) : MD5.s t < 32 := by revert t; decide +kernel

/-- The call for step `t`. -/
def gen (t : Fin 64) : Call :=
  ⟨⟨(3 * t.val) % 4, by omega⟩, ⟨(1 + 3 * t.val) % 4, by omega⟩,
    ⟨(2 + 3 * t.val) % 4, by omega⟩, ⟨(3 + 3 * t.val) % 4, by omega⟩, fnOf t, ⟨MD5.k t, k_lt t⟩,
    MD5.s t, MD5.T.getD t 0⟩

theorem calls_length : calls.length = 64 := by decide +kernel

theorem calls_eq : ∀ t : Fin 64, calls[t] = gen t := by decide +kernel

theorem fn_eq (t : Nat) (x y z : W32) : (fnOf t).apply x y z = MD5.f t x y z := by
  have e1 : (x &&& (y ^^^ z)) ^^^ z = MD5.F x y z := by
    unfold MD5.F; ext i hi; simp
    cases x[i] <;> cases y[i] <;> cases z[i] <;> rfl
  have e2 : y ^^^ ((x ^^^ y) &&& z) = MD5.G x y z := by
    unfold MD5.G; ext i hi; simp
    cases x[i] <;> cases y[i] <;> cases z[i] <;> rfl
  unfold fnOf MD5.f
  by_cases h16 : t < 16
  · simp [h16, Fn.apply, e1]
  by_cases h32 : t < 32
  · simp [h16, h32, Fn.apply, e2]
  by_cases h48 : t < 48
  · simp [h16, h32, h48, Fn.apply, MD5.H]
  · simp [h16, h32, h48, Fn.apply, MD5.I]

theorem exec_view (m : Block 64) (r : Vector W32 4) (t : Fin 64) :
    view4 (t.val + 1) (exec m r (gen t))
      = MD5.step (wordLE 32 m.toList) (view4 t.val r) t.val := by
  have hs := s_lt t
  have h := view4_set t.val r
  unfold exec gen MD5.step
  simp only [fn_eq, rotl_eq _ _ hs, loadLE32_eq, h]
  rfl

theorem compress_eq (h : Vector W32 4) (m : Block 64) :
    tup4 (compress h m) = MD5.compress (tup4 h) m.toList := by
  have key := foldl_inv calls (exec m) #v[h[0], h[1], h[2], h[3]]
    (fun t r => view4 t r = (List.range t).foldl (MD5.step (wordLE 32 m.toList)) (tup4 h))
    rfl
    (by
      intro t ht r h1
      rw [calls_length] at ht
      rw [show calls[t] = gen ⟨t, ht⟩ from calls_eq ⟨t, ht⟩]
      rw [exec_view m r ⟨t, ht⟩, foldl_range_succ, h1])
  rw [calls_length] at key
  unfold compress MD5.compress
  simp only []
  rw [← key]
  rfl

theorem toArray_eq (h : Vector W32 4) :
    toArray h = .ok (bytesLE [(tup4 h).1, (tup4 h).2.1, (tup4 h).2.2.1, (tup4 h).2.2.2]) := by
  unfold toArray
  rw [flatMap_storeLE (w := 32), resultArray_exact _ _ (by rw [bytesLE_length]; simp), vec4_toList]
  rfl

def refines : Refines MD5 (fun m => .ok (MD5.md5 m)) :=
  (mdRefines (by decide) (by decide) 0x80 counterLE64_ok compress iv toArray).congr fun m => by
    rw [toArray_eq, mdFold_map (f := tup4) compress_eq]
    rfl

end Verif.Proof.MD5
