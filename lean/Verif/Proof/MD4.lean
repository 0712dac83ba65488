import Verif.Model.MD4
import Verif.Spec.MD4
import Verif.Proof.Regs

/-! The MD4 model computes RFC 1320. -/

namespace Verif.Proof.MD4
open Model.MD4 Spec

def rndOf (t : Nat) : Round := if t < 16 then .round1 else if t < 32 then .round2 else .round3

theorem k_lt (t : Fin 48) : MD4.k t < 16 := by revert t; decide +kernel

theorem s_lt (t : Fin 48) : MD4.s t < 32 := by revert t; decide +kernel

/-- The call for step `t`. -/
def gen (t : Fin 48) : Call :=
  ⟨rndOf t, ⟨(3 * t.val) % 4, by omega⟩, ⟨(1 + 3 * t.val) % 4, by omega⟩,
    ⟨(2 + 3 * t.val) % 4, by omega⟩, ⟨(3 + 3 * t.val) % 4, by omega⟩, ⟨MD4.k t, k_lt t⟩, MD4.s t⟩

theorem calls_length : calls.length = 48 := by decide +kernel

theorem calls_eq : ∀ t : Fin 48, calls[t] = gen t := by decide +kernel

theorem newA_eq (m : Block 64) (r : Vector W32 4) (t : Fin 48) :
    newA m r (gen t) = ((view4 t.val r).1 + MD4.f t (view4 t.val r).2.1 (view4 t.val r).2.2.1
      (view4 t.val r).2.2.2 + wordLE 32 m.toList (MD4.k t) + MD4.K t).rotateLeft (MD4.s t) := by
  have hs := s_lt t
  have e1 (b c d : W32) : (b &&& (c ^^^ d)) ^^^ d = MD4.F b c d := by
    unfold MD4.F; ext i hi; simp
    cases b[i] <;> cases c[i] <;> cases d[i] <;> rfl
  have e2 (b c d : W32) : (b &&& c) ||| ((b ||| c) &&& d) = MD4.G b c d := by
    unfold MD4.G; ext i hi; simp
    cases b[i] <;> cases c[i] <;> cases d[i] <;> rfl
  unfold newA gen rndOf MD4.f MD4.K
  by_cases h16 : t.val < 16
  · simp only [h16, if_true, e1, rotl_eq _ _ hs, loadLE32_eq, view4, Fin.getElem_fin]
    simp
  by_cases h32 : t.val < 32
  · simp only [h16, h32, if_true, if_false, e2, rotl_eq _ _ hs, loadLE32_eq, view4, Fin.getElem_fin]
  · simp only [h16, h32, if_false, rotl_eq _ _ hs, loadLE32_eq, view4, Fin.getElem_fin, MD4.H]

theorem exec_view (m : Block 64) (r : Vector W32 4) (t : Fin 48) :
    view4 (t.val + 1) (exec m r (gen t))
      = MD4.step (wordLE 32 m.toList) (view4 t.val r) t.val := by
  have h := newA_eq m r t
  unfold exec MD4.step
  rw [h]
  exact view4_set t.val r _

theorem compress_eq (h : Vector W32 4) (m : Block 64) :
    tup4 (compress h m) = MD4.compress (tup4 h) m.toList := by
  have key := foldl_inv calls (exec m) #v[h[0], h[1], h[2], h[3]]
    (fun t r => view4 t r = (List.range t).foldl (MD4.step (wordLE 32 m.toList)) (tup4 h))
    rfl
    (by
      intro t ht r h1
      rw [calls_length] at ht
      rw [show calls[t] = gen ⟨t, ht⟩ from calls_eq ⟨t, ht⟩]
      rw [exec_view m r ⟨t, ht⟩, foldl_range_succ, h1])
  rw [calls_length] at key
  unfold compress MD4.compress
  simp only []
  rw [← key]
  rfl

theorem toArray_eq (h : Vector W32 4) :
    toArray h = .ok (bytesLE [(tup4 h).1, (tup4 h).2.1, (tup4 h).2.2.1, (tup4 h).2.2.2]) := by
  unfold toArray
  rw [flatMap_storeLE (w := 32), resultArray_exact _ _ (by rw [bytesLE_length]; simp), vec4_toList]
  rfl

def refines : Refines MD4 (fun m => .ok (MD4.md4 m)) :=
  (mdRefines (by decide) (by decide) 0x80 counterLE64_ok compress iv toArray).congr fun m => by
    rw [toArray_eq, mdFold_map (f := tup4) compress_eq]
    rfl

end Verif.Proof.MD4
