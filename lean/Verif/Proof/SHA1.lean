import Verif.Model.SHA1
import Verif.Spec.SHA1
import Verif.Proof.Regs

/-! The SHA-1 model computes FIPS 180-4 SHA-1. -/

namespace Verif.Proof.SHA1
open Model.SHA1 Spec

/-- The macro used for step `t`. -/
def rndOf (t : Nat) : Round :=
  if t < 16 then .r1 else if t < 20 then .r1a else if t < 32 then .r2 else if t < 40 then .r2a
  else if t < 60 then .r3 else .r4

/-- The call for step `t`: parameters rotated `t` times. -/
def gen (t : Fin 80) : Call :=
  ⟨rndOf t, ⟨(4 * t.val) % 5, by omega⟩, ⟨(1 + 4 * t.val) % 5, by omega⟩,
    ⟨(2 + 4 * t.val) % 5, by omega⟩, ⟨(3 + 4 * t.val) % 5, by omega⟩,
    ⟨(4 + 4 * t.val) % 5, by omega⟩, t⟩

theorem calls_length : calls.length = 80 := by decide +kernel

theorem calls_eq : ∀ t : Fin 80, calls[t] = gen t := by decide +kernel

theorem fn_eq (t : Nat) (b c d : W32) : fn (rndOf t) b c d = SHA1.f t b c d := by
  have h1 : (b &&& (c ^^^ d)) ^^^ d = (b &&& c) ^^^ (~~~b &&& d) := by
    ext i hi; simp
    cases b[i] <;> cases c[i] <;> cases d[i] <;> rfl
  have h2 : (b &&& c) ||| (d &&& (b ||| c)) = (b &&& c) ^^^ (b &&& d) ^^^ (c &&& d) := by
    ext i hi; simp
    cases b[i] <;> cases c[i] <;> cases d[i] <;> rfl
  unfold rndOf SHA1.f
  by_cases h16 : t < 16
  · simp [h16, show t < 20 by omega, fn, h1]
  by_cases h20 : t < 20
  · simp [h16, h20, fn, h1]
  by_cases h32 : t < 32
  · simp [h16, h20, h32, show t < 40 by omega, fn]
  by_cases h40 : t < 40
  · simp [h16, h20, h32, h40, fn]
  by_cases h60 : t < 60
  · simp [h16, h20, h32, h40, h60, fn, h2]
  · simp [h16, h20, h32, h40, h60, fn]

theorem konst_eq (t : Nat) : konst (rndOf t) = SHA1.K t := by
  unfold rndOf SHA1.K
  by_cases h16 : t < 16
  · simp [h16, show t < 20 by omega, konst]
  by_cases h20 : t < 20
  · simp [h16, h20, konst]
  by_cases h32 : t < 32
  · simp [h16, h20, h32, show t < 40 by omega, konst]
  by_cases h40 : t < 40
  · simp [h16, h20, h32, h40, konst]
  by_cases h60 : t < 60
  · simp [h16, h20, h32, h40, h60, konst]
  · simp [h16, h20, h32, h40, h60, konst]

theorem W_alt (M : Nat → W32) (t : Nat) (h : 32 ≤ t) :
    SHA1.W M t = (SHA1.W M (t - 6) ^^^ SHA1.W M (t - 16) ^^^ SHA1.W M (t - 28) ^^^
      SHA1.W M (t - 32)).rotateLeft 2 := by
  have e (k : Nat) (hk : 16 ≤ k) : SHA1.W M k = (SHA1.W M (k - 3) ^^^ SHA1.W M (k - 8) ^^^
      SHA1.W M (k - 14) ^^^ SHA1.W M (k - 16)).rotateLeft 1 := by
    rw [SHA1.W, if_neg (by omega)]
  have e16 := e (t - 16) (by omega)
  rw [e t (by omega), e (t - 3) (by omega), e (t - 8) (by omega), e (t - 14) (by omega), e16,
    ← rotateLeft_xor, ← rotateLeft_xor, ← rotateLeft_xor, rotateLeft_rotateLeft32, ← e16]
  rw [show t - 3 - 3 = t - 6 by omega, show t - 3 - 8 = t - 11 by omega,
    show t - 3 - 14 = t - 17 by omega, show t - 3 - 16 = t - 19 by omega,
    show t - 8 - 3 = t - 11 by omega, show t - 8 - 8 = t - 16 by omega,
    show t - 8 - 14 = t - 22 by omega, show t - 8 - 16 = t - 24 by omega,
    show t - 14 - 3 = t - 17 by omega, show t - 14 - 8 = t - 22 by omega,
    show t - 14 - 14 = t - 28 by omega, show t - 14 - 16 = t - 30 by omega,
    show t - 16 - 3 = t - 19 by omega, show t - 16 - 8 = t - 24 by omega,
    show t - 16 - 14 = t - 30 by omega, show t - 16 - 16 = t - 32 by omega]
  congr 1
  ext i hi
  simp
  generalize (SHA1.W M (t - 6))[i] = x6
  generalize (SHA1.W M (t - 11))[i] = x11
  generalize (SHA1.W M (t - 17))[i] = x17
  generalize (SHA1.W M (t - 19))[i] = x19
  generalize (SHA1.W M (t - 16))[i] = x16
  generalize (SHA1.W M (t - 22))[i] = x22
  generalize (SHA1.W M (t - 24))[i] = x24
  generalize (SHA1.W M (t - 28))[i] = x28
  generalize (SHA1.W M (t - 30))[i] = x30
  generalize (SHA1.W M (t - 32))[i] = x32
  revert x6 x11 x17 x19 x16 x22 x24 x28 x30 x32
  decide

theorem sched_eq (m : Block 64) (t : Fin 80) (w : Vector W32 80)
    (hw : ∀ j (h : j < 80), j < t.val → w[j] = SHA1.W (wordBE 32 m.toList) j) :
    sched m (rndOf t) t w = SHA1.W (wordBE 32 m.toList) t := by
  unfold rndOf
  by_cases h16 : t.val < 16
  · simp only [h16, if_true, sched, dif_pos]
    rw [SHA1.W, if_pos h16, loadBE32_eq]
  have e1 : 16 ≤ t.val → rotl (w[t.val - 3] ^^^ w[t.val - 8] ^^^ w[t.val - 14] ^^^ w[t.val - 16]) 1
      = SHA1.W (wordBE 32 m.toList) t := by
    intro h
    rw [hw _ _ (by omega), hw _ _ (by omega), hw _ _ (by omega), hw _ _ (by omega),
      rotl_eq _ _ (by decide)]
    conv => rhs; rw [SHA1.W, if_neg (by omega)]
  have e2 : 32 ≤ t.val → rotl (w[t.val - 6] ^^^ w[t.val - 16] ^^^ w[t.val - 28] ^^^ w[t.val - 32]) 2
      = SHA1.W (wordBE 32 m.toList) t := by
    intro h
    rw [hw _ _ (by omega), hw _ _ (by omega), hw _ _ (by omega), hw _ _ (by omega),
      rotl_eq _ _ (by decide), ← W_alt _ _ h]
  by_cases h20 : t.val < 20
  · simp only [h16, h20, if_true, if_false, sched]; exact e1 (by omega)
  by_cases h32 : t.val < 32
  · simp only [h16, h20, h32, if_true, if_false, sched]; exact e1 (by omega)
  by_cases h40 : t.val < 40
  · simp only [h16, h20, h32, h40, if_true, if_false, sched]; exact e2 (by omega)
  by_cases h60 : t.val < 60
  · simp only [h16, h20, h32, h40, h60, if_true, if_false, sched]; exact e2 (by omega)
  · simp only [h16, h20, h32, h40, h60, if_false, sched]; exact e2 (by omega)

/-- The registers seen after `t` steps. -/
def view (t : Nat) (r : Vector W32 5) : SHA1.State :=
  ⟨r[(4 * t) % 5]'(by omega), r[(1 + 4 * t) % 5]'(by omega), r[(2 + 4 * t) % 5]'(by omega),
    r[(3 + 4 * t) % 5]'(by omega), r[(4 + 4 * t) % 5]'(by omega)⟩

/-- Storing the new `e` and `b` and rotating the names is one step of the standard's state. -/
theorem view_set (t : Nat) (r : Vector W32 5) (e b : W32) :
    view (t + 1) ((r.set ((4 + 4 * t) % 5) e (by omega)).set ((1 + 4 * t) % 5) b (by omega))
      = ⟨e, (view t r).a, b, (view t r).c, (view t r).d⟩ := by
  have h5 : t % 5 = 0 ∨ t % 5 = 1 ∨ t % 5 = 2 ∨ t % 5 = 3 ∨ t % 5 = 4 := by omega
  simp only [view, Vector.getElem_set, SHA1.State.mk.injEq]
  refine ⟨?_, ?_, ?_, ?_, ?_⟩
  · rw [if_neg (by omega), if_pos (by omega)]
  · rw [if_neg (by omega), if_neg (by omega)]; congr 1; omega
  · rw [if_pos (by omega)]
  · rw [if_neg (by omega), if_neg (by omega)]; congr 1; omega
  · rw [if_neg (by omega), if_neg (by omega)]; congr 1; omega

theorem exec_view (m : Block 64) (s : Locals) (t : Fin 80)
    (hw : ∀ j (h : j < 80), j < t.val → s.w[j] = SHA1.W (wordBE 32 m.toList) j) :
    view (t.val + 1) (exec m s (gen t)).r
      = SHA1.step (wordBE 32 m.toList) (view t.val s.r) t.val := by
  have hs := sched_eq m t s.w hw
  have hb (e : W32) : (s.r.set ((4 + 4 * t.val) % 5) e (by omega))[(1 + 4 * t.val) % 5]'(by omega)
      = s.r[(1 + 4 * t.val) % 5]'(by omega) := by
    rw [Vector.getElem_set, if_neg (by omega)]
  have hv := view_set t.val s.r
  simp only [exec, gen, hs, fn_eq, konst_eq, SHA1.step]
  simp only [Fin.getElem_fin, hb, Vector.getElem_set_self, hv]
  simp only [view, rotl_eq _ 5 (show 5 < 32 by decide), rotl_eq _ 30 (show 30 < 32 by decide),
    SHA1.State.mk.injEq, and_self, and_true]
  rw [BitVec.add_assoc _ (SHA1.W _ _), BitVec.add_comm (SHA1.W _ _), ← BitVec.add_assoc]

theorem exec_w (m : Block 64) (s : Locals) (t : Fin 80)
    (hw : ∀ j (h : j < 80), j < t.val → s.w[j] = SHA1.W (wordBE 32 m.toList) j) :
    ∀ j (h : j < 80), j < t.val + 1 → (exec m s (gen t)).w[j] = SHA1.W (wordBE 32 m.toList) j := by
  intro j hj hlt
  have hs := sched_eq m t s.w hw
  simp only [exec, gen, hs]
  rw [Vector.getElem_set]
  split
  · subst_vars; rfl
  · exact hw j hj (by omega)

/-- The chaining value as the standard's state. -/
def ofVec (v : Vector W32 5) : SHA1.State := ⟨v[0], v[1], v[2], v[3], v[4]⟩

theorem compress_eq (h : Vector W32 5) (m : Block 64) :
    ofVec (compress h m) = SHA1.compress (ofVec h) m.toList := by
  have key := foldl_inv calls (exec m)
    ⟨#v[h[0], h[1], h[2], h[3], h[4]], Vector.replicate 80 0⟩
    (fun t s => view t s.r = (List.range t).foldl (SHA1.step (wordBE 32 m.toList)) (ofVec h) ∧
      ∀ j (h : j < 80), j < t → s.w[j] = SHA1.W (wordBE 32 m.toList) j)
    ⟨rfl, fun j _ h => by omega⟩
    (by
      intro t ht s ⟨h1, h2⟩
      rw [calls_length] at ht
      have e := calls_eq ⟨t, ht⟩
      rw [show calls[t] = gen ⟨t, ht⟩ from e]
      exact ⟨by rw [exec_view m s ⟨t, ht⟩ h2, foldl_range_succ, h1], exec_w m s ⟨t, ht⟩ h2⟩)
  obtain ⟨h1, _⟩ := key
  rw [calls_length] at h1
  unfold compress SHA1.compress
  simp only []
  rw [← h1]
  rfl

theorem toArray_eq (h : Vector W32 5) :
    toArray h = .ok (bytesBE [(ofVec h).a, (ofVec h).b, (ofVec h).c, (ofVec h).d, (ofVec h).e]) := by
  unfold toArray
  rw [flatMap_storeBE (w := 32), resultArray_exact _ _ (by rw [bytesBE_length]; simp), vec5_toList]
  rfl

def refines : Refines SHA1 (fun m => .ok (SHA1.sha1 m)) :=
  (mdRefines (by decide) (by decide) 0x80 counterBE64_ok compress iv toArray).congr fun m => by
    rw [toArray_eq, mdFold_map (f := ofVec) compress_eq]
    rfl

end Verif.Proof.SHA1
