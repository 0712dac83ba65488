import Verif.Proof.MD

/-! Helper lemmas for straight-line round code: folds over call lists, rotations, result arrays. -/

namespace Verif
open Spec

/-- Invariant rule for a fold over a list, by index. -/
theorem foldl_inv {α σ : Type} (l : List α) (f : σ → α → σ) (s : σ) (P : Nat → σ → Prop)
    (h0 : P 0 s) (hs : ∀ t (h : t < l.length) s, P t s → P (t + 1) (f s l[t])) :
    P l.length (l.foldl f s) := by
  have : ∀ (l1 l2 : List α) (s : σ), l = l1 ++ l2 → P l1.length s → P l.length (l2.foldl f s) := by
    intro l1 l2
    induction l2 generalizing l1 with
    | nil => intro s e h; simp at e; subst e; exact h
    | cons x l2 ih =>
      intro s e h
      rw [List.foldl_cons]
      apply ih (l1 ++ [x]) (f s x) (by rw [e]; simp)
      have hlt : l1.length < l.length := by rw [e]; simp
      have := hs l1.length hlt s h
      have hx : l[l1.length] = x := by simp [e]
      rw [hx] at this
      simpa using this
  exact this [] l s rfl h0

theorem foldl_range_succ {σ : Type} (f : σ → Nat → σ) (s : σ) (n : Nat) :
    (List.range (n + 1)).foldl f s = f ((List.range n).foldl f s) n := by
  rw [List.range_succ, List.foldl_append]; rfl

theorem foldl_range_add {σ : Type} (f : σ → Nat → σ) (s : σ) (n k : Nat) :
    (List.range (n + k)).foldl f s
      = (List.range k).foldl (fun s i => f s (n + i)) ((List.range n).foldl f s) := by
  rw [List.range_add, List.foldl_append, List.foldl_map]

theorem rotateLeft_xor {w : Nat} (x y : BitVec w) (r : Nat) :
    (x ^^^ y).rotateLeft r = x.rotateLeft r ^^^ y.rotateLeft r := by
  ext i hi
  simp [BitVec.getElem_rotateLeft]
  split <;> rfl

theorem rotateLeft_rotateLeft32 (x : BitVec 32) : (x.rotateLeft 1).rotateLeft 1 = x.rotateLeft 2 := by
  ext i hi
  simp [BitVec.getElem_rotateLeft]
  by_cases h0 : i = 0
  · subst h0; simp
  · by_cases h1 : i = 1
    · subst h1; simp
    · have : ¬ i < 1 := by omega
      have : ¬ i < 2 := by omega
      have : ¬ i - 1 = 0 := by omega
      simp [*]
      congr 1

theorem flatMap_storeBE {w : Nat} (ws : List (BitVec w)) :
    ws.flatMap (storeBE (w / 8)) = bytesBE ws := by
  unfold bytesBE
  congr 1
  funext x
  exact storeBE_eq _ x

theorem flatMap_storeLE {w : Nat} (ws : List (BitVec w)) :
    ws.flatMap (storeLE (w / 8)) = bytesLE ws := by
  unfold bytesLE
  congr 1
  funext x
  exact storeLE_eq _ x

theorem bytesBE_length {w : Nat} (ws : List (BitVec w)) :
    (bytesBE ws).length = (w / 8) * ws.length := by
  unfold bytesBE
  induction ws with
  | nil => rfl
  | cons x ws ih => rw [List.flatMap_cons, List.length_append, ih, toBE_length, List.length_cons,
      Nat.mul_succ, Nat.add_comm]

theorem bytesLE_length {w : Nat} (ws : List (BitVec w)) :
    (bytesLE ws).length = (w / 8) * ws.length := by
  unfold bytesLE
  induction ws with
  | nil => rfl
  | cons x ws ih => rw [List.flatMap_cons, List.length_append, ih, toLE_length, List.length_cons,
      Nat.mul_succ, Nat.add_comm]

theorem bytesBE_append {w : Nat} (a b : List (BitVec w)) :
    bytesBE (a ++ b) = bytesBE a ++ bytesBE b := by
  unfold bytesBE; rw [List.flatMap_append]

theorem bytesBE_take {w : Nat} (n : Nat) (ws : List (BitVec w)) (hn : n ≤ ws.length) :
    bytesBE (ws.take n) = (bytesBE ws).take ((w / 8) * n) := by
  conv => rhs; rw [← List.take_append_drop n ws]
  have := bytesBE_length (ws.take n)
  rw [List.length_take, Nat.min_eq_left hn] at this
  rw [bytesBE_append, ← this, List.take_left]

theorem resultArray_exact (n : Nat) (l : List Byte) (h : l.length = n) :
    resultArray n l = .ok l := by
  unfold resultArray
  rw [if_pos (by omega), h, Nat.sub_self, List.replicate_zero, List.append_nil]

theorem vec4_toList {α : Type} (v : Vector α 4) : v.toList = [v[0], v[1], v[2], v[3]] := by
  apply List.ext_getElem
  · simp
  · intro i h1 h2
    simp at h1
    have : i = 0 ∨ i = 1 ∨ i = 2 ∨ i = 3 := by omega
    rcases this with h | h | h | h <;> subst h <;> simp

theorem vec5_toList {α : Type} (v : Vector α 5) : v.toList = [v[0], v[1], v[2], v[3], v[4]] := by
  apply List.ext_getElem
  · simp
  · intro i h1 h2
    simp at h1
    have : i = 0 ∨ i = 1 ∨ i = 2 ∨ i = 3 ∨ i = 4 := by omega
    rcases this with h | h | h | h | h <;> subst h <;> simp

theorem vec8_toList {α : Type} (v : Vector α 8) :
    v.toList = [v[0], v[1], v[2], v[3], v[4], v[5], v[6], v[7]] := by
  apply List.ext_getElem
  · simp
  · intro i h1 h2
    simp at h1
    have : i = 0 ∨ i = 1 ∨ i = 2 ∨ i = 3 ∨ i = 4 ∨ i = 5 ∨ i = 6 ∨ i = 7 := by omega
    rcases this with h | h | h | h | h | h | h | h <;> subst h <;> simp

/-! ### Rotating register names -/

/-- Four registers seen after `t` steps that each rotate the names by one. -/
def view4 {α : Type} (t : Nat) (r : Vector α 4) : α × α × α × α :=
  (r[(3 * t) % 4]'(by omega), r[(1 + 3 * t) % 4]'(by omega), r[(2 + 3 * t) % 4]'(by omega),
    r[(3 + 3 * t) % 4]'(by omega))

theorem view4_set {α : Type} (t : Nat) (r : Vector α 4) (x : α) :
    view4 (t + 1) (r.set ((3 * t) % 4) x (by omega))
      = ((view4 t r).2.2.2, x, (view4 t r).2.1, (view4 t r).2.2.1) := by
  simp only [view4, Vector.getElem_set, Prod.mk.injEq]
  refine ⟨?_, ?_, ?_, ?_⟩
  · rw [if_neg (by omega)]; congr 1; omega
  · rw [if_pos (by omega)]
  · rw [if_neg (by omega)]; congr 1; omega
  · rw [if_neg (by omega)]; congr 1; omega

/-- the four registers as a tuple -/
def tup4 {α : Type} (v : Vector α 4) : α × α × α × α := (v[0], v[1], v[2], v[3])

end Verif
