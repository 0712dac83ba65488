import Verif.Core.Equality
import Verif.Proof.MD
import Verif.Proof.Block
import Verif.Proof.Regs
import Verif.Proof.Num

/-! # From refinements to C06 -/

namespace Verif.Proof.Equality
open Spec

variable {O : Type} {A : API O} {dig : List Byte → Except Fault (List Byte)}

theorem sound (r : Refines A dig) {eq : O → O → Bool} (h1 : ∀ o o' m, r.F o m → r.F o' m → eq o o' = true)
    (h2 : ∀ o o', eq o o' = true → A.toArray o = A.toArray o') : A.EqSound eq := by
  intro ops ops' hl hl'
  obtain ⟨o, e, f⟩ := r.run_finalize ops hl
  obtain ⟨o', e', f'⟩ := r.run_finalize ops' hl'
  exact ⟨o, o', e, e', fun hm => h1 o o' _ f (hm ▸ f'), h2 o o'⟩

theorem exact (r : Refines A dig) {eq : O → O → Bool}
    (h : ∀ o o', eq o o' = true ↔ A.toArray o = A.toArray o') : A.EqExact eq := by
  intro ops ops' hl hl'
  obtain ⟨o, e, f⟩ := r.run_finalize ops hl
  obtain ⟨o', e', f'⟩ := r.run_finalize ops' hl'
  exact ⟨o, o', e, e', h o o'⟩

theorem blind (r : Refines A dig) {eq : O → O → Bool} {B : Nat} (hB : B ≤ 2 ^ 64)
    (h : ∀ o o' m m', r.R o m → r.R o' m' → m.length < B → m'.length < B → eq o o' = true) :
    A.EqBlind eq B := by
  intro d d' hd hd'
  obtain ⟨o, e, f⟩ := r.add _ _ d (by omega) r.fresh
  obtain ⟨o', e', f'⟩ := r.add _ _ d' (by omega) r.fresh
  exact ⟨o, o', e, e', h o o' _ _ f f' hd hd'⟩

theorem relChain {N B : Nat} {S : Type} {den : List Byte → S} {o o' : Obj N S} {m m' : List Byte}
    (h : Rel B den o m) (h' : Rel B den o' m') (l : m.length < B) (l' : m'.length < B) :
    o.chain = o'.chain := by
  have e : ∀ m : List Byte, m.length < B → alignedPart B m = [] := by
    intro m hm
    unfold alignedPart alignedLen
    rw [Nat.mod_eq_of_lt hm, Nat.sub_self, List.take_zero]
  rw [h.1, h'.1, e m l, e m' l']

theorem flatMap_inj {α : Type} (f : α → List Byte) (k : Nat) (hk : 0 < k) (hf : ∀ x, (f x).length = k)
    (hi : ∀ x y, f x = f y → x = y) : ∀ l l' : List α, l.flatMap f = l'.flatMap f → l = l'
  | [], [], _ => rfl
  | [], y :: l', h => by
    have h1 := congrArg List.length h
    rw [List.flatMap_cons, List.length_append, hf y] at h1
    simp at h1; omega
  | x :: l, [], h => by
    have h1 := congrArg List.length h
    rw [List.flatMap_cons, List.length_append, hf x] at h1
    simp at h1; omega
  | x :: l, y :: l', h => by
    rw [List.flatMap_cons, List.flatMap_cons] at h
    obtain ⟨h1, h2⟩ := List.append_inj h (by rw [hf, hf])
    rw [hi x y h1, flatMap_inj f k hk hf hi l l' h2]

theorem flatMap_length {α : Type} (f : α → List Byte) (k : Nat) (hf : ∀ x, (f x).length = k) (l : List α) :
    (l.flatMap f).length = l.length * k := by
  induction l with
  | nil => simp
  | cons x l ih => rw [List.flatMap_cons, List.length_append, hf, ih, List.length_cons, Nat.succ_mul]; omega

theorem storeBE_inj (k : Nat) (x y : BitVec (8 * k)) (h : storeBE k x = storeBE k y) : x = y := by
  rw [storeBE_eq, storeBE_eq] at h
  have hx := x.isLt
  have hy := y.isLt
  rw [Nat.pow_mul] at hx hy
  exact BitVec.eq_of_toNat_eq (toBE_inj hx hy h)

theorem storeLE_inj (k : Nat) (x y : BitVec (8 * k)) (h : storeLE k x = storeLE k y) : x = y := by
  rw [storeLE_eq, storeLE_eq] at h
  have hx := x.isLt
  have hy := y.isLt
  rw [Nat.pow_mul] at hx hy
  exact BitVec.eq_of_toNat_eq (toBE_inj hx hy (congrArg List.reverse h))

theorem resultArray_inj (size : Nat) (l l' : List Byte) (hl : l.length = size) (hl' : l'.length = size)
    (h : resultArray size l = resultArray size l') : l = l' := by
  rw [resultArray_exact _ _ hl, resultArray_exact _ _ hl'] at h
  injection h

/-- the whole state is written out, most significant byte first -/
theorem vecBE (k n size : Nat) (hk : 0 < k) (hs : n * k = size) (h h' : Vector (BitVec (8 * k)) n) :
    (h == h') = true ↔ resultArray size (h.toList.flatMap (storeBE k)) = resultArray size (h'.toList.flatMap (storeBE k)) := by
  rw [beq_iff_eq]
  constructor
  · rintro rfl; rfl
  · intro e
    have hlen : ∀ h : Vector (BitVec (8 * k)) n, (h.toList.flatMap (storeBE k)).length = size := fun h => by
      rw [flatMap_length _ k (fun x => by simp [storeBE]), Vector.length_toList, hs]
    exact Vector.toList_inj.1 (flatMap_inj _ k hk (fun x => by simp [storeBE]) (storeBE_inj k) _ _
      (resultArray_inj _ _ _ (hlen h) (hlen h') e))

/-- the whole state is written out, least significant byte first -/
theorem vecLE (k n size : Nat) (hk : 0 < k) (hs : n * k = size) (h h' : Vector (BitVec (8 * k)) n) :
    (h == h') = true ↔ resultArray size (h.toList.flatMap (storeLE k)) = resultArray size (h'.toList.flatMap (storeLE k)) := by
  rw [beq_iff_eq]
  constructor
  · rintro rfl; rfl
  · intro e
    have hlen : ∀ h : Vector (BitVec (8 * k)) n, (h.toList.flatMap (storeLE k)).length = size := fun h => by
      rw [flatMap_length _ k (fun x => by simp [storeLE]), Vector.length_toList, hs]
    exact Vector.toList_inj.1 (flatMap_inj _ k hk (fun x => by simp [storeLE]) (storeLE_inj k) _ _
      (resultArray_inj _ _ _ (hlen h) (hlen h') e))

theorem wordBE (k : Nat) (x y : BitVec (8 * k)) :
    (x == y) = true ↔ resultArray k (storeBE k x) = resultArray k (storeBE k y) := by
  rw [beq_iff_eq]
  constructor
  · rintro rfl; rfl
  · intro e
    exact storeBE_inj k x y (resultArray_inj _ _ _ (by simp [storeBE]) (by simp [storeBE]) e)

end Verif.Proof.Equality
