import Verif.Core.Extension
import Verif.Core.Equality
import Verif.Proof.Padding

/-! # Continuing a hash from its final state -/

namespace Verif.Proof.Extension
open Spec

theorem padded_public (B L : Nat) (pb : Byte) (field : Nat → List Byte) : PublicPadding (padded B L pb field) := by
  intro m m' h
  refine ⟨[pb] ++ List.replicate ((B - (m.length + 1 + L) % B) % B) 0 ++ field m.length, ?_, ?_⟩
  · simp [padded]
  · simp [padded, h]

/-- Two strings of one length, whole numbers of blocks long, with the same chaining value have the same chaining
value when the same thing is appended. -/
theorem fold_extend {H : Type} {B : Nat} {comp : H → Block B → H} {iv : H} (hB : 0 < B) (a a' t : List Byte)
    (h : a.length % B = 0) (h' : a'.length % B = 0) (e : mdFold B comp iv a = mdFold B comp iv a') :
    mdFold B comp iv (a ++ t) = mdFold B comp iv (a' ++ t) := by
  rw [mdFold_append B comp iv hB a t h, mdFold_append B comp iv hB a' t h', e]

theorem mdExtends {O H : Type} {A : API O} {dig : List Byte → Except Fault (List Byte)} (r : Refines A dig)
    {eq : O → O → Bool} {B T : Nat} {comp : H → Block B → H} {iv : H} {pad : List Byte → List Byte}
    {S : List Byte → Prop} (hS : ∀ m t, S (m ++ t) → S m) (view : O → H) (heq : ∀ o o', eq o o' = true ↔ view o = view o')
    (hF : ∀ o m, r.F o m → S m → view o = mdFold B comp iv (pad m)) (hB : 0 < B) (good : GoodPadding B T pad)
    (pub : PublicPadding pad) : A.Extends (fun o o' => eq o o' = true) pad S := by
  intro ops ops' ext ext' x hl hl' he he' hlen hx hx' hs hs'
  obtain ⟨o, ro, fo⟩ := r.run_finalize ops hl
  obtain ⟨o', ro', fo'⟩ := r.run_finalize ops' hl'
  obtain ⟨e, re, fe⟩ := r.run_finalize ext he
  obtain ⟨e', re', fe'⟩ := r.run_finalize ext' he'
  refine ⟨o, o', e, e', ro, ro', re, re', fun h => ?_⟩
  have sm : ∀ m, S (pad m ++ x) → S m := fun m h => by
    obtain ⟨p, hp⟩ := good.keeps m
    rw [← hp, List.append_assoc] at h
    exact hS _ _ h
  refine (heq e e').2 ?_
  have h := (heq o o').1 h
  rw [hF o _ fo (sm _ (hx ▸ hs)), hF o' _ fo' (sm _ (hx' ▸ hs'))] at h
  rw [hF e _ fe hs, hF e' _ fe' hs', hx, hx']
  obtain ⟨p, hp, hp'⟩ := pub _ _ hlen
  obtain ⟨q, hq, hq'⟩ := pub (pad (message ops) ++ x) (pad (message ops') ++ x) (by
    rw [hp, hp']; simp [hlen])
  rw [hq, hq', List.append_assoc, List.append_assoc]
  exact fold_extend hB _ _ _ (good.whole _) (good.whole _) h

/-- From `==` to digests. -/
theorem toDigest {O : Type} {A : API O} {eq : O → O → Bool} {pad : List Byte → List Byte} {S : List Byte → Prop}
    (h : A.Extends (fun o o' => eq o o' = true) pad S) (hx : A.EqExact eq) :
    A.Extends (fun o o' => A.toArray o = A.toArray o') pad S := by
  intro ops ops' ext ext' x hl hl' he he' hlen hx1 hx2 hs hs'
  obtain ⟨o, o', e, e', ro, ro', re, re', hh⟩ := h ops ops' ext ext' x hl hl' he he' hlen hx1 hx2 hs hs'
  obtain ⟨y, y', ry, ry', hy⟩ := hx ops ops' hl hl'
  obtain ⟨z, z', rz, rz', hz⟩ := hx ext ext' he he'
  rw [ro] at ry; rw [ro'] at ry'; rw [re] at rz; rw [re'] at rz'
  injection ry with ry; injection ry' with ry'; injection rz with rz; injection rz' with rz'
  subst ry ry' rz rz'
  exact ⟨_, _, _, _, ro, ro', re, re', fun h => hz.1 (hh (hy.2 h))⟩

/-- `mdFold` over `n` blocks by recursion on `n`, for the kernel to compute. -/
def chain {H : Type} (B : Nat) (comp : H → Block B → H) : Nat → H → List Byte → H
  | 0, h, _ => h
  | n + 1, h, a => chain B comp n (comp h (toBlock B (a.take B))) (a.drop B)

theorem chain_eq {H : Type} {B : Nat} (comp : H → Block B → H) (hB : 0 < B) (n : Nat) (h : H) (a : List Byte)
    (hl : a.length = B * n) : mdFold B comp h a = chain B comp n h a := by
  induction n generalizing h a with
  | zero =>
    obtain rfl : a = [] := List.eq_nil_of_length_eq_zero (by simpa using hl)
    unfold mdFold
    rw [blocks_nil]
    rfl
  | succ n ih =>
    have hle : B ≤ a.length := by rw [hl]; exact Nat.le_mul_of_pos_right B (by omega)
    unfold mdFold
    rw [blocks_cons B a hB hle, List.foldl_cons]
    exact ih _ _ (by rw [List.length_drop, hl, Nat.mul_succ, Nat.add_sub_cancel])

/-- Two different strings of one length, a whole number of blocks, that lead to the same chaining value: whatever is
appended to them, the objects are the same. -/
theorem family {O H : Type} {A : API O} {dig : List Byte → Except Fault (List Byte)} (r : Refines A dig)
    {B : Nat} {comp : H → Block B → H} {iv : H} {pad : List Byte → List Byte} (view : O → H)
    (hout : ∀ o o', view o = view o' → A.toArray o = A.toArray o')
    (hF : ∀ o m, r.F o m → view o = mdFold B comp iv (pad m)) (hB : 0 < B) (pub : PublicPadding pad)
    (a a' : List Byte) (hl : a.length = a'.length) (h : a.length % B = 0)
    (e : mdFold B comp iv a = mdFold B comp iv a') (x : List Byte) (ops ops' : List Op)
    (l : Legal (ops ++ [.finalize])) (l' : Legal (ops' ++ [.finalize])) (m : message ops = a ++ x)
    (m' : message ops' = a' ++ x) :
    ∃ o o', A.run A.fresh (ops ++ [.finalize]) = .ok o ∧ A.run A.fresh (ops' ++ [.finalize]) = .ok o' ∧
      A.toArray o = A.toArray o' := by
  obtain ⟨o, ro, fo⟩ := r.run_finalize ops l
  obtain ⟨o', ro', fo'⟩ := r.run_finalize ops' l'
  refine ⟨o, o', ro, ro', hout _ _ ?_⟩
  obtain ⟨p, hp, hp'⟩ := pub (a ++ x) (a' ++ x) (by simp [hl])
  rw [hF _ _ fo, hF _ _ fo', m, m', hp, hp', List.append_assoc, List.append_assoc, fold_extend hB _ _ _ h (hl ▸ h) e]

end Verif.Proof.Extension
