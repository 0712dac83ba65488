import Verif.Core.Padding
import Verif.Proof.MD
import Verif.Proof.Num

/-! # Padding and collisions -/

namespace Verif.Proof.Padding
open Spec

/-! ### Blocks -/

theorem blocks_flatten (B : Nat) (hB : 0 < B) (l : List Byte) (h : l.length % B = 0) :
    (blocks B l).flatten = l := by
  induction hk : l.length / B generalizing l with
  | zero =>
    have : l.length = 0 := by
      have := Nat.div_add_mod l.length B; rw [hk, h] at this; simpa using this.symm
    rw [List.eq_nil_of_length_eq_zero this, blocks_nil]; rfl
  | succ k ih =>
    have hlen : l.length = B * (k + 1) := by
      have := Nat.div_add_mod l.length B; rw [hk, h] at this; omega
    have hle : B ≤ l.length := by rw [hlen]; exact Nat.le_mul_of_pos_right B (by omega)
    rw [blocks_cons B l hB hle, List.flatten_cons, ih, List.take_append_drop]
    · rw [List.length_drop, hlen, Nat.mul_succ, Nat.add_sub_cancel]; simp
    · rw [List.length_drop, hlen, Nat.mul_succ, Nat.add_sub_cancel]; exact Nat.mul_div_cancel_left k hB

theorem blocks_inj (B : Nat) (hB : 0 < B) (l l' : List Byte) (h : l.length % B = 0) (h' : l'.length % B = 0)
    (e : blocks B l = blocks B l') : l = l' := by
  rw [← blocks_flatten B hB l h, ← blocks_flatten B hB l' h', e]

theorem blocks_self (B : Nat) (hB : 0 < B) (l : List Byte) (h : l.length = B) : blocks B l = [l] := by
  rw [blocks_cons B l hB (by omega), List.take_of_length_le (by omega), List.drop_of_length_le (by omega), blocks_nil]

theorem blocks_last (B : Nat) (hB : 0 < B) (l : List Byte) (h : l.length % B = 0) (hl : B ≤ l.length) :
    (blocks B l).getLast? = some (l.drop (l.length - B)) := by
  have e := List.take_append_drop (l.length - B) l
  have h1 : (l.take (l.length - B)).length % B = 0 := by
    rw [List.length_take, Nat.min_eq_left (by omega)]
    have h2 : l.length = (l.length - B) + B := by omega
    rw [h2, Nat.add_mod_right] at h
    exact h
  have h2 : (l.drop (l.length - B)).length = B := by rw [List.length_drop]; omega
  have h3 : blocks B l = blocks B (l.take (l.length - B)) ++ [l.drop (l.length - B)] := by
    rw [← blocks_self B hB _ h2, ← blocks_append B _ _ hB h1, e]
  rw [h3, List.getLast?_concat]

/-! ### Folding -/

theorem CollisionIn.grow {H X : Type} {f : H → X → H} {iv : H} {A A' : List X} (h : CollisionIn f iv A A')
    (c c' : List X) : CollisionIn f iv (A ++ c) (A' ++ c') := by
  obtain ⟨p, b, q, p', b', q', e, e', hn, he⟩ := h
  exact ⟨p, b, q ++ c, p', b', q' ++ c', by rw [e]; simp, by rw [e']; simp, hn, he⟩

/-- Equal results of different sequences of inputs: a collision, or one sequence is a proper end of the other and
the rest leads back to the initial value. -/
theorem fold_collision {H X : Type} (f : H → X → H) (iv : H) (A A' : List X) (hne : A ≠ A')
    (e : A.foldl f iv = A'.foldl f iv) :
    CollisionIn f iv A A' ∨ (∃ p, p ≠ [] ∧ A = p ++ A' ∧ p.foldl f iv = iv) ∨
      ∃ p, p ≠ [] ∧ A' = p ++ A ∧ p.foldl f iv = iv := by
  obtain ⟨A, rfl⟩ : ∃ r : List X, A = r.reverse := ⟨A.reverse, by simp⟩
  obtain ⟨A', rfl⟩ : ∃ r : List X, A' = r.reverse := ⟨A'.reverse, by simp⟩
  induction A generalizing A' with
  | nil =>
    refine .inr (.inr ⟨A'.reverse, fun h => hne (by rw [h]; rfl), by simp, ?_⟩)
    rw [← e]; rfl
  | cons b A ih =>
    cases A' with
    | nil =>
      exact .inr (.inl ⟨(b :: A).reverse, by simp, by simp, by rw [e]; rfl⟩)
    | cons b' A' =>
      simp only [List.reverse_cons] at hne e ⊢
      rw [List.foldl_append, List.foldl_append] at e
      simp only [List.foldl_cons, List.foldl_nil] at e
      by_cases hp : (A.reverse.foldl f iv, b) = (A'.reverse.foldl f iv, b')
      · obtain ⟨h1, rfl⟩ := Prod.mk.inj hp
        rcases ih A' (fun h => hne (by rw [h])) h1 with h | ⟨p, h2, h3, h4⟩ | ⟨p, h2, h3, h4⟩
        · exact .inl (CollisionIn.grow h _ _)
        · exact .inr (.inl ⟨p, h2, by rw [h3, List.append_assoc], h4⟩)
        · exact .inr (.inr ⟨p, h2, by rw [h3, List.append_assoc], h4⟩)
      · exact .inl ⟨A.reverse, b, [], A'.reverse, b', [], rfl, rfl, hp, e⟩

theorem fold_collision' {H X : Type} (f : H → X → H) (iv : H) (A A' : List X) (hne : A ≠ A')
    (e : A.foldl f iv = A'.foldl f iv)
    (hl : A.length = A'.length ∨ A.getLast? ≠ A'.getLast? ∧ A ≠ [] ∧ A' ≠ []) : CollisionIn f iv A A' := by
  rcases fold_collision f iv A A' hne e with h | ⟨p, h2, h3, h4⟩ | ⟨p, h2, h3, h4⟩
  · exact h
  · exfalso
    rcases hl with h | ⟨h, _, h'⟩
    · rw [h3, List.length_append] at h
      exact h2 (List.eq_nil_of_length_eq_zero (by omega))
    · rw [h3, List.getLast?_append] at h
      cases hA : A'.getLast? with
      | none => exact h' (List.getLast?_eq_none_iff.1 hA)
      | some x => rw [hA] at h; exact h rfl
  · exfalso
    rcases hl with h | ⟨h, h', _⟩
    · rw [h3, List.length_append] at h
      exact h2 (List.eq_nil_of_length_eq_zero (by omega))
    · rw [h3, List.getLast?_append] at h
      cases hA : A.getLast? with
      | none => exact h' (List.getLast?_eq_none_iff.1 hA)
      | some x => rw [hA] at h; exact h rfl

/-! ### Length fields -/

theorem toBE_inj_mod (k n n' : Nat) (h : toBE k n = toBE k n') : n % 256 ^ k = n' % 256 ^ k := by
  rw [← toBE_mod k n, ← toBE_mod k n'] at h
  exact toBE_inj (Nat.mod_lt _ (Nat.pow_pos (by decide))) (Nat.mod_lt _ (Nat.pow_pos (by decide))) h

theorem toLE_inj_mod (k n n' : Nat) (h : toLE k n = toLE k n') : n % 256 ^ k = n' % 256 ^ k :=
  toBE_inj_mod k n n' (congrArg List.reverse h)

/-! ### Marker, zeros, length -/

variable {B L : Nat} {pb : Byte} {field : Nat → List Byte}

theorem round_up (B n : Nat) (hB : 0 < B) : (n + (B - n % B) % B) % B = 0 ∧ (B - n % B) % B < B := by
  refine ⟨?_, Nat.mod_lt _ hB⟩
  have h := Nat.mod_lt n hB
  by_cases h0 : n % B = 0
  · rw [Nat.add_mod, h0, Nat.sub_zero, Nat.mod_self]
    simp
  · rw [Nat.add_mod, Nat.mod_mod, Nat.mod_eq_of_lt (show B - n % B < B by omega),
      show n % B + (B - n % B) = B by omega, Nat.mod_self]

/-- Message, something that depends on the length only, length field. -/
structure Shape (B L : Nat) (mid field : Nat → List Byte) (pad : List Byte → List Byte) : Prop where
  pos : 0 < B
  fit : L ≤ B
  eq : ∀ m, pad m = m ++ mid m.length ++ field m.length
  flen : ∀ n, (field n).length = L
  lo : ∀ n, 1 ≤ (mid n).length
  hi : ∀ n, (mid n).length ≤ B
  whole : ∀ n, (n + (mid n).length + L) % B = 0

namespace Shape
variable {mid : Nat → List Byte} {pad : List Byte → List Byte}

theorem len (s : Shape B L mid field pad) (m : List Byte) :
    (pad m).length = m.length + (mid m.length).length + L := by
  rw [s.eq, List.length_append, List.length_append, s.flen]

theorem mod (s : Shape B L mid field pad) (m : List Byte) : (pad m).length % B = 0 := by
  rw [s.len]; exact s.whole _

theorem inj (s : Shape B L mid field pad) (m m' : List Byte) (h : blocks B (pad m) = blocks B (pad m'))
    (hf : field m.length = field m'.length → m.length = m'.length) : m = m' := by
  have h := blocks_inj B s.pos _ _ (s.mod m) (s.mod m') h
  rw [s.eq, s.eq] at h
  obtain ⟨h1, h2⟩ := List.append_inj' h (by rw [s.flen, s.flen])
  exact (List.append_inj h1 (hf h2)).1

theorem good (s : Shape B L mid field pad)
    (hi : ∀ n n', n ≤ n' → n' < n + B → field n = field n' → n = n') : GoodPadding B (1 + L) pad where
  whole := s.mod
  keeps m := by rw [s.eq, List.append_assoc]; exact List.prefix_append _ _
  room m := by rw [s.len]; have := s.lo m.length; omega
  least m := by rw [s.len]; have := s.hi m.length; omega
  injective m m' h := by
    refine s.inj m m' h fun h2 => ?_
    have hl := congrArg List.length (blocks_inj B s.pos _ _ (s.mod m) (s.mod m') h)
    rw [s.len, s.len] at hl
    have := s.hi m.length
    have := s.lo m.length
    have := s.hi m'.length
    have := s.lo m'.length
    rcases Nat.le_total m.length m'.length with g | g
    · exact hi _ _ g (by omega) h2
    · exact (hi _ _ g (by omega) h2.symm).symm

theorem ge (s : Shape B L mid field pad) (m : List Byte) : B ≤ (pad m).length := by
  have h2 : 0 < (pad m).length := by rw [s.len]; have := s.lo m.length; omega
  exact Nat.le_of_dvd h2 (Nat.dvd_of_mod_eq_zero (s.mod m))

theorem last (s : Shape B L mid field pad) (m m' : List Byte)
    (h : (blocks B (pad m)).getLast? = (blocks B (pad m')).getLast?) : field m.length = field m'.length := by
  rw [blocks_last B s.pos _ (s.mod m) (s.ge m), blocks_last B s.pos _ (s.mod m') (s.ge m')] at h
  have h := Option.some.inj h
  have key : ∀ m, field m.length = ((pad m).drop ((pad m).length - B)).drop (B - L) := fun m => by
    have h1 := s.ge m
    have h3 := s.fit
    have h2 : (pad m).length = (m ++ mid m.length).length + L := by rw [s.len, List.length_append]
    rw [List.drop_drop, show (pad m).length - B + (B - L) = (m ++ mid m.length).length by omega, s.eq,
      List.drop_left]
  rw [key m, key m', h]

theorem ne_nil (s : Shape B L mid field pad) (m : List Byte) : blocks B (pad m) ≠ [] := fun h => by
  have h1 := congrArg List.length h
  rw [blocks_length B _ s.pos, List.length_nil] at h1
  have := Nat.div_pos (s.ge m) s.pos
  omega

/-- different messages below the length limit whose folds agree; every block may come with something that depends
on the length of the message and the index of the block -/
theorem collision {H X : Type} (s : Shape B L mid field pad) (limit : Nat)
    (hi : ∀ n n', n < limit → n' < limit → field n = field n' → n = n') (g : Nat → List Byte × Nat → X)
    (hg : ∀ n n' x x', g n x = g n' x' → x.1 = x'.1) (f : H → X → H) (iv : H) (m m' : List Byte) (hne : m ≠ m')
    (hm : m.length < limit) (hm' : m'.length < limit)
    (e : ((blocks B (pad m)).zipIdx.map (g m.length)).foldl f iv =
      ((blocks B (pad m')).zipIdx.map (g m'.length)).foldl f iv) :
    CollisionIn f iv ((blocks B (pad m)).zipIdx.map (g m.length)) ((blocks B (pad m')).zipIdx.map (g m'.length)) := by
  have back : ∀ (n n' : Nat) (l l' : List (List Byte)) (i i' : Nat), (l.zipIdx i).map (g n) = (l'.zipIdx i').map (g n') → l = l' := by
    intro n n' l
    induction l with
    | nil =>
      intro l' i i' h
      cases l' with
      | nil => rfl
      | cons => simp at h
    | cons a l ih =>
      intro l' i i' h
      cases l' with
      | nil => simp at h
      | cons a' l' =>
        simp only [List.zipIdx_cons, List.map_cons, List.cons.injEq] at h
        rw [show a = a' from hg _ _ _ _ h.1, ih l' _ _ h.2]
  by_cases hlen : m.length = m'.length
  · refine fold_collision' f iv _ _ (fun h => hne ?_) e (.inl ?_)
    · exact s.inj m m' (back _ _ _ _ _ _ h) fun _ => hlen
    · rw [List.length_map, List.length_map, List.length_zipIdx, List.length_zipIdx, blocks_length B _ s.pos,
        blocks_length B _ s.pos, s.len, s.len, hlen]
  · have lastx : ∀ m, ∃ i, ((blocks B (pad m)).zipIdx.map (g m.length)).getLast? =
        ((blocks B (pad m)).getLast?).map fun b => g m.length (b, i) := fun m => by
      obtain ⟨l, b, hb⟩ : ∃ l b, blocks B (pad m) = l ++ [b] :=
        ⟨_, _, (List.dropLast_concat_getLast (s.ne_nil m)).symm⟩
      exact ⟨l.length, by rw [hb]; simp⟩
    have hl : ((blocks B (pad m)).zipIdx.map (g m.length)).getLast? ≠
        ((blocks B (pad m')).zipIdx.map (g m'.length)).getLast? := fun h => by
      obtain ⟨i, hi1⟩ := lastx m
      obtain ⟨j, hj1⟩ := lastx m'
      rw [hi1, hj1, blocks_last B s.pos _ (s.mod m) (s.ge m), blocks_last B s.pos _ (s.mod m') (s.ge m')] at h
      have h : (pad m).drop ((pad m).length - B) = (pad m').drop ((pad m').length - B) := hg _ _ _ _ (Option.some.inj h)
      refine hlen (hi _ _ hm hm' (s.last m m' ?_))
      rw [blocks_last B s.pos _ (s.mod m) (s.ge m), blocks_last B s.pos _ (s.mod m') (s.ge m'), h]
    have nz : ∀ m, (blocks B (pad m)).zipIdx.map (g m.length) ≠ [] := fun m h => by
      have h := congrArg List.length h
      rw [List.length_map, List.length_zipIdx, List.length_nil] at h
      exact s.ne_nil m (List.eq_nil_of_length_eq_zero h)
    exact fold_collision' f iv _ _ (fun h => hl (by rw [h])) e (.inr ⟨hl, nz m, nz m'⟩)

end Shape

theorem padded_shape (hB : 0 < B) (hL : L ≤ B) (hf : ∀ n, (field n).length = L) :
    Shape B L (fun n => pb :: List.replicate ((B - (n + 1 + L) % B) % B) 0) field (padded B L pb field) where
  pos := hB
  fit := hL
  eq m := by unfold padded; simp
  flen := hf
  lo n := by simp
  hi n := by have := (round_up B (n + 1 + L) hB).2; simp; omega
  whole n := by
    have := (round_up B (n + 1 + L) hB).1
    rw [← this, List.length_cons, List.length_replicate]
    congr 1
    omega

theorem padded_good (hB : 0 < B) (hL : L ≤ B) (hf : ∀ n, (field n).length = L)
    (hi : ∀ n n', n ≤ n' → n' < n + B → field n = field n' → n = n') :
    GoodPadding B (1 + L) (padded B L pb field) := (padded_shape hB hL hf).good hi

theorem zipIdx_fst (l : List (List Byte)) (i : Nat) : (l.zipIdx i).map (fun x => x.1) = l := by
  induction l generalizing i with
  | nil => rfl
  | cons a l ih => rw [List.zipIdx_cons, List.map_cons, ih]

theorem padded_collision {H : Type} (f : H → List Byte → H) (iv : H) (hB : 0 < B) (hL : L ≤ B)
    (hf : ∀ n, (field n).length = L) (limit : Nat)
    (hi : ∀ n n', n < limit → n' < limit → field n = field n' → n = n') (m m' : List Byte) (hne : m ≠ m')
    (hm : m.length < limit) (hm' : m'.length < limit)
    (e : (blocks B (padded B L pb field m)).foldl f iv = (blocks B (padded B L pb field m')).foldl f iv) :
    CollisionIn f iv (blocks B (padded B L pb field m)) (blocks B (padded B L pb field m')) := by
  have := (padded_shape (pb := pb) hB hL hf).collision limit hi (fun _ x => x.1) (fun _ _ _ _ h => h) f iv m m' hne
    hm hm'
  simp only [zipIdx_fst] at this
  exact this e

/-- From a refinement to C28. -/
theorem reduces {O H X : Type} {A : API O} {dig : List Byte → Except Fault (List Byte)} (r : Refines A dig)
    {eq : O → O → Bool} {limit : Nat} {f : H → X → H} {iv : H} {inputs : List Byte → List X}
    (hF : ∀ o o' m m', r.F o m → r.F o' m' → m.length < limit → m'.length < limit → eq o o' = true →
      (inputs m).foldl f iv = (inputs m').foldl f iv)
    (hc : ∀ m m', m ≠ m' → m.length < limit → m'.length < limit →
      (inputs m).foldl f iv = (inputs m').foldl f iv → CollisionIn f iv (inputs m) (inputs m')) :
    A.CollisionReduces eq limit f iv inputs := by
  intro ops ops' hl hl' hne hm hm'
  obtain ⟨o, e, g⟩ := r.run_finalize ops hl
  obtain ⟨o', e', g'⟩ := r.run_finalize ops' hl'
  exact ⟨o, o', e, e', fun h => hc _ _ hne hm hm' (hF o o' _ _ g g' hm hm' h)⟩

end Verif.Proof.Padding
