import Verif.Model.MD2
import Verif.Spec.MD2
import Verif.Proof.Block

/-! The MD2 model computes the MD2 specification. -/

namespace Verif.Proof.MD2
open Model.MD2 Spec

theorem pi_table : ∀ i : Fin 256, piSubst[i.val] = MD2.S (BitVec.ofNat 8 i.val) := by decide +kernel

theorem pi_eq (i : Byte) : pi i = MD2.S i := by
  have := pi_table ⟨i.toNat, i.isLt⟩
  rwa [show BitVec.ofNat 8 (⟨i.toNat, i.isLt⟩ : Fin 256).val = i by simp] at this

attribute [local irreducible] forRange MD2.S pi

/-! Splitting the specification's recursions -/

theorem checksumBlock_append (cs cs' ms ms' : List Byte) (L : Byte) (h : cs.length = ms.length) :
    MD2.checksumBlock (cs ++ cs') L (ms ++ ms') =
      let p := MD2.checksumBlock cs L ms
      let q := MD2.checksumBlock cs' p.2 ms'
      (p.1 ++ q.1, q.2) := by
  induction cs generalizing ms L with
  | nil =>
    cases ms with
    | nil => simp [MD2.checksumBlock]
    | cons _ _ => simp at h
  | cons c cs ih =>
    cases ms with
    | nil => simp at h
    | cons m ms =>
      simp only [List.cons_append, MD2.checksumBlock]
      rw [ih _ _ (by simpa using h)]

theorem checksumBlock_length (cs ms : List Byte) (L : Byte) (h : cs.length = ms.length) :
    (MD2.checksumBlock cs L ms).1.length = cs.length := by
  induction cs generalizing ms L with
  | nil => cases ms <;> simp [MD2.checksumBlock]
  | cons c cs ih =>
    cases ms with
    | nil => simp at h
    | cons m ms =>
      simp only [MD2.checksumBlock, List.length_cons]
      rw [ih _ _ (by simpa using h)]

theorem sweep_append (xs ys : List Byte) (t : Byte) :
    MD2.sweep (xs ++ ys) t =
      let p := MD2.sweep xs t
      let q := MD2.sweep ys p.2
      (p.1 ++ q.1, q.2) := by
  induction xs generalizing t with
  | nil => simp [MD2.sweep]
  | cons x xs ih =>
    simp only [List.cons_append, MD2.sweep]
    rw [ih]

theorem sweep_length (xs : List Byte) (t : Byte) : (MD2.sweep xs t).1.length = xs.length := by
  induction xs generalizing t with
  | nil => rfl
  | cons x xs ih => simp only [MD2.sweep, List.length_cons, ih]

theorem take_succ' {n : Nat} (v : Vector Byte n) (k : Nat) (h : k < n) :
    v.toList.take (k + 1) = v.toList.take k ++ [v[k]] := by
  rw [List.take_add_one, List.getElem?_eq_getElem (by simpa using h)]
  simp

/-- entry `k` of a concatenation whose first part has `k` entries -/
theorem get_of_split {n : Nat} {v : Vector Byte n} {p q : List Byte} {k : Nat} (hk : k < n)
    (h : v.toList = p ++ q) (hp : p.length = k) : ∃ q', q = v[k] :: q' := by
  have hl := congrArg List.length h
  simp at hl
  cases q with
  | nil => simp at hl; omega
  | cons a q' =>
    refine ⟨q', ?_⟩
    congr 1
    have : v[k] = v.toList[k]'(by simpa using hk) := by simp
    rw [this]
    simp [h, ← hp]

theorem set_split {n : Nat} {v : Vector Byte n} {p q : List Byte} {k : Nat} (hk : k < n) {a b : Byte}
    (h : v.toList = p ++ a :: q) (hp : p.length = k) : (v.set k b).toList = p ++ [b] ++ q := by
  rw [Vector.toList_set, h, ← hp]
  simp

theorem innerLoop_eq (x : Vector Byte 48) (t : Byte) :
    ((innerLoop x t).1.toList, (innerLoop x t).2) = MD2.sweep x.toList t := by
  have := forRange_inv (lo := 0) (hi := 48) (by decide) (init := (x, t))
    (body := fun k _ _ s => (s.1.set k (s.1[k] ^^^ pi s.2), (s.1.set k (s.1[k] ^^^ pi s.2))[k]))
    (fun k s => k ≤ 48 ∧ s.1.toList = (MD2.sweep (x.toList.take k) t).1 ++ x.toList.drop k ∧
      s.2 = (MD2.sweep (x.toList.take k) t).2)
    (by simp [MD2.sweep])
    (by
      rintro k - hk ⟨v, u⟩ ⟨-, h1, h2⟩
      simp only at h1 h2
      subst h2
      have hp : (MD2.sweep (x.toList.take k) t).1.length = k := by
        rw [sweep_length]; simp; omega
      obtain ⟨q', hq⟩ := get_of_split hk h1 hp
      have hd : x.toList.drop k = x[k] :: x.toList.drop (k + 1) := by
        rw [List.drop_eq_getElem_cons (by simpa using hk)]; simp
      have hv : v[k] = x[k] := by
        rw [hd] at hq
        exact (List.cons.inj hq).1.symm
      rw [hd] at h1
      refine ⟨by omega, ?_, ?_⟩
      · simp only []
        rw [set_split hk h1 hp, take_succ' x k hk, sweep_append]
        simp only [MD2.sweep, pi_eq, hv]
      · simp only [Vector.getElem_set_self]
        rw [take_succ' x k hk, sweep_append]
        simp only [MD2.sweep, pi_eq, hv])
  obtain ⟨-, h1, h2⟩ := this
  rw [List.take_of_length_le (by simp), List.drop_of_length_le (by simp), List.append_nil] at h1
  rw [List.take_of_length_le (by simp)] at h2
  exact Prod.ext h1 h2

theorem checksumLoop_eq (m : Block 16) (c : Vector Byte 16) (l : Byte) :
    ((checksumLoop m c l).1.toList, (checksumLoop m c l).2) = MD2.checksumBlock c.toList l m.toList := by
  have := forRange_inv (lo := 0) (hi := 16) (by decide) (init := (c, l))
    (body := fun j _ _ s => (s.1.set j (s.1[j] ^^^ pi (m[j] ^^^ s.2)), (s.1.set j (s.1[j] ^^^ pi (m[j] ^^^ s.2)))[j]))
    (fun k s => k ≤ 16 ∧
      s.1.toList = (MD2.checksumBlock (c.toList.take k) l (m.toList.take k)).1 ++ c.toList.drop k ∧
      s.2 = (MD2.checksumBlock (c.toList.take k) l (m.toList.take k)).2)
    (by simp [MD2.checksumBlock])
    (by
      rintro k - hk ⟨v, u⟩ ⟨-, h1, h2⟩
      simp only at h1 h2
      subst h2
      have hl : (c.toList.take k).length = (m.toList.take k).length := by simp
      have hp : (MD2.checksumBlock (c.toList.take k) l (m.toList.take k)).1.length = k := by
        rw [checksumBlock_length _ _ _ hl]; simp; omega
      obtain ⟨q', hq⟩ := get_of_split hk h1 hp
      have hd : c.toList.drop k = c[k] :: c.toList.drop (k + 1) := by
        rw [List.drop_eq_getElem_cons (by simpa using hk)]; simp
      have hv : v[k] = c[k] := by
        rw [hd] at hq
        exact (List.cons.inj hq).1.symm
      rw [hd] at h1
      refine ⟨by omega, ?_, ?_⟩
      · simp only []
        rw [set_split hk h1 hp, take_succ' c k hk, take_succ' m k hk, checksumBlock_append _ _ _ _ _ hl]
        simp only [MD2.checksumBlock, pi_eq, hv]
      · simp only [Vector.getElem_set_self]
        rw [take_succ' c k hk, take_succ' m k hk, checksumBlock_append _ _ _ _ _ hl]
        simp only [MD2.checksumBlock, pi_eq, hv])
  obtain ⟨-, h1, h2⟩ := this
  rw [List.take_of_length_le (by simp), List.take_of_length_le (by simp),
    List.drop_of_length_le (by simp), List.append_nil] at h1
  rw [List.take_of_length_le (by simp), List.take_of_length_le (by simp)] at h2
  exact Prod.ext h1 h2

theorem loadLoop_eq (m : Block 16) (x : Vector Byte 48) : (loadLoop m x).toList =
    x.toList.take 16 ++ m.toList ++ List.zipWith (· ^^^ ·) m.toList (x.toList.take 16) := by
  have := forRange_inv (lo := 0) (hi := 16) (by decide) (init := x)
    (body := fun j _ _ x => (x.set (j + 16) m[j]).set (j + 32) ((x.set (j + 16) m[j])[j + 16] ^^^ (x.set (j + 16) m[j])[j]))
    (fun k y => k ≤ 16 ∧ (∀ i (h : i < 16), y[i] = x[i]) ∧
      (∀ i (h : i < k) (h' : i < 16), y[i + 16] = m[i]) ∧
      (∀ i (h : i < k) (h' : i < 16), y[i + 32] = m[i] ^^^ x[i]))
    ⟨by decide, fun _ _ => rfl, fun i h => by omega, fun i h => by omega⟩
    (by
      rintro k - hk y ⟨-, h1, h2, h3⟩
      refine ⟨by omega, ?_, ?_, ?_⟩
      · intro i h
        simp only [Vector.getElem_set]
        rw [if_neg (by omega), if_neg (by omega), h1 i h]
      · intro i h h'
        simp only [Vector.getElem_set]
        rw [if_neg (by omega)]
        by_cases e : k + 16 = i + 16
        · rw [if_pos e]
          have : k = i := by omega
          subst this; rfl
        · rw [if_neg e, h2 i (by omega) h']
      · intro i h h'
        simp only [Vector.getElem_set]
        by_cases e : k + 32 = i + 32
        · have : k = i := by omega
          subst this
          rw [if_pos e, if_pos trivial, if_neg (by omega), h1 k hk]
        · rw [if_neg e, if_neg (by omega), h3 i (by omega) h'])
  obtain ⟨-, h1, h2, h3⟩ := this
  apply List.ext_getElem
  · simp
  · intro i hi _
    simp at hi
    simp only [Vector.getElem_toList, List.getElem_append, List.length_append, List.length_take,
      Vector.length_toList, List.getElem_take, List.getElem_zipWith]
    by_cases c1 : i < 16
    · rw [dif_pos (by omega), dif_pos (by omega)]
      exact h1 i c1
    · by_cases c2 : i < 32
      · rw [dif_pos (by omega), dif_neg (by omega)]
        have := h2 (i - 16) (by omega) (by omega)
        simp only [show i - 16 + 16 = i by omega] at this
        simp only [Nat.min_eq_left (show 16 ≤ 48 by decide)]
        exact this
      · rw [dif_neg (by omega)]
        have := h3 (i - 32) (by omega) (by omega)
        simp only [show i - 32 + 32 = i by omega] at this
        simp only [Nat.min_eq_left (show 16 ≤ 48 by decide)]
        exact this

theorem mixLoop_eq (x : Vector Byte 48) : ((mixLoop x).1.toList, (mixLoop x).2) =
    (List.range 18).foldl (fun (p : List Byte × Byte) j =>
      let (buf, t) := MD2.sweep p.1 p.2
      (buf, t + BitVec.ofNat 8 j)) (x.toList, 0) := by
  have := forRange_inv (lo := 0) (hi := 18) (by decide) (init := (x, (0 : Byte)))
    (body := fun j _ _ s => ((innerLoop s.1 s.2).1, (innerLoop s.1 s.2).2 + BitVec.ofNat 8 j))
    (fun k s => (s.1.toList, s.2) = (List.range k).foldl (fun (p : List Byte × Byte) j =>
      let (buf, t) := MD2.sweep p.1 p.2
      (buf, t + BitVec.ofNat 8 j)) (x.toList, 0))
    rfl
    (by
      rintro k - hk ⟨v, u⟩ h
      rw [List.range_succ, List.foldl_append, ← h]
      simp only [List.foldl_cons, List.foldl_nil]
      rw [← innerLoop_eq])
  exact this

@[irreducible] def mixed (buf : List Byte) : List Byte × Byte :=
  (List.range 18).foldl (fun (p : List Byte × Byte) j =>
    let (buf, t) := MD2.sweep p.1 p.2
    (buf, t + BitVec.ofNat 8 j)) (buf, 0)

theorem step_mixed (X M : List Byte) : MD2.step X M =
    (mixed (X ++ M ++ List.zipWith (· ^^^ ·) M X)).1.take 16 := by
  unfold mixed
  rfl

theorem mixLoop_mixed (x : Vector Byte 48) : ((mixLoop x).1.toList, (mixLoop x).2) = mixed x.toList := by
  unfold mixed
  exact mixLoop_eq x

/-- what the specification keeps of the state -/
def view (s : St) : List Byte × (List Byte × Byte) := (s.x.toList.take 16, (s.checksum.toList, s.checksumL))

theorem body_eq (s : St) (m : Block 16) : view (body s m) =
    (MD2.step (s.x.toList.take 16) m.toList,
      MD2.checksumBlock s.checksum.toList s.checksumL m.toList) := by
  unfold view body
  dsimp only
  rw [checksumLoop_eq, step_mixed, ← loadLoop_eq, ← mixLoop_mixed]

def den (m : List Byte) : St := mdFold 16 body init m

theorem foldl_pair {α β γ : Type} (f : α → γ → α) (g : β → γ → β) (l : List γ) (a : α) (b : β) :
    l.foldl (fun p c => (f p.1 c, g p.2 c)) (a, b) = (l.foldl f a, l.foldl g b) := by
  induction l generalizing a b with
  | nil => rfl
  | cons c cs ih => rw [List.foldl_cons, ih]; rfl

theorem den_view (m : List Byte) : view (den m) =
    ((blocks 16 m).foldl MD2.step (List.replicate 16 0),
      (blocks 16 m).foldl (fun (p : List Byte × Byte) b => MD2.checksumBlock p.1 p.2 b)
        (List.replicate 16 0, 0)) := by
  have := mdFold_map (f := view) (scomp := fun p b => (MD2.step p.1 b, MD2.checksumBlock p.2.1 p.2.2 b))
    body_eq init m
  unfold den
  rw [this]
  have hv : view init = (List.replicate 16 0, (List.replicate 16 0, 0)) := by decide +kernel
  rw [hv]
  exact foldl_pair MD2.step (fun (p : List Byte × Byte) b => MD2.checksumBlock p.1 p.2 b) _ _ _

theorem den_checksum (m : List Byte) : (den m).checksum.toList = MD2.checksum m :=
  congrArg (fun p => p.2.1) (den_view m)

theorem den_x (m : List Byte) :
    (den m).x.toList.take 16 = (blocks 16 m).foldl MD2.step (List.replicate 16 0) :=
  congrArg (fun p => p.1) (den_view m)

theorem implOK : ImplOK 16 impl den := forBlocks_implOK 16 (by decide) body init

theorem finalize_rel (o : Obj (2 * 16) St) (m : List Byte) (h : Rel 16 den o m) :
    ∃ o', finalize o = .ok o' ∧ o'.chain = den (MD2.pad m ++ MD2.checksum (MD2.pad m)) := by
  obtain ⟨hc, hb⟩ := h
  have hr := restPart_length 16 m
  have hlt : m.length % 16 < 16 := Nat.mod_lt _ (by decide)
  have hal : (alignedPart 16 m).length % 16 = 0 := by
    rw [alignedPart_length]; exact alignedLen_mod 16 m
  have hm := aligned_append_rest 16 m
  unfold finalize
  rw [hb.size_eq, hr, Nat.mod_mod]
  dsimp only
  obtain ⟨b1, e1, h1⟩ := Buffer.fill_holds hb (BitVec.ofNat 8 (16 - m.length % 16)) (16 - m.length % 16)
    (by omega) (by omega)
  rw [e1]
  simp only [bind, Except.bind]
  have hlen : (restPart 16 m ++ List.replicate (16 - m.length % 16)
      (BitVec.ofNat 8 (16 - m.length % 16))).length % 16 = 0 := by
    rw [List.length_append, List.length_replicate, hr]; omega
  have e2 := implOK (alignedPart 16 m) (restPart 16 m ++ List.replicate (16 - m.length % 16)
    (BitVec.ofNat 8 (16 - m.length % 16))) hal hlen
    (by rw [List.length_append, List.length_replicate, hr]; omega)
  have hp : alignedPart 16 m ++ (restPart 16 m ++ List.replicate (16 - m.length % 16)
      (BitVec.ofNat 8 (16 - m.length % 16))) = MD2.pad m := by
    rw [← List.append_assoc, hm]
    rfl
  rw [hp] at e2
  rw [h1.2, hc, e2]
  simp only []
  have hpl : (MD2.pad m).length % 16 = 0 := by
    simp only [MD2.pad, List.length_append, List.length_replicate]; omega
  have e3 := implOK (MD2.pad m) (den (MD2.pad m)).checksum.toList hpl (by simp) (by simp)
  rw [e3, den_checksum]
  exact ⟨_, rfl, rfl⟩

theorem take16 (x : Vector Byte 48) : x.toList.take 16 =
    [x[0], x[1], x[2], x[3], x[4], x[5], x[6], x[7], x[8], x[9], x[10], x[11], x[12], x[13], x[14], x[15]] := by
  apply List.ext_getElem
  · simp
  · intro i h1 h2
    simp at h1
    have : i = 0 ∨ i = 1 ∨ i = 2 ∨ i = 3 ∨ i = 4 ∨ i = 5 ∨ i = 6 ∨ i = 7 ∨ i = 8 ∨ i = 9 ∨ i = 10 ∨
      i = 11 ∨ i = 12 ∨ i = 13 ∨ i = 14 ∨ i = 15 := by omega
    rcases this with h | h | h | h | h | h | h | h | h | h | h | h | h | h | h | h <;> subst h <;> simp

theorem den_nil : den [] = init := by
  unfold den mdFold
  rw [blocks_nil]
  rfl

theorem toArray_eq (o : Obj (2 * 16) St) (m : List Byte)
    (h : o.chain = den (MD2.pad m ++ MD2.checksum (MD2.pad m))) : toArray o = .ok (MD2.md2 m) := by
  unfold toArray
  dsimp only
  rw [h, ← take16, den_x]
  rfl

theorem md2_length (m : List Byte) : (MD2.md2 m).length = 16 := by
  have h : MD2.md2 m = (den (MD2.pad m ++ MD2.checksum (MD2.pad m))).x.toList.take 16 := (den_x _).symm
  rw [h]
  simp

def refines : Refines MD2 (fun m => .ok (MD2.md2 m)) :=
  blockRefines (out := toArray) (by decide) (by decide) (by decide) den_nil implOK
    (fun o m => o.chain = den (MD2.pad m ++ MD2.checksum (MD2.pad m))) finalize_rel toArray_eq

end Verif.Proof.MD2
