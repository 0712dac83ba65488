import Verif.Model.Uninit
import Verif.Proof.HASV
import Verif.Proof.HAS160

/-! No element without a value is read: the first `d` elements have the values they have in the model without `none`. -/

namespace Verif.Proof.Uninit

/-- The first `d` elements of `t` have values, those of `u`. -/
def Known (d : Nat) (t : Vector (Option W32) 20) (u : Vector W32 20) : Prop :=
  ∀ i (h : i < 20), i < d → t[i] = some u[i]

theorem Known.get {d : Nat} {t : Vector (Option W32) 20} {u : Vector W32 20} (h : Known d t u) (i : Fin 20) (hi : i.val < d) :
    t[i] = some u[i] := h i.val i.isLt hi

theorem Known.set {d : Nat} {t : Vector (Option W32) 20} {u : Vector W32 20} (h : Known d t u) (i : Nat) (hi : i < 20) (x : W32) :
    Known d (t.set i (some x)) (u.set i x) := by
  intro j hj hd
  rw [Vector.getElem_set, Vector.getElem_set]
  split
  · rfl
  · exact h j hj hd

theorem Known.push {d : Nat} {t : Vector (Option W32) 20} {u : Vector W32 20} (h : Known d t u) (hi : d < 20) (x : W32) :
    Known (d + 1) (t.set d (some x)) (u.set d x) := by
  intro j hj hd
  rw [Vector.getElem_set, Vector.getElem_set]
  split
  · rfl
  · exact h j hj (by omega)

theorem Known.mono {d e : Nat} {t : Vector (Option W32) 20} {u : Vector W32 20} (h : Known d t u) (he : e ≤ d) : Known e t u :=
  fun i hi hd => h i hi (by omega)

theorem load (f : (i : Nat) → i < 16 → W32) :
    Known 16 (forRange 0 16 (Vector.replicate 20 none) fun i _ h (t : Vector (Option W32) 20) => t.set i (some (f i h)))
      (forRange 0 16 (Vector.replicate 20 0) fun i _ h (t : Vector W32 20) => t.set i (f i h)) := by
  have a := forRange_inv (lo := 0) (hi := 16) (by decide) (init := (Vector.replicate 20 (none : Option W32)))
    (body := fun i _ h t => t.set i (some (f i h)))
    (fun k t => ∀ j (h : j < 16), j < k → t[j] = some (f j h)) (by intro j _ h; omega)
    (by
      intro k _ h2 s hP j hj hk
      rw [Vector.getElem_set]
      split
      · subst_vars; rfl
      · exact hP j hj (by omega))
  have b := forRange_inv (lo := 0) (hi := 16) (by decide) (init := (Vector.replicate 20 (0 : W32)))
    (body := fun i _ h t => t.set i (f i h))
    (fun k t => ∀ j (h : j < 16), j < k → t[j] = f j h) (by intro j _ h; omega)
    (by
      intro k _ h2 s hP j hj hk
      rw [Vector.getElem_set]
      split
      · subst_vars; rfl
      · exact hP j hj (by omega))
  intro i hi hd
  rw [a i hd hd, b i hd hd]

namespace HAS160
open Model.HAS160

theorem lTable_lt : ∀ (k : Fin 4) (i : Fin 20), i.val % 5 ≠ 0 → (lTable[20 * k.val + i.val]'(by omega)).val < 16 := by
  decide +kernel

theorem lt_of (k : Fin 4) (n a : Nat) (hn : n = 20 * k.val) (i : Nat) (hi : i < 20) (h5 : i % 5 ≠ 0) (ha : a = n + i)
    (hl : a < 80) : (lTable[a]).val < 16 := by
  subst hn ha
  exact lTable_lt k ⟨i, hi⟩ h5

theorem assign {d : Nat} {t : Vector (Option W32) 20} {u : Vector W32 20} (h : Known d t u) (h16 : 16 ≤ d) (g a b c e : Nat)
    (hg : g < 20) (ha : a < 80) (hb : b < 80) (hc : c < 80) (he : e < 80) (la : lTable[a].val < 16) (lb : lTable[b].val < 16)
    (lc : lTable[c].val < 16) (le : lTable[e].val < 16) :
    assignU g a b c e hg ha hb hc he t =
      some (t.set g (some (u[lTable[a]] ^^^ u[lTable[b]] ^^^ u[lTable[c]] ^^^ u[lTable[e]]))) := by
  unfold assignU
  rw [h.get _ (by omega), h.get _ (by omega), h.get _ (by omega), h.get _ (by omega)]
  rfl

theorem extend_ok {d : Nat} {t : Vector (Option W32) 20} {u : Vector W32 20} (h : Known d t u) (h16 : 16 ≤ d) (k : Fin 4)
    (n : Nat) (hn : n = 20 * k.val) (hl : n + 19 < 80) :
    ∃ t', extendU n hl t = some t' ∧ Known 20 t' (extend n hl u) := by
  have L (i : Nat) (hi : i < 20) (h5 : i % 5 ≠ 0) : (lTable[n + i]'(by omega)).val < 16 :=
    lt_of k n (n + i) hn i hi h5 rfl (by omega)
  unfold extendU extend
  simp only []
  have h := h.mono h16
  have k1 := h.push (by decide) (u[lTable[n + 1]] ^^^ u[lTable[n + 2]] ^^^ u[lTable[n + 3]] ^^^ u[lTable[n + 4]])
  rw [assign h (by decide) 16 (n + 1) (n + 2) (n + 3) (n + 4) _ _ _ _ _ (L 1 (by decide) (by decide)) (L 2 (by decide) (by decide))
    (L 3 (by decide) (by decide)) (L 4 (by decide) (by decide))]
  generalize t.set 16 _ = t1 at *
  generalize u.set 16 _ = u1 at *
  show ∃ t', (assignU 17 (n + 6) (n + 7) (n + 8) (n + 9) _ _ _ _ _ t1).bind _ = _ ∧ _
  have k2 := k1.push (by decide) (u1[lTable[n + 6]] ^^^ u1[lTable[n + 7]] ^^^ u1[lTable[n + 8]] ^^^ u1[lTable[n + 9]])
  rw [assign k1 (by decide) 17 (n + 6) (n + 7) (n + 8) (n + 9) _ _ _ _ _ (L 6 (by decide) (by decide)) (L 7 (by decide) (by decide))
    (L 8 (by decide) (by decide)) (L 9 (by decide) (by decide))]
  generalize t1.set 17 _ = t2 at *
  generalize u1.set 17 _ = u2 at *
  show ∃ t', (assignU 18 (n + 11) (n + 12) (n + 13) (n + 14) _ _ _ _ _ t2).bind _ = _ ∧ _
  have k3 := k2.push (by decide) (u2[lTable[n + 11]] ^^^ u2[lTable[n + 12]] ^^^ u2[lTable[n + 13]] ^^^ u2[lTable[n + 14]])
  rw [assign k2 (by decide) 18 (n + 11) (n + 12) (n + 13) (n + 14) _ _ _ _ _ (L 11 (by decide) (by decide))
    (L 12 (by decide) (by decide)) (L 13 (by decide) (by decide)) (L 14 (by decide) (by decide))]
  generalize t2.set 18 _ = t3 at *
  generalize u2.set 18 _ = u3 at *
  show ∃ t', assignU 19 (n + 16) (n + 17) (n + 18) (n + 19) _ _ _ _ _ t3 = _ ∧ _
  have k4 := k3.push (by decide) (u3[lTable[n + 16]] ^^^ u3[lTable[n + 17]] ^^^ u3[lTable[n + 18]] ^^^ u3[lTable[n + 19]])
  rw [assign k3 (by decide) 19 (n + 16) (n + 17) (n + 18) (n + 19) _ _ _ _ _ (L 16 (by decide) (by decide))
    (L 17 (by decide) (by decide)) (L 18 (by decide) (by decide)) (L 19 (by decide) (by decide))]
  exact ⟨_, rfl, k4⟩

theorem exec_ok {t : Vector (Option W32) 20} {u : Vector W32 20} (h : Known 20 t u) (r : Vector W32 5) (q : Call) :
    execU t r q = some (exec u r q) := by
  unfold execU
  rw [h.get _ (lTable[q.t]).isLt]
  rfl

theorem fold_ok {t : Vector (Option W32) 20} {u : Vector W32 20} (h : Known 20 t u) (l : List Call) (r : Vector W32 5) :
    l.foldlM (execU t) r = some (l.foldl (exec u) r) := by
  induction l generalizing r with
  | nil => rfl
  | cons q l ih => rw [List.foldlM_cons, exec_ok h]; exact ih _

theorem rounds_ok (x : Block 64) (r : Vector W32 5) : roundsU (loadXU x) r = some (rounds (loadX x) r) := by
  unfold roundsU rounds
  simp only []
  have k0 : Known 16 (loadXU x) (loadX x) := load fun j h => loadLE32 x j
  generalize loadXU x = t0 at *
  generalize loadX x = u0 at *
  obtain ⟨t1, e1, k1⟩ := extend_ok k0 (by decide) 0 0 rfl (by decide)
  obtain ⟨t2, e2, k2⟩ := extend_ok k1 (by decide) 1 20 rfl (by decide)
  obtain ⟨t3, e3, k3⟩ := extend_ok k2 (by decide) 2 40 rfl (by decide)
  obtain ⟨t4, e4, k4⟩ := extend_ok k3 (by decide) 3 60 rfl (by decide)
  simp only [e1, e2, e3, e4, fold_ok k1, fold_ok k2, fold_ok k3, fold_ok k4, Option.bind_eq_bind, Option.bind_some]

theorem compress_ok (h : Vector W32 5) (x : Block 64) : compressU h x = some (compress h x) := by
  unfold compressU
  rw [rounds_ok]
  rfl

end HAS160

namespace HASV
open Model.HASV

theorem assign {d : Nat} {t : Vector (Option W32) 20} {u : Vector W32 20} (h : Known d t u) (h16 : 16 ≤ d) (n : Fin 5) (g : Nat)
    (a b c e : Fin 16) (hg : g < 20) :
    assignU n g a b c e hg t = some (t.set g (some (u[(lut[16 * n.val + a.val]'(by omega))] ^^^ u[(lut[16 * n.val + b.val]'(by omega))] ^^^
      u[(lut[16 * n.val + c.val]'(by omega))] ^^^ u[(lut[16 * n.val + e.val]'(by omega))]))) := by
  have get (i : Fin 16) : t[i] = some u[i] := h i.val (by omega) (by omega)
  unfold assignU
  simp only [get]
  rfl

theorem extend_ok {d : Nat} {t : Vector (Option W32) 20} {u : Vector W32 20} (h : Known d t u) (h16 : 16 ≤ d) (n : Fin 5) :
    ∃ t', extendU n t = some t' ∧ Known 20 t' (extend n u) := by
  unfold extendU extend
  simp only []
  have h := h.mono h16
  rw [assign h (by decide) n 16 0 1 2 3]
  generalize he1 : (u[(lut[16 * n.val + (0 : Fin 16).val]'(by omega))] ^^^ u[(lut[16 * n.val + (1 : Fin 16).val]'(by omega))] ^^^
      u[(lut[16 * n.val + (2 : Fin 16).val]'(by omega))] ^^^ u[(lut[16 * n.val + (3 : Fin 16).val]'(by omega))]) = x1
  have k1 := h.push (by decide) x1
  generalize t.set 16 _ = t1 at *
  generalize u.set 16 _ = u1 at *
  show ∃ t', (assignU n 17 4 5 6 7 _ t1).bind _ = _ ∧ _
  rw [assign k1 (by decide) n 17 4 5 6 7]
  generalize he2 : (u1[(lut[16 * n.val + (4 : Fin 16).val]'(by omega))] ^^^ u1[(lut[16 * n.val + (5 : Fin 16).val]'(by omega))] ^^^
      u1[(lut[16 * n.val + (6 : Fin 16).val]'(by omega))] ^^^ u1[(lut[16 * n.val + (7 : Fin 16).val]'(by omega))]) = x2
  have k2 := k1.push (by decide) x2
  generalize t1.set 17 _ = t2 at *
  generalize u1.set 17 _ = u2 at *
  show ∃ t', (assignU n 18 8 9 10 11 _ t2).bind _ = _ ∧ _
  rw [assign k2 (by decide) n 18 8 9 10 11]
  generalize he3 : (u2[(lut[16 * n.val + (8 : Fin 16).val]'(by omega))] ^^^ u2[(lut[16 * n.val + (9 : Fin 16).val]'(by omega))] ^^^
      u2[(lut[16 * n.val + (10 : Fin 16).val]'(by omega))] ^^^ u2[(lut[16 * n.val + (11 : Fin 16).val]'(by omega))]) = x3
  have k3 := k2.push (by decide) x3
  generalize t2.set 18 _ = t3 at *
  generalize u2.set 18 _ = u3 at *
  show ∃ t', assignU n 19 12 13 14 15 _ t3 = _ ∧ _
  rw [assign k3 (by decide) n 19 12 13 14 15]
  exact ⟨_, rfl, k3.push (by decide) _⟩

theorem line_ok {t : Vector (Option W32) 20} {u : Vector W32 20} (h : Known 20 t u) (a b c d e : Fin 10) (f : Fin 5) (k : W32)
    (j : Fin 100) (r : Vector W32 10) : lineU t a b c d e f k j r = some (line u a b c d e f k j r) := by
  unfold lineU
  rw [h.get _ (mTable[j]).isLt]
  rfl

/-- Every line comes after an extension of its table; the first arguments say which tables are extended already. -/
def ready : Bool → Bool → List Stmt → Bool
  | _, _, [] => true
  | _, y, .extend false _ :: l => ready true y l
  | x, _, .extend true _ :: l => ready x true l
  | x, y, .line false .. :: l => x && ready x y l
  | x, y, .line true .. :: l => y && ready x y l
  | x, y, .swap :: l => ready x y l

theorem active_ready : ready false false active = true := by decide +kernel
theorem disabled_ready : ready false false disabled = true := by decide +kernel

/-- how much of a table is known -/
def size (b : Bool) : Nat := if b then 20 else 16

theorem fold_ok (l : List Stmt) (x y : Bool) (hr : ready x y l = true) (s : VarsU) (v : Vars) (hrr : s.r = v.r)
    (hx : Known (size x) s.x v.x) (hy : Known (size y) s.y v.y) :
    ∃ s', l.foldlM execU s = some s' ∧ s'.r = (l.foldl exec v).r := by
  induction l generalizing x y s v with
  | nil => exact ⟨s, rfl, hrr⟩
  | cons q l ih =>
    have h16 (b : Bool) : 16 ≤ size b := by cases b <;> decide
    rw [List.foldlM_cons, List.foldl_cons]
    match q, hr with
    | .extend false n, hr =>
      obtain ⟨t, e, k⟩ := extend_ok hx (h16 x) n
      show ∃ s', (((extendU n s.x).bind fun t => some { s with x := t }).bind _) = _ ∧ _
      rw [e]
      exact ih true y hr _ _ hrr k hy
    | .extend true n, hr =>
      obtain ⟨t, e, k⟩ := extend_ok hy (h16 y) n
      show ∃ s', (((extendU n s.y).bind fun t => some { s with y := t }).bind _) = _ ∧ _
      rw [e]
      exact ih x true hr _ _ hrr hx k
    | .line false a b c d e f k j, hr =>
      simp only [ready, Bool.and_eq_true] at hr
      obtain ⟨rfl, hr⟩ := hr
      show ∃ s', (((lineU s.x a b c d e f k j s.r).bind fun t => some { s with r := t }).bind _) = _ ∧ _
      rw [line_ok hx]
      exact ih true y hr _ _ (by rw [hrr]; rfl) hx hy
    | .line true a b c d e f k j, hr =>
      simp only [ready, Bool.and_eq_true] at hr
      obtain ⟨rfl, hr⟩ := hr
      show ∃ s', (((lineU s.y a b c d e f k j s.r).bind fun t => some { s with r := t }).bind _) = _ ∧ _
      rw [line_ok hy]
      exact ih x true hr _ _ (by rw [hrr]; rfl) hx hy
    | .swap, hr => exact ih x y hr _ _ (by rw [hrr]; rfl) hx hy

theorem compress_ok (h : Vector W32 10) (m : Block 128) : compressU h m = some (compress h m) := by
  obtain ⟨s, e, hs⟩ := fold_ok active false false active_ready (startU h m) (start h m) rfl
    (load fun i _ => loadLE32 m (0 + i)) (load fun i _ => loadLE32 m (16 + i))
  unfold compressU
  rw [e]
  exact congrArg (fun r => some (feed h r)) hs

theorem compressDisabled_ok (h : Vector W32 10) (m : Block 128) : compressDisabledU h m = some (compressDisabled h m) := by
  obtain ⟨s, e, hs⟩ := fold_ok disabled false false disabled_ready (startU h m) (start h m) rfl
    (load fun i _ => loadLE32 m (0 + i)) (load fun i _ => loadLE32 m (16 + i))
  unfold compressDisabledU
  rw [e]
  exact congrArg (fun r => some (feedDisabled h r)) hs

theorem reset_ok (o : Members) : resetU o = ⟨[], some 0, iv.map some⟩ := by
  unfold resetU
  simp only [Members.mk.injEq, true_and]
  ext1 i hi
  have : i = 0 ∨ i = 1 ∨ i = 2 ∨ i = 3 ∨ i = 4 ∨ i = 5 ∨ i = 6 ∨ i = 7 ∨ i = 8 ∨ i = 9 := by omega
  rcases this with rfl | rfl | rfl | rfl | rfl | rfl | rfl | rfl | rfl | rfl <;> simp [iv]

theorem put_ok (bs : List Byte) (m : Nat) (b : Byte) :
    putU (bs.length, bs.map some ++ List.replicate (m + 1) none) b =
      some ((bs ++ [b]).length, (bs ++ [b]).map some ++ List.replicate m none) := by
  unfold putU
  rw [if_pos (by simp)]
  congr 2
  · simp
  · rw [List.set_append_right _ _ (by simp)]
    simp [List.replicate_succ]

theorem puts_ok (new bs : List Byte) (m : Nat) :
    new.foldlM putU (bs.length, bs.map some ++ List.replicate (new.length + m) none) =
      some ((bs ++ new).length, (bs ++ new).map some ++ List.replicate m none) := by
  induction new generalizing bs with
  | nil => simp
  | cons b new ih =>
    rw [List.foldlM_cons, List.length_cons, show new.length + 1 + m = (new.length + m) + 1 by omega, put_ok]
    have := ih (bs ++ [b])
    rw [List.append_assoc] at this
    exact this

theorem word_ok (i : W32) (s : Nat × List (Option Byte)) :
    (List.range 4).foldlM (fun s j => putU s (ror 8 i (j * 8))) s = (storeLE 4 i).foldlM putU s := by
  unfold storeLE
  rw [List.foldlM_map]

theorem words_ok (l : List W32) (s : Nat × List (Option Byte)) :
    (l.map some).foldlM (fun s (i : Option W32) => do
      let i ← i
      (List.range 4).foldlM (fun s j => putU s (ror 8 i (j * 8))) s) s = (l.flatMap (storeLE 4)).foldlM putU s := by
  induction l generalizing s with
  | nil => rfl
  | cons i l ih =>
    rw [List.map_cons, List.foldlM_cons, List.flatMap_cons, List.foldlM_append]
    show ((List.range 4).foldlM (fun s j => putU s (ror 8 i (j * 8))) s).bind _ = _
    rw [word_ok]
    exact congrArg (Option.bind _) (funext fun s => ih s)

theorem toArray_ok (h : Vector W32 10) : toArrayU (h.map some) = some (h.toList.flatMap (storeLE 4)) := by
  have hl : (h.toList.flatMap (storeLE 4)).length = 40 := by
    rw [flatMap_storeLE (w := 32), bytesLE_length]; simp
  unfold toArrayU
  rw [Vector.toList_map, words_ok]
  have := puts_ok (h.toList.flatMap (storeLE 4)) [] 0
  rw [hl] at this
  rw [show (0, List.replicate 40 none) = (([] : List Byte).length, ([] : List Byte).map some ++ List.replicate (40 + 0) none) from rfl,
    this]
  show List.mapM id _ = _
  rw [List.nil_append, List.replicate_zero, List.append_nil, List.mapM_map]
  generalize h.toList.flatMap (storeLE 4) = l
  induction l with
  | nil => rfl
  | cons b l ih => rw [List.mapM_cons]; simp at ih ⊢; rw [ih]; rfl

theorem hex_ok : ∀ b : Fin 256, cString (((snprintf02x 3 b.val).map some ++ [some '\x00']) ++
    (List.replicate 3 none).drop ((snprintf02x 3 b.val).map some ++ [some '\x00']).length) = some (snprintf02x 3 b.val) := by
  decide +kernel

theorem append_ok (ret : List Char) (c : Byte) : appendHexU ret c = some (ret ++ snprintf02x 3 c.toNat) := by
  unfold appendHexU
  have := hex_ok ⟨c.toNat, c.isLt⟩
  simp only [] at this ⊢
  rw [this]
  rfl

theorem appends_ok (l : List Byte) (ret : List Char) :
    l.foldlM appendHexU ret = some (l.foldl (fun ret c => ret ++ snprintf02x 3 c.toNat) ret) := by
  induction l generalizing ret with
  | nil => rfl
  | cons c l ih => rw [List.foldlM_cons, append_ok]; exact ih _

end HASV

end Verif.Proof.Uninit
