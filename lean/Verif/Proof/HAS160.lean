import Verif.Model.HAS160
import Verif.Spec.HAS160
import Verif.Proof.Regs

/-! The HAS-160 model computes the HAS-160 standard. -/

namespace Verif.Proof.HAS160
open Model.HAS160 Spec

/-! ### The word table -/

/-- The first sixteen entries hold the message words. -/
def HasX (X : Nat → W32) (xt : Vector W32 20) : Prop := ∀ j (h : j < 16), xt[j] = X j

theorem loadX_ok (x : Block 64) : HasX (wordLE 32 x.toList) (loadX x) := by
  have h1 := forRange_inv (lo := 0) (hi := 16) (by decide)
    (init := (Vector.replicate 20 (0 : W32)))
    (body := fun t _ h w => w.set t (loadLE32 x t))
    (fun t w => ∀ j (_ : j < t) (hj : j < 20), w[j] = wordLE 32 x.toList j)
    (by intro j hj; omega)
    (by
      intro t _ h2 s hP j hj hj2
      rw [Vector.getElem_set]
      split
      · subst_vars
        rw [loadLE32_eq]
      · exact hP j (by omega) hj2)
  intro j hj
  exact h1 j hj (by omega)

/-- position in `lTable` of the `i`-th message word of a round -/
def pos (i : Fin 16) : Nat := i + i / 4 + 1

theorem lTable_word : ∀ (k : Fin 4) (i : Fin 16),
    (lTable[20 * k.val + pos i]'(by simp only [pos]; omega)).val = HAS160.order k i := by
  decide +kernel

theorem order_lt : ∀ (k : Fin 4) (i : Fin 16), HAS160.order k i < 16 := by decide +kernel

theorem lTable_extra : ∀ (k g : Fin 4),
    (lTable[20 * k.val + 5 * g.val]'(by omega)).val = 16 + [2, 3, 0, 1].getD g 0 := by
  decide +kernel

theorem get_word (X : Nat → W32) (xt : Vector W32 20) (hx : HasX X xt) (k : Fin 4) (i : Fin 16)
    (n : Nat) (hn : n = 20 * k.val + pos i) (hlt : n < 80) :
    xt[lTable[n]] = X (HAS160.order k i) := by
  subst hn
  have h := lTable_word k i
  have hl := order_lt k i
  rw [Fin.getElem_fin]
  simp only [h]
  exact hx _ hl

theorem extend_ok (X : Nat → W32) (xt : Vector W32 20) (hx : HasX X xt) (k : Fin 4) (n : Nat)
    (hn : n = 20 * k.val) (h : n + 19 < 80) :
    HasX X (extend n h xt) ∧
      ∀ g : Fin 4, (extend n h xt)[16 + g.val] = HAS160.extra X k g := by
  have e0 := hx
  have keep (w : Vector W32 20) (hw : HasX X w) (g : Nat) (hg : 16 ≤ g) (hg2 : g < 20) (v : W32) :
      HasX X (w.set g v) := by
    intro j hj
    rw [Vector.getElem_set, if_neg (by omega)]
    exact hw j hj
  have grp (w : Vector W32 20) (hw : HasX X w) (g : Nat) (hg : g < 4) (a b c d : Nat)
      (ha : a = n + 5 * g + 1) (hb : b = n + 5 * g + 2) (hc : c = n + 5 * g + 3)
      (hd : d = n + 5 * g + 4)
      (la : a < 80) (lb : b < 80) (lc : c < 80) (ld : d < 80) :
      w[lTable[a]] ^^^ w[lTable[b]] ^^^ w[lTable[c]] ^^^ w[lTable[d]] = HAS160.extra X k g := by
    unfold HAS160.extra
    rw [get_word X w hw k ⟨4 * g, by omega⟩ a (by simp only [pos]; omega) la,
      get_word X w hw k ⟨4 * g + 1, by omega⟩ b (by simp only [pos]; omega) lb,
      get_word X w hw k ⟨4 * g + 2, by omega⟩ c (by simp only [pos]; omega) lc,
      get_word X w hw k ⟨4 * g + 3, by omega⟩ d (by simp only [pos]; omega) ld]
  unfold extend
  simp only []
  rw [grp xt e0 0 (by decide) (n + 1) (n + 2) (n + 3) (n + 4) (by simp) (by simp) (by simp) (by simp)]
  have e1 := keep _ e0 16 (by decide) (by decide) (HAS160.extra X k 0)
  generalize h1 : xt.set 16 (HAS160.extra X k 0) = x1 at *
  rw [grp x1 e1 1 (by decide) (n + 6) (n + 7) (n + 8) (n + 9) (by simp) (by simp) (by simp) (by simp)]
  have e2 := keep _ e1 17 (by decide) (by decide) (HAS160.extra X k 1)
  generalize h2 : x1.set 17 (HAS160.extra X k 1) = x2 at *
  rw [grp x2 e2 2 (by decide) (n + 11) (n + 12) (n + 13) (n + 14) (by simp) (by simp) (by simp) (by simp)]
  have e3 := keep _ e2 18 (by decide) (by decide) (HAS160.extra X k 2)
  generalize h3 : x2.set 18 (HAS160.extra X k 2) = x3 at *
  rw [grp x3 e3 3 (by decide) (n + 16) (n + 17) (n + 18) (n + 19) (by simp) (by simp) (by simp) (by simp)]
  have e4 := keep _ e3 19 (by decide) (by decide) (HAS160.extra X k 3)
  refine ⟨e4, ?_⟩
  intro g
  match g with
  | ⟨0, _⟩ => simp [← h3, ← h2, ← h1]
  | ⟨1, _⟩ => simp [← h3, ← h2]
  | ⟨2, _⟩ => simp [← h3]
  | ⟨3, _⟩ => simp

/-- After `extendXTable(20k)` the table supplies the words of round `k`. -/
theorem word_ok (X : Nat → W32) (xt : Vector W32 20) (hx : HasX X xt) (k : Fin 4)
    (he : ∀ g : Fin 4, xt[16 + g.val] = HAS160.extra X k g) (i : Fin 20) :
    xt[lTable[20 * k.val + i.val]] = HAS160.word X k i := by
  unfold HAS160.word
  by_cases h : i.val % 5 = 0
  · rw [if_pos h]
    have hg : i.val / 5 < 4 := by omega
    have h1 := lTable_extra k ⟨i.val / 5, hg⟩
    simp only [show 5 * (i.val / 5) = i.val by omega] at h1
    have hlt : [2, 3, 0, 1].getD (i.val / 5) 0 < 4 := by
      have : ∀ g : Fin 4, [2, 3, 0, 1].getD g.val 0 < 4 := by decide
      exact this ⟨_, hg⟩
    rw [Fin.getElem_fin]
    simp only [h1]
    exact he ⟨_, hlt⟩
  · rw [if_neg h]
    exact get_word X xt hx k ⟨i.val - i.val / 5 - 1, by omega⟩ _ (by simp only [pos]; omega) (by omega)

/-! ### The rounds -/

def rndOf : Fin 4 → Round
  | 0 => .r1 | 1 => .r2 | 2 => .r3 | 3 => .r4

def seg : Fin 4 → List Call
  | 0 => seg0 | 1 => seg1 | 2 => seg2 | 3 => seg3

/-- The call for step `20k + i`. -/
def gen (k : Fin 4) (i : Fin 20) : Call :=
  ⟨rndOf k, ⟨(4 * i.val) % 5, by omega⟩, ⟨(1 + 4 * i.val) % 5, by omega⟩,
    ⟨(2 + 4 * i.val) % 5, by omega⟩, ⟨(3 + 4 * i.val) % 5, by omega⟩,
    ⟨(4 + 4 * i.val) % 5, by omega⟩, HAS160.s1 i, ⟨20 * k.val + i.val, by omega⟩⟩

theorem seg_eq : ∀ k : Fin 4, seg k = (List.finRange 20).map (gen k) := by decide +kernel

theorem s1_lt : ∀ i : Fin 20, HAS160.s1 i < 32 := by decide

theorem fn_eq (k : Fin 4) (b c d : W32) : fn (rndOf k) b c d = HAS160.f k b c d := by
  match k with
  | 0 =>
    show (b &&& (c ^^^ d)) ^^^ d = (b &&& c) ||| (~~~b &&& d)
    ext i hi; simp
    cases b[i] <;> cases c[i] <;> cases d[i] <;> rfl
  | 1 => rfl
  | 2 => rfl
  | 3 => rfl

theorem konst_eq : ∀ k : Fin 4, konst (rndOf k) = HAS160.K k := by decide
theorem rotB_eq : ∀ k : Fin 4, rotB (rndOf k) = HAS160.s2 k := by decide
theorem s2_lt : ∀ k : Fin 4, HAS160.s2 k < 32 := by decide

/-- The registers seen after `t` steps. -/
def view (t : Nat) (r : Vector W32 5) : HAS160.State :=
  (r[(4 * t) % 5]'(by omega), r[(1 + 4 * t) % 5]'(by omega), r[(2 + 4 * t) % 5]'(by omega),
    r[(3 + 4 * t) % 5]'(by omega), r[(4 + 4 * t) % 5]'(by omega))

theorem view_set (t : Nat) (r : Vector W32 5) (e b : W32) :
    view (t + 1) ((r.set ((4 + 4 * t) % 5) e (by omega)).set ((1 + 4 * t) % 5) b (by omega))
      = (e, (view t r).1, b, (view t r).2.2.1, (view t r).2.2.2.1) := by
  simp only [view, Vector.getElem_set, Prod.mk.injEq]
  refine ⟨?_, ?_, ?_, ?_, ?_⟩
  · rw [if_neg (by omega), if_pos (by omega)]
  · rw [if_neg (by omega), if_neg (by omega)]; congr 1; omega
  · rw [if_pos (by omega)]
  · rw [if_neg (by omega), if_neg (by omega)]; congr 1; omega
  · rw [if_neg (by omega), if_neg (by omega)]; congr 1; omega

def tup (v : Vector W32 5) : HAS160.State := (v[0], v[1], v[2], v[3], v[4])

theorem exec_view (X : Nat → W32) (xt : Vector W32 20) (k : Fin 4)
    (hw : ∀ i : Fin 20, xt[lTable[20 * k.val + i.val]] = HAS160.word X k i)
    (r : Vector W32 5) (i : Fin 20) :
    view (i.val + 1) (exec xt r (gen k i)) = HAS160.step X (view i.val r) (20 * k.val + i.val) := by
  have hb (e : W32) : (r.set ((4 + 4 * i.val) % 5) e (by omega))[(1 + 4 * i.val) % 5]'(by omega)
      = r[(1 + 4 * i.val) % 5]'(by omega) := by
    rw [Vector.getElem_set, if_neg (by omega)]
  have hwi := hw i
  rw [Fin.getElem_fin] at hwi
  have h1 : (20 * k.val + i.val) % 20 = i.val := by omega
  have h2 : (20 * k.val + i.val) / 20 = k.val := by omega
  unfold HAS160.step
  simp only [exec, gen, fn_eq, konst_eq, rotB_eq, Fin.getElem_fin, hb, hwi, rotl_eq _ _ (s1_lt i),
    rotl_eq _ _ (s2_lt k), view_set, h1, h2]
  rfl

theorem round_eq (X : Nat → W32) (xt : Vector W32 20) (k : Fin 4)
    (hw : ∀ i : Fin 20, xt[lTable[20 * k.val + i.val]] = HAS160.word X k i) (r : Vector W32 5) :
    tup ((seg k).foldl (exec xt) r)
      = (List.range 20).foldl (fun q i => HAS160.step X q (20 * k.val + i)) (tup r) := by
  have key := foldl_inv ((List.finRange 20).map (gen k)) (exec xt) r
    (fun t w => view t w = (List.range t).foldl (fun q i => HAS160.step X q (20 * k.val + i)) (tup r))
    rfl
    (by
      intro t ht w hw'
      have ht' : t < 20 := by simpa using ht
      have e : ((List.finRange 20).map (gen k))[t]'ht = gen k ⟨t, ht'⟩ := by
        rw [List.getElem_map, List.getElem_finRange]; rfl
      rw [e, foldl_range_succ, ← hw']
      exact exec_view X xt k hw w ⟨t, ht'⟩)
  rw [seg_eq]
  simp only [List.length_map, List.length_finRange] at key
  exact key

theorem fold80 {σ : Type} (f : σ → Nat → σ) (s : σ) :
    (List.range 80).foldl f s =
      (List.range 20).foldl (fun q i => f q (20 * 3 + i))
      ((List.range 20).foldl (fun q i => f q (20 * 2 + i))
      ((List.range 20).foldl (fun q i => f q (20 * 1 + i))
      ((List.range 20).foldl (fun q i => f q (20 * 0 + i)) s))) := by
  rw [show (80 : Nat) = 20 + 20 + 20 + 20 by decide, foldl_range_add, foldl_range_add,
    foldl_range_add]
  simp

theorem rounds_eq (X : Nat → W32) (t1 t2 t3 t4 : Vector W32 20)
    (w1 : ∀ i : Fin 20, t1[lTable[20 * (0 : Fin 4).val + i.val]] = HAS160.word X (0 : Fin 4).val i)
    (w2 : ∀ i : Fin 20, t2[lTable[20 * (1 : Fin 4).val + i.val]] = HAS160.word X (1 : Fin 4).val i)
    (w3 : ∀ i : Fin 20, t3[lTable[20 * (2 : Fin 4).val + i.val]] = HAS160.word X (2 : Fin 4).val i)
    (w4 : ∀ i : Fin 20, t4[lTable[20 * (3 : Fin 4).val + i.val]] = HAS160.word X (3 : Fin 4).val i)
    (r : Vector W32 5) :
    tup (seg3.foldl (exec t4) (seg2.foldl (exec t3) (seg1.foldl (exec t2) (seg0.foldl (exec t1) r))))
      = (List.range 80).foldl (HAS160.step X) (tup r) := by
  rw [fold80]
  refine (round_eq X t4 3 w4 _).trans ?_
  refine congrArg (List.foldl _ · _) ((round_eq X t3 2 w3 _).trans ?_)
  refine congrArg (List.foldl _ · _) ((round_eq X t2 1 w2 _).trans ?_)
  exact congrArg (List.foldl _ · _) (round_eq X t1 0 w1 _)

/-- the final additions -/
theorem feed_eq (h r : Vector W32 5) :
    tup #v[h[0] + r[0], h[1] + r[1], h[2] + r[2], h[3] + r[3], h[4] + r[4]]
      = ((tup h).1 + (tup r).1, (tup h).2.1 + (tup r).2.1, (tup h).2.2.1 + (tup r).2.2.1,
        (tup h).2.2.2.1 + (tup r).2.2.2.1, (tup h).2.2.2.2 + (tup r).2.2.2.2) := rfl

theorem rounds_ok (x : Block 64) (r : Vector W32 5) :
    tup (rounds (loadX x) r) = (List.range 80).foldl (HAS160.step (wordLE 32 x.toList)) (tup r) := by
  obtain ⟨x1, g1⟩ := extend_ok _ _ (loadX_ok x) 0 0 rfl (by decide)
  obtain ⟨x2, g2⟩ := extend_ok _ _ x1 1 20 rfl (by decide)
  obtain ⟨x3, g3⟩ := extend_ok _ _ x2 2 40 rfl (by decide)
  obtain ⟨x4, g4⟩ := extend_ok _ _ x3 3 60 rfl (by decide)
  unfold rounds
  exact rounds_eq _ _ _ _ _ (word_ok _ _ x1 0 g1) (word_ok _ _ x2 1 g2) (word_ok _ _ x3 2 g3)
    (word_ok _ _ x4 3 g4) r

theorem compress_eq (h : Vector W32 5) (x : Block 64) :
    tup (compress h x) = HAS160.compress (tup h) x.toList := by
  have key := rounds_ok x #v[h[0], h[1], h[2], h[3], h[4]]
  unfold compress
  refine (feed_eq h _).trans ?_
  rw [key, show tup #v[h[0], h[1], h[2], h[3], h[4]] = tup h from rfl]
  unfold HAS160.compress
  generalize (List.range 80).foldl _ _ = r
  rfl

theorem toArray_eq (h : Vector W32 5) :
    toArray h = .ok (bytesLE [(tup h).1, (tup h).2.1, (tup h).2.2.1, (tup h).2.2.2.1,
      (tup h).2.2.2.2]) := by
  unfold toArray
  rw [flatMap_storeLE (w := 32), resultArray_exact _ _ (by rw [bytesLE_length]; simp), vec5_toList]
  rfl

def refines : Refines HAS_160 (fun m => .ok (HAS160.has160 m)) :=
  (mdRefines (by decide) (by decide) 0x80 counterLE64_ok compress iv toArray).congr fun m => by
    rw [toArray_eq, mdFold_map (f := tup) compress_eq]
    rfl

end Verif.Proof.HAS160
