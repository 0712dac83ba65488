import Verif.Model.HASV
import Verif.Spec.HASV
import Verif.Proof.Regs

/-! The HAS-V-320 model, with either of the two forms of its block function, computes `Spec.HASV`. -/

namespace Verif.Proof.HASV
open Model.HASV Spec

/-! ### The word tables -/

/-- The first sixteen entries hold the message words. -/
def HasX (X : Nat → W32) (xt : Vector W32 20) : Prop := ∀ j (h : j < 16), xt[j] = X j

theorem load_ok (m : Block 128) (o : Nat) (ho : o + 16 ≤ 32) :
    HasX (fun i => wordLE 32 m.toList (o + i))
      (forRange 0 16 (Vector.replicate 20 0) fun i _ hi t => t.set i (loadLE32 m (o + i))) := by
  have h1 := forRange_inv (lo := 0) (hi := 16) (by decide)
    (init := (Vector.replicate 20 (0 : W32)))
    (body := fun i _ h w => w.set i (loadLE32 m (o + i)))
    (fun t w => ∀ j (_ : j < t) (hj : j < 20), w[j] = wordLE 32 m.toList (o + j))
    (by intro j hj; omega)
    (by
      intro t _ h2 s hP j hj hj2
      rw [Vector.getElem_set]
      split
      · subst_vars
        rw [loadLE32_eq]
      · exact hP j (by omega) hj2)
  intro j hj
  exact h1 j hj (by omega)

/-- position in a row of `mTable` of the `i`-th message word of a round -/
def pos (i : Fin 16) : Nat := i + i / 4 + 1

theorem mTable_word : ∀ (k : Fin 5) (i : Fin 16),
    (mTable[20 * k.val + pos i]'(by simp only [pos]; omega)).val = HASV.order k i := by
  decide +kernel

theorem lut_word : ∀ (k : Fin 5) (i : Fin 16),
    (lut[16 * k.val + i.val]'(by omega)).val = HASV.order k i := by decide +kernel

theorem order_lt : ∀ (k : Fin 5) (i : Fin 16), HASV.order k i < 16 := by decide +kernel

theorem mTable_extra : ∀ (k : Fin 5) (g : Fin 4),
    (mTable[20 * k.val + 5 * g.val]'(by omega)).val = 16 + [2, 3, 0, 1].getD g 0 := by
  decide +kernel

theorem extend_ok (X : Nat → W32) (t : Vector W32 20) (hx : HasX X t) (k : Fin 5) :
    HasX X (extend k t) ∧ ∀ g : Fin 4, (extend k t)[16 + g.val] = HASV.extra X k g := by
  have keep (w : Vector W32 20) (hw : HasX X w) (g : Nat) (hg : 16 ≤ g) (hg2 : g < 20) (v : W32) :
      HasX X (w.set g v) := by
    intro j hj
    rw [Vector.getElem_set, if_neg (by omega)]
    exact hw j hj
  have get (w : Vector W32 20) (hw : HasX X w) (i : Fin 16) :
      w[(lut[16 * k.val + i.val]'(by omega))] = X (HASV.order k i) := by
    have h := lut_word k i
    rw [Fin.getElem_fin]
    simp only [h]
    exact hw _ (order_lt k i)
  have grp (w : Vector W32 20) (hw : HasX X w) (a b c d : Fin 16) (g : Nat) (ha : a.val = 4 * g) (hb : b.val = 4 * g + 1)
      (hc : c.val = 4 * g + 2) (hd : d.val = 4 * g + 3) :
      w[(lut[16 * k.val + a.val]'(by omega))] ^^^ w[(lut[16 * k.val + b.val]'(by omega))] ^^^
        w[(lut[16 * k.val + c.val]'(by omega))] ^^^ w[(lut[16 * k.val + d.val]'(by omega))] = HASV.extra X k g := by
    unfold HASV.extra
    rw [get w hw a, get w hw b, get w hw c, get w hw d, ha, hb, hc, hd]
  unfold extend
  simp only []
  rw [grp t hx 0 1 2 3 0 rfl rfl rfl rfl]
  have e1 := keep _ hx 16 (by decide) (by decide) (HASV.extra X k 0)
  generalize h1 : t.set 16 (HASV.extra X k 0) = x1 at *
  rw [grp x1 e1 4 5 6 7 1 rfl rfl rfl rfl]
  have e2 := keep _ e1 17 (by decide) (by decide) (HASV.extra X k 1)
  generalize h2 : x1.set 17 (HASV.extra X k 1) = x2 at *
  rw [grp x2 e2 8 9 10 11 2 rfl rfl rfl rfl]
  have e3 := keep _ e2 18 (by decide) (by decide) (HASV.extra X k 2)
  generalize h3 : x2.set 18 (HASV.extra X k 2) = x3 at *
  rw [grp x3 e3 12 13 14 15 3 rfl rfl rfl rfl]
  refine ⟨keep _ e3 19 (by decide) (by decide) _, ?_⟩
  intro g
  match g with
  | ⟨0, _⟩ => simp [← h3, ← h2, ← h1]
  | ⟨1, _⟩ => simp [← h3, ← h2]
  | ⟨2, _⟩ => simp [← h3]
  | ⟨3, _⟩ => simp

/-- The table supplies the words of round `k`. -/
def Words (X : Nat → W32) (k : Fin 5) (t : Vector W32 20) : Prop :=
  ∀ i : Fin 20, t[mTable[20 * k.val + i.val]] = HASV.word X k i

theorem word_ok (X : Nat → W32) (t : Vector W32 20) (hx : HasX X t) (k : Fin 5)
    (he : ∀ g : Fin 4, t[16 + g.val] = HASV.extra X k g) : Words X k t := by
  intro i
  unfold HASV.word
  by_cases h : i.val % 5 = 0
  · rw [if_pos h]
    have hg : i.val / 5 < 4 := by omega
    have h1 := mTable_extra k ⟨i.val / 5, hg⟩
    simp only [show 5 * (i.val / 5) = i.val by omega] at h1
    have hlt : [2, 3, 0, 1].getD (i.val / 5) 0 < 4 := by
      have : ∀ g : Fin 4, [2, 3, 0, 1].getD g.val 0 < 4 := by decide
      exact this ⟨_, hg⟩
    rw [Fin.getElem_fin]
    simp only [h1]
    exact he ⟨_, hlt⟩
  · rw [if_neg h]
    have hp : 20 * k.val + i.val = 20 * k.val + pos ⟨i.val - i.val / 5 - 1, by omega⟩ := by
      simp only [pos]; omega
    have h1 := mTable_word k ⟨i.val - i.val / 5 - 1, by omega⟩
    simp only [← hp] at h1
    rw [Fin.getElem_fin]
    simp only [h1]
    exact hx _ (order_lt k ⟨i.val - i.val / 5 - 1, by omega⟩)

/-! ### One segment: an `extendTable` and twenty steps on one line -/

/-- number of the first variable of the left or right line -/
def off (hi : Bool) : Nat := if hi then 5 else 0

theorem off_le (hi : Bool) : off hi ≤ 5 := by cases hi <;> decide

/-- The statement for step `i` of round `k` on the line `hi` with the table `y`. -/
def gen (y hi : Bool) (n : Fin 5) (K : W32) (k : Fin 5) (i : Fin 20) : Stmt :=
  have := off_le hi
  .line y ⟨off hi + (4 * i.val) % 5, by omega⟩ ⟨off hi + (1 + 4 * i.val) % 5, by omega⟩
    ⟨off hi + (2 + 4 * i.val) % 5, by omega⟩ ⟨off hi + (3 + 4 * i.val) % 5, by omega⟩
    ⟨off hi + (4 + 4 * i.val) % 5, by omega⟩ n K ⟨20 * k.val + i.val, by omega⟩

def seg (y hi : Bool) (n : Fin 5) (K : W32) (k : Fin 5) : List Stmt :=
  .extend y k :: (List.finRange 20).map (gen y hi n K k)

/-- The compiled statements: five rounds of a segment on the left line, one on the right line and an exchange. -/
theorem active_eq : active =
    seg false false 0 0x00000000 0 ++ seg true true 4 0xA953FD4E 0 ++ [.swap] ++
    seg false false 1 0x5A827999 1 ++ seg true true 3 0x8F1BBCDC 1 ++ [.swap] ++
    seg false false 2 0x6ED9EBA1 2 ++ seg true true 2 0x00000000 2 ++ [.swap] ++
    seg false false 3 0x8F1BBCDC 3 ++ seg true true 1 0x5A827999 3 ++ [.swap] ++
    seg false false 4 0xA953FD4E 4 ++ seg true true 0 0x6ED9EBA1 4 ++ [.swap] := by
  decide +kernel

/-- The disabled statements follow one line through all rounds, then the other. -/
theorem disabled_eq : disabled =
    seg false false 0 0x00000000 0 ++ seg true false 3 0x8F1BBCDC 1 ++ seg false false 2 0x6ED9EBA1 2 ++
    seg true false 1 0x5A827999 3 ++ seg false false 4 0xA953FD4E 4 ++
    seg true true 4 0xA953FD4E 0 ++ seg false true 1 0x5A827999 1 ++ seg true true 2 0x00000000 2 ++
    seg false true 3 0x8F1BBCDC 3 ++ seg true true 0 0x6ED9EBA1 4 := by
  decide +kernel

theorem fn_eq (n : Fin 5) (x y z u : W32) : fn n x y z u = HASV.f n x y z u := by
  match n with
  | 0 => rfl
  | 1 => rfl
  | 2 => rfl
  | 3 => rfl
  | 4 =>
    show (x &&& z) ^^^ (~~~x &&& y) ^^^ (z &&& u) ^^^ (y &&& u) = _
    rfl

theorem sTable_eq : ∀ i : Fin 20, sTable[i] = HASV.s i := by decide +kernel
theorem s_lt : ∀ i : Fin 20, HASV.s i < 32 := by decide

/-- The line `hi` as seen after `t` steps. -/
def view (hi : Bool) (t : Nat) (r : Vector W32 10) : HASV.Line :=
  have := off_le hi
  (r[off hi + (4 * t) % 5]'(by omega), r[off hi + (1 + 4 * t) % 5]'(by omega),
    r[off hi + (2 + 4 * t) % 5]'(by omega), r[off hi + (3 + 4 * t) % 5]'(by omega),
    r[off hi + (4 + 4 * t) % 5]'(by omega))

theorem view_set (hi : Bool) (t : Nat) (r : Vector W32 10) (e b : W32)
    (h1 : off hi + (4 + 4 * t) % 5 < 10) (h2 : off hi + (1 + 4 * t) % 5 < 10) :
    view hi (t + 1) ((r.set (off hi + (4 + 4 * t) % 5) e h1).set (off hi + (1 + 4 * t) % 5) b h2)
      = (e, (view hi t r).1, b, (view hi t r).2.2.1, (view hi t r).2.2.2.1) := by
  simp only [view, Vector.getElem_set, Prod.mk.injEq]
  refine ⟨?_, ?_, ?_, ?_, ?_⟩
  · rw [if_neg (by omega), if_pos (by omega)]
  · rw [if_neg (by omega), if_neg (by omega)]; congr 1; omega
  · rw [if_pos (by omega)]
  · rw [if_neg (by omega), if_neg (by omega)]; congr 1; omega
  · rw [if_neg (by omega), if_neg (by omega)]; congr 1; omega

theorem view_other (hi : Bool) (t u : Nat) (r : Vector W32 10) (e b : W32)
    (h1 : off hi + (4 + 4 * t) % 5 < 10) (h2 : off hi + (1 + 4 * t) % 5 < 10) :
    view (!hi) u ((r.set (off hi + (4 + 4 * t) % 5) e h1).set (off hi + (1 + 4 * t) % 5) b h2)
      = view (!hi) u r := by
  cases hi <;>
  · simp only [view, Vector.getElem_set, Prod.mk.injEq, off]
    refine ⟨?_, ?_, ?_, ?_, ?_⟩ <;> rw [if_neg (by simp; omega), if_neg (by simp; omega)]

/-- the table that a line uses -/
def tab (y : Bool) (s : Vars) : Vector W32 20 := if y then s.y else s.x

theorem exec_line (y hi : Bool) (X : Nat → W32) (n : Fin 5) (K : W32) (k : Fin 5) (i : Fin 20) (s : Vars)
    (hw : Words X k (tab y s)) :
    (exec s (gen y hi n K k i)).x = s.x ∧ (exec s (gen y hi n K k i)).y = s.y ∧
    view hi (i.val + 1) (exec s (gen y hi n K k i)).r = HASV.step X k n K (view hi i.val s.r) i ∧
    view (!hi) 0 (exec s (gen y hi n K k i)).r = view (!hi) 0 s.r := by
  have ho := off_le hi
  have hb (r : Vector W32 10) (e : W32) (h1 h2) :
      (r.set (off hi + (4 + 4 * i.val) % 5) e h1)[off hi + (1 + 4 * i.val) % 5]'h2
      = r[off hi + (1 + 4 * i.val) % 5]'h2 := by
    rw [Vector.getElem_set, if_neg (by omega)]
  have hwi := hw i
  rw [Fin.getElem_fin] at hwi
  have hs := sTable_eq i
  have hm : (20 * k.val + i.val) % 20 = i.val := by omega
  rw [Fin.getElem_fin] at hs
  cases y <;>
  · simp only [tab, Bool.false_eq_true, if_true, if_false] at hwi
    refine ⟨rfl, rfl, ?_, ?_⟩
    · unfold HASV.step
      simp only [exec, gen, line, Fin.getElem_fin, hb, hwi, hm, hs, rotl_eq _ _ (s_lt i), fn_eq,
        rotl_eq (w := 32) _ 30 (by decide), view_set]
      rfl
    · simp only [exec, gen, line, Fin.getElem_fin, view_other]

/-- The state of the variables: the two tables hold the message words, the two lines have the given values. -/
structure St (X Y : Nat → W32) (s : Vars) (p q : HASV.Line) : Prop where
  x : HasX X s.x
  y : HasX Y s.y
  p : view false 0 s.r = p
  q : view true 0 s.r = q

theorem exec_extend (y : Bool) (X Y : Nat → W32) (s : Vars) (hx : HasX X s.x) (hy : HasX Y s.y) (k : Fin 5) :
    HasX X (exec s (.extend y k)).x ∧ HasX Y (exec s (.extend y k)).y ∧ (exec s (.extend y k)).r = s.r ∧
      Words (if y then Y else X) k (tab y (exec s (.extend y k))) := by
  cases y
  · obtain ⟨h1, h2⟩ := extend_ok X s.x hx k
    exact ⟨h1, hy, rfl, word_ok _ _ h1 k h2⟩
  · obtain ⟨h1, h2⟩ := extend_ok Y s.y hy k
    exact ⟨hx, h1, rfl, word_ok _ _ h1 k h2⟩

theorem seg_view (y hi : Bool) (X Y : Nat → W32) (n : Fin 5) (K : W32) (k : Fin 5) (s : Vars)
    (hx : HasX X s.x) (hy : HasX Y s.y) :
    HasX X ((seg y hi n K k).foldl exec s).x ∧ HasX Y ((seg y hi n K k).foldl exec s).y ∧
    view hi 0 ((seg y hi n K k).foldl exec s).r
      = HASV.line (if y then Y else X) k n K (view hi 0 s.r) ∧
    view (!hi) 0 ((seg y hi n K k).foldl exec s).r = view (!hi) 0 s.r := by
  obtain ⟨h1, h2, h3, h4⟩ := exec_extend y X Y s hx hy k
  unfold seg
  rw [List.foldl_cons]
  generalize exec s (.extend y k) = s0 at h1 h2 h3 h4 ⊢
  have key := foldl_inv ((List.finRange 20).map (gen y hi n K k)) exec s0
    (fun t w => w.x = s0.x ∧ w.y = s0.y ∧
      view hi t w.r = (List.range t).foldl (HASV.step (if y then Y else X) k n K) (view hi 0 s0.r) ∧
      view (!hi) 0 w.r = view (!hi) 0 s0.r)
    ⟨rfl, rfl, rfl, rfl⟩
    (by
      intro t ht w ⟨wx, wy, wv, wo⟩
      have ht' : t < 20 := by simpa using ht
      have e : ((List.finRange 20).map (gen y hi n K k))[t]'ht = gen y hi n K k ⟨t, ht'⟩ := by
        rw [List.getElem_map, List.getElem_finRange]; rfl
      have hw : Words (if y then Y else X) k (tab y w) := by
        have : tab y w = tab y s0 := by unfold tab; rw [wx, wy]
        rw [this]; exact h4
      obtain ⟨g1, g2, g3, g4⟩ := exec_line y hi _ n K k ⟨t, ht'⟩ w hw
      rw [e, foldl_range_succ, ← wv]
      exact ⟨g1.trans wx, g2.trans wy, g3, g4.trans wo⟩)
  simp only [List.length_map, List.length_finRange] at key
  obtain ⟨k1, k2, k3, k4⟩ := key
  rw [k1, k2, k4, h3]
  refine ⟨h1, h2, ?_, rfl⟩
  rw [h3] at k3
  refine Eq.trans ?_ k3
  rfl

theorem seg_left (y : Bool) {X Y : Nat → W32} (n : Fin 5) (K : W32) (k : Fin 5) {s : Vars} {p q : HASV.Line}
    (h : St X Y s p q) :
    St X Y ((seg y false n K k).foldl exec s) (HASV.line (if y then Y else X) k n K p) q := by
  obtain ⟨h1, h2, h3, h4⟩ := seg_view y false X Y n K k s h.x h.y
  exact ⟨h1, h2, h3.trans (by rw [h.p]), h4.trans h.q⟩

theorem seg_right (y : Bool) {X Y : Nat → W32} (n : Fin 5) (K : W32) (k : Fin 5) {s : Vars} {p q : HASV.Line}
    (h : St X Y s p q) :
    St X Y ((seg y true n K k).foldl exec s) p (HASV.line (if y then Y else X) k n K q) := by
  obtain ⟨h1, h2, h3, h4⟩ := seg_view y true X Y n K k s h.x h.y
  exact ⟨h1, h2, h4.trans h.p, h3.trans (by rw [h.q])⟩

theorem swap_st {X Y : Nat → W32} {s : Vars} {p q : HASV.Line} (h : St X Y s p q) :
    St X Y ([Stmt.swap].foldl exec s) q p := ⟨h.x, h.y, h.q, h.p⟩

/-! ### The block function -/

attribute [local irreducible] active disabled exec HASV.line

/-- the ten chaining words as two lines -/
def tup (h : Vector W32 10) : HASV.Line × HASV.Line := (view false 0 h, view true 0 h)

theorem start_st (h : Vector W32 10) (m : Block 128) :
    St (wordLE 32 m.toList) (fun i => wordLE 32 m.toList (16 + i)) (start h m) (tup h).1 (tup h).2 := by
  refine ⟨?_, load_ok m 16 (by decide), rfl, rfl⟩
  have := load_ok m 0 (by decide)
  simp only [Nat.zero_add] at this
  simpa only [start, Nat.zero_add] using this

theorem fold5 {σ : Type} (f : σ → Nat → σ) (s : σ) :
    (List.range 5).foldl f s = f (f (f (f (f s 0) 1) 2) 3) 4 := rfl

/-- the left line after five rounds without exchanges, that is, the line that ends on the right … -/
theorem fold5_snd (X Y : Nat → W32) (p q : HASV.Line) :
    ((List.range 5).foldl (HASV.round X Y) (p, q)).2 =
      HASV.line X 4 4 0xA953FD4E (HASV.line Y 3 1 0x5A827999 (HASV.line X 2 2 0x6ED9EBA1
        (HASV.line Y 1 3 0x8F1BBCDC (HASV.line X 0 0 0x00000000 p)))) := by
  rw [fold5]
  simp only [HASV.round]
  rfl

/-- … and the other -/
theorem fold5_fst (X Y : Nat → W32) (p q : HASV.Line) :
    ((List.range 5).foldl (HASV.round X Y) (p, q)).1 =
      HASV.line Y 4 0 0x6ED9EBA1 (HASV.line X 3 3 0x8F1BBCDC (HASV.line Y 2 2 0x00000000
        (HASV.line X 1 1 0x5A827999 (HASV.line Y 0 4 0xA953FD4E q)))) := by
  rw [fold5]
  simp only [HASV.round]
  rfl

theorem active_st {X Y : Nat → W32} {s : Vars} {p q : HASV.Line} (h : St X Y s p q) :
    St X Y (active.foldl exec s) ((List.range 5).foldl (HASV.round X Y) (p, q)).1
      ((List.range 5).foldl (HASV.round X Y) (p, q)).2 := by
  have h1 := swap_st (seg_right true 4 0xA953FD4E 0 (seg_left false 0 0x00000000 0 h))
  have h2 := swap_st (seg_right true 3 0x8F1BBCDC 1 (seg_left false 1 0x5A827999 1 h1))
  have h3 := swap_st (seg_right true 2 0x00000000 2 (seg_left false 2 0x6ED9EBA1 2 h2))
  have h4 := swap_st (seg_right true 1 0x5A827999 3 (seg_left false 3 0x8F1BBCDC 3 h3))
  have h5 := swap_st (seg_right true 0 0x6ED9EBA1 4 (seg_left false 4 0xA953FD4E 4 h4))
  rw [active_eq, fold5_fst, fold5_snd]
  simp only [List.foldl_append]
  simp only [Bool.false_eq_true, if_true, if_false] at h5
  exact h5

theorem disabled_st {X Y : Nat → W32} {s : Vars} {p q : HASV.Line} (h : St X Y s p q) :
    St X Y (disabled.foldl exec s) ((List.range 5).foldl (HASV.round X Y) (p, q)).2
      ((List.range 5).foldl (HASV.round X Y) (p, q)).1 := by
  have h1 := seg_left true 3 0x8F1BBCDC 1 (seg_left false 0 0x00000000 0 h)
  have h2 := seg_left true 1 0x5A827999 3 (seg_left false 2 0x6ED9EBA1 2 h1)
  have h3 := seg_right true 4 0xA953FD4E 0 (seg_left false 4 0xA953FD4E 4 h2)
  have h4 := seg_right true 2 0x00000000 2 (seg_right false 1 0x5A827999 1 h3)
  have h5 := seg_right true 0 0x6ED9EBA1 4 (seg_right false 3 0x8F1BBCDC 3 h4)
  rw [disabled_eq, fold5_fst, fold5_snd]
  simp only [List.foldl_append]
  simp only [Bool.false_eq_true, if_true, if_false] at h5
  exact h5

theorem feed_eq (h r : Vector W32 10) :
    tup (feed h r) = (HASV.addLine (tup h).1 (view false 0 r), HASV.addLine (tup h).2 (view true 0 r)) := rfl

theorem feedDisabled_eq (h r : Vector W32 10) :
    tup (feedDisabled h r) = (HASV.addLine (tup h).1 (view true 0 r), HASV.addLine (tup h).2 (view false 0 r)) := rfl

theorem compress_eq (h : Vector W32 10) (m : Block 128) :
    tup (compress h m) = HASV.compress (tup h) m.toList := by
  have k := active_st (start_st h m)
  unfold compress HASV.compress
  rw [feed_eq, k.p, k.q]

theorem compressDisabled_eq (h : Vector W32 10) (m : Block 128) :
    tup (compressDisabled h m) = HASV.compress (tup h) m.toList := by
  have k := disabled_st (start_st h m)
  unfold compressDisabled HASV.compress
  rw [feedDisabled_eq, k.p, k.q]

theorem tup_inj {a b : Vector W32 10} (h : tup a = tup b) : a = b := by
  simp only [tup, view, off, Prod.mk.injEq] at h
  obtain ⟨⟨h0, h1, h2, h3, h4⟩, h5, h6, h7, h8, h9⟩ := h
  apply Vector.ext
  intro i hi
  match i, hi with
  | 0, _ => exact h0
  | 1, _ => exact h1
  | 2, _ => exact h2
  | 3, _ => exact h3
  | 4, _ => exact h4
  | 5, _ => exact h5
  | 6, _ => exact h6
  | 7, _ => exact h7
  | 8, _ => exact h8
  | 9, _ => exact h9

theorem same_block (h : Vector W32 10) (m : Block 128) : compressDisabled h m = compress h m :=
  tup_inj ((compressDisabled_eq h m).trans (compress_eq h m).symm)

/-! ### The class -/

theorem writes_ok : LenWritesOK 9 counter.writes (fun c => 40 :: toLE 8 (c * 8).toNat) := by
  constructor
  · intro s c hs w hw
    rcases List.mem_cons.1 hw with h | h
    · subst h; simp only []; omega
    · exact lenWritesLE64_ok.bound s c (by omega) w h
  · intro l c
    have := lenWritesLE64_ok.value (l ++ [40]) c
    simp only [List.length_append, List.length_singleton, List.append_assoc, List.singleton_append] at this
    rw [← this]
    have e : counter.writes (l.length + 9) c = (l.length, 40) :: lenWritesLE64 (l.length + 1 + 8) (c * 8) := by
      show (l.length + 9 - 9, 40) :: lenWritesLE64 (l.length + 9) (c * 8) = _
      rw [show l.length + 9 - 9 = l.length by omega, show l.length + 9 = l.length + 1 + 8 by omega]
    rw [e, List.foldl_cons, List.replicate_succ]
    simp

def counter_ok : CounterOK counter 9 (fun n => 40 :: toLE 8 (8 * n)) where
  val := BitVec.ofNat 64
  val0 := rfl
  act := cntAct64
  fieldC := fun c => 40 :: toLE 8 (c * 8).toNat
  writes := writes_ok
  len := fun _ => by simp [toLE_length]
  field_eq := fun n => by rw [mul8_64, toLE_mod]

theorem toArray_eq (h : Vector W32 10) :
    toArray h = .ok (bytesLE [(tup h).1.1, (tup h).1.2.1, (tup h).1.2.2.1, (tup h).1.2.2.2.1, (tup h).1.2.2.2.2,
      (tup h).2.1, (tup h).2.2.1, (tup h).2.2.2.1, (tup h).2.2.2.2.1, (tup h).2.2.2.2.2]) := by
  unfold toArray
  rw [flatMap_storeLE (w := 32), resultArray_exact _ _ (by rw [bytesLE_length]; simp)]
  congr 2
  apply List.ext_getElem
  · simp
  · intro i h1 h2
    have : i < 10 := by simpa using h2
    match i, this with
    | 0, _ => simp; rfl
    | 1, _ => simp; rfl
    | 2, _ => simp; rfl
    | 3, _ => simp; rfl
    | 4, _ => simp; rfl
    | 5, _ => simp; rfl
    | 6, _ => simp; rfl
    | 7, _ => simp; rfl
    | 8, _ => simp; rfl
    | 9, _ => simp; rfl

theorem pad_eq (m : List Byte) : padded 128 9 (1 <<< 7) (fun n => 40 :: toLE 8 (8 * n)) m = HASV.pad m := by
  unfold padded HASV.pad
  simp [List.append_assoc]

def refines : Refines HAS_V_320 (fun m => .ok (HASV.hasv320 m)) :=
  (mdRefines (by decide) (by decide) (1 <<< 7) counter_ok compress iv toArray).congr fun m => by
    rw [toArray_eq, mdFold_map (f := tup) compress_eq, pad_eq]
    rfl

def refines_disabled : Refines HAS_V_320_disabled (fun m => .ok (HASV.hasv320 m)) :=
  (mdRefines (by decide) (by decide) (1 <<< 7) counter_ok compressDisabled iv toArray).congr fun m => by
    rw [toArray_eq, mdFold_map (f := tup) compressDisabled_eq, pad_eq]
    rfl

end Verif.Proof.HASV
