import Verif.Spec.Tiger

/-! An implementation of the Tiger S-box generation (Spec/Tiger.lean) on binary trees of natural
numbers that the kernel evaluates quickly, and the proof that it follows the specification. -/

namespace Verif.Proof.Tiger
open Spec

inductive Tree where
  | leaf (n : Nat)
  | node (l r : Tree)

namespace Tree

/-- entry `i`, least significant bit of the index first -/
noncomputable def get (t : Tree) : Nat → Nat :=
  Tree.rec (fun v _ => v) (fun _ _ gl gr i =>
    cond (Nat.beq (Nat.land i 1) 0) (gl (Nat.shiftRight i 1)) (gr (Nat.shiftRight i 1))) t

noncomputable def set (t : Tree) : Nat → Nat → Tree :=
  Tree.rec (fun _ _ v => .leaf v) (fun l r sl sr i v =>
    cond (Nat.beq (Nat.land i 1) 0) (.node (sl (Nat.shiftRight i 1) v) r)
      (.node l (sr (Nat.shiftRight i 1) v))) t

noncomputable def beq (t : Tree) : Tree → Bool :=
  Tree.rec (fun v u => Tree.rec (fun w => Nat.beq v w) (fun _ _ _ _ => false) u)
    (fun _ _ el er u => Tree.rec (fun _ => false) (fun l r _ _ => el l && er r) u) t

/-- all leaves at depth `d` -/
def Perfect : Nat → Tree → Prop
  | 0, .leaf _ => True
  | d + 1, .node l r => Perfect d l ∧ Perfect d r
  | _, _ => False

theorem get_node (l r : Tree) (i : Nat) :
    (node l r).get i = if i % 2 = 0 then l.get (i / 2) else r.get (i / 2) := by
  show cond (Nat.beq (i &&& 1) 0) (l.get (i >>> 1)) (r.get (i >>> 1)) = _
  rw [Nat.and_one_is_mod, Nat.shiftRight_eq_div_pow, Nat.pow_one]
  have h' : i % 2 = 0 ∨ i % 2 = 1 := by omega
  rcases h' with h | h <;> simp [h] <;> rfl

theorem set_node (l r : Tree) (i v : Nat) :
    (node l r).set i v = if i % 2 = 0 then node (l.set (i / 2) v) r else node l (r.set (i / 2) v) := by
  show cond (Nat.beq (i &&& 1) 0) (node (l.set (i >>> 1) v) r) (node l (r.set (i >>> 1) v)) = _
  rw [Nat.and_one_is_mod, Nat.shiftRight_eq_div_pow, Nat.pow_one]
  have h' : i % 2 = 0 ∨ i % 2 = 1 := by omega
  rcases h' with h | h <;> simp [h] <;> rfl

theorem perfect_set : ∀ (d : Nat) (t : Tree) (i v : Nat), Perfect d t → Perfect d (t.set i v)
  | 0, .leaf _, _, _, _ => trivial
  | 0, .node _ _, _, _, h => h.elim
  | _ + 1, .leaf _, _, _, h => h.elim
  | d + 1, .node l r, i, v, h => by
    rw [set_node]
    split
    · exact ⟨perfect_set d l _ _ h.1, h.2⟩
    · exact ⟨h.1, perfect_set d r _ _ h.2⟩

theorem get_set : ∀ (d : Nat) (t : Tree) (i j v : Nat), Perfect d t → i < 2 ^ d → j < 2 ^ d →
    (t.set i v).get j = if j = i then v else t.get j
  | 0, .leaf a, i, j, v, _, hi, hj => by
    have : j = i := by simp at hi hj; omega
    rw [if_pos this]; rfl
  | 0, .node _ _, _, _, _, h, _, _ => h.elim
  | _ + 1, .leaf _, _, _, _, h, _, _ => h.elim
  | d + 1, .node l r, i, j, v, h, hi, hj => by
    have hi' : i / 2 < 2 ^ d := by rw [Nat.pow_succ] at hi; omega
    have hj' : j / 2 < 2 ^ d := by rw [Nat.pow_succ] at hj; omega
    rw [set_node]
    by_cases ei : i % 2 = 0
    · rw [if_pos ei, get_node, get_node, get_set d l _ _ v h.1 hi' hj']
      by_cases ej : j % 2 = 0
      · have : (j / 2 = i / 2) ↔ (j = i) := by omega
        simp [ej, this]
      · have : j ≠ i := by omega
        simp [ej, this]
    · rw [if_neg ei, get_node, get_node, get_set d r _ _ v h.2 hi' hj']
      by_cases ej : j % 2 = 0
      · have : j ≠ i := by omega
        simp [ej, this]
      · have : (j / 2 = i / 2) ↔ (j = i) := by omega
        simp [ej, this]

theorem eq_of_beq : ∀ (t u : Tree), t.beq u = true → t = u
  | .leaf a, .leaf b, h => by
    have : a = b := Nat.eq_of_beq_eq_true h
    rw [this]
  | .leaf _, .node _ _, h => by cases h
  | .node _ _, .leaf _, h => by cases h
  | .node l r, .node l' r', h => by
    have h' : (l.beq l' && r.beq r') = true := h
    rw [Bool.and_eq_true] at h'
    rw [eq_of_beq l l' h'.1, eq_of_beq r r' h'.2]

noncomputable def perfectB (t : Tree) : Nat → Bool :=
  Tree.rec (fun _ d => Nat.beq d 0) (fun _ _ el er d => Nat.rec false (fun d _ => el d && er d) d) t

theorem perfect_of_perfectB : ∀ (t : Tree) (d : Nat), t.perfectB d = true → Perfect d t
  | .leaf _, 0, _ => trivial
  | .leaf _, _ + 1, h => by cases h
  | .node _ _, 0, h => by cases h
  | .node l r, d + 1, h => by
    have h' : (l.perfectB d && r.perfectB d) = true := h
    rw [Bool.and_eq_true] at h'
    exact ⟨perfect_of_perfectB l d h'.1, perfect_of_perfectB r d h'.2⟩

end Tree

/-! ## The generation on trees -/

structure St where
  (a b c : Nat)

structure G where
  (t0 t1 t2 t3 : Tree)
  (s : St)

def W : Nat := 18446744073709551616

/-- byte at bit position `n` -/
noncomputable def at' (c n : Nat) : Nat := Nat.land (Nat.shiftRight c n) 255

noncomputable def rnd (t0 t1 t2 t3 : Tree) (a b c x mul : Nat) : St :=
  let c := Nat.xor c x
  ⟨Nat.mod (Nat.mul (Nat.add b (Nat.xor (Nat.xor (Nat.xor (t3.get (at' c 8)) (t2.get (at' c 24)))
      (t1.get (at' c 40))) (t0.get (at' c 56)))) mul) W,
   c,
   Nat.mod (Nat.sub (Nat.add a W) (Nat.xor (Nat.xor (Nat.xor (t0.get (at' c 0)) (t1.get (at' c 16)))
      (t2.get (at' c 32))) (t3.get (at' c 48)))) W⟩

noncomputable def rounds (t0 t1 t2 t3 : Tree) (xs : List (Nat × Nat)) (s : St) : St :=
  List.rec (fun s => s) (fun p _ ih s => ih (St.rec (fun a b c => rnd t0 t1 t2 t3 a b c p.1 p.2) s)) xs s

noncomputable def comp (t0 t1 t2 t3 : Tree) (xs : List (Nat × Nat)) (s : St) : St :=
  let r := rounds t0 t1 t2 t3 xs s
  ⟨Nat.xor r.a s.a, Nat.mod (Nat.sub (Nat.add r.b W) s.b) W, Nat.mod (Nat.add r.c s.c) W⟩

/-- exchange byte `c` of entries `i` and `j` -/
noncomputable def swapB (t : Tree) (i j c : Nat) : Tree :=
  let d := Nat.land (Nat.xor (t.get i) (t.get j)) (Nat.shiftLeft 255 (Nat.mul 8 c))
  (t.set i (Nat.xor (t.get i) d)).set j (Nat.xor (t.get j) d)

noncomputable def swaps (t : Tree) (i w : Nat) : Tree :=
  List.rec t (fun c _ ih => swapB ih i (at' w (Nat.mul 8 c)) c) [7, 6, 5, 4, 3, 2, 1, 0]

noncomputable def pick (s : St) (n : Nat) : Nat :=
  match n with
  | 0 => s.a
  | 1 => s.b
  | _ => s.c

noncomputable def gstep (xs : List (Nat × Nat)) (g : G) (n : Nat) : G :=
  let s := cond (Nat.beq (Nat.mod n 3) 0) (comp g.t0 g.t1 g.t2 g.t3 xs g.s) g.s
  let w := pick s (Nat.mod n 3)
  let i := Nat.mod (Nat.div n 4) 256
  match Nat.mod n 4 with
  | 0 => ⟨swaps g.t0 i w, g.t1, g.t2, g.t3, s⟩
  | 1 => ⟨g.t0, swaps g.t1 i w, g.t2, g.t3, s⟩
  | 2 => ⟨g.t0, g.t1, swaps g.t2 i w, g.t3, s⟩
  | _ => ⟨g.t0, g.t1, g.t2, swaps g.t3 i w, s⟩

/-- `k` steps from step `n`; the comparisons make the kernel evaluate the state in each step -/
noncomputable def run (xs : List (Nat × Nat)) (k n : Nat) (g : G) : G :=
  Nat.rec (fun _ g => g) (fun _ ih n g =>
    G.rec (fun t0 t1 t2 t3 s =>
      cond (Nat.beq s.a s.a && Nat.beq s.b s.b && Nat.beq s.c s.c)
        (ih (Nat.succ n) ⟨t0, t1, t2, t3, s⟩) g) (gstep xs g n)) k n g

noncomputable def G.beq (g h : G) : Bool :=
  g.t0.beq h.t0 && g.t1.beq h.t1 && g.t2.beq h.t2 && g.t3.beq h.t3 &&
    Nat.beq g.s.a h.s.a && Nat.beq g.s.b h.s.b && Nat.beq g.s.c h.s.c

theorem G.eq_of_beq (g h : G) (e : g.beq h = true) : g = h := by
  obtain ⟨t0, t1, t2, t3, a, b, c⟩ := g
  obtain ⟨u0, u1, u2, u3, a', b', c'⟩ := h
  simp only [G.beq, Bool.and_eq_true] at e
  obtain ⟨⟨⟨⟨⟨⟨e0, e1⟩, e2⟩, e3⟩, ea⟩, eb⟩, ec⟩ := e
  rw [Tree.eq_of_beq _ _ e0, Tree.eq_of_beq _ _ e1, Tree.eq_of_beq _ _ e2, Tree.eq_of_beq _ _ e3,
    Nat.eq_of_beq_eq_true ea, Nat.eq_of_beq_eq_true eb, Nat.eq_of_beq_eq_true ec]

theorem run_zero (xs n g) : run xs 0 n g = g := rfl

theorem run_succ (xs k n g) : run xs (k + 1) n g = run xs k (n + 1) (gstep xs g n) := by
  show G.rec (motive := fun _ => G) (fun t0 t1 t2 t3 s =>
      cond (Nat.beq s.a s.a && Nat.beq s.b s.b && Nat.beq s.c s.c)
        (run xs k (Nat.succ n) ⟨t0, t1, t2, t3, s⟩) g) (gstep xs g n) = _
  cases gstep xs g n
  simp only [Nat.beq_refl]
  rfl

/-! ## It follows the specification -/

/-- the tree holds the S-box -/
def Rep (t : Tree) (f : Nat → Tiger.Word) : Prop :=
  t.Perfect 8 ∧ ∀ i < 256, t.get i = (f i).toNat

def RepSt (s : St) (q : Tiger.State) : Prop :=
  s.a = q.1.toNat ∧ s.b = q.2.1.toNat ∧ s.c = q.2.2.toNat

def RepG (g : G) (p : Tiger.SBox × Tiger.State) : Prop :=
  Rep g.t0 (p.1 0) ∧ Rep g.t1 (p.1 1) ∧ Rep g.t2 (p.1 2) ∧ Rep g.t3 (p.1 3) ∧ RepSt g.s p.2

theorem at_eq (c : Tiger.Word) (n : Nat) : at' c.toNat (8 * n) = Tiger.byte c n := by
  show (c.toNat >>> (8 * n)) &&& (2 ^ 8 - 1) = _
  rw [Nat.and_two_pow_sub_one_eq_mod, Nat.shiftRight_eq_div_pow, Nat.pow_mul]
  rfl

theorem byte_lt' (c : Tiger.Word) (n : Nat) : Tiger.byte c n < 256 := Nat.mod_lt _ (by decide)

theorem rnd_rep {t0 t1 t2 t3 : Tree} {S : Tiger.SBox} (h0 : Rep t0 (S 0)) (h1 : Rep t1 (S 1))
    (h2 : Rep t2 (S 2)) (h3 : Rep t3 (S 3)) {a b c : Nat} {q : Tiger.State}
    (ha : a = q.1.toNat) (hb : b = q.2.1.toNat) (hc : c = q.2.2.toNat) (x mul : Tiger.Word) :
    RepSt (rnd t0 t1 t2 t3 a b c x.toNat mul.toNat) (Tiger.round S q x mul) := by
  obtain ⟨qa, qb, qc⟩ := q
  simp only at ha hb hc
  subst ha hb hc
  have ex : Nat.xor qc.toNat x.toNat = (qc ^^^ x).toNat := (BitVec.toNat_xor _ _).symm
  unfold rnd Tiger.round RepSt
  simp only []
  rw [ex]
  generalize qc ^^^ x = c
  have g0 (n : Nat) : t0.get (at' c.toNat (8 * n)) = (S 0 (Tiger.byte c n)).toNat := by
    rw [at_eq]; exact h0.2 _ (byte_lt' _ _)
  have g1 (n : Nat) : t1.get (at' c.toNat (8 * n)) = (S 1 (Tiger.byte c n)).toNat := by
    rw [at_eq]; exact h1.2 _ (byte_lt' _ _)
  have g2 (n : Nat) : t2.get (at' c.toNat (8 * n)) = (S 2 (Tiger.byte c n)).toNat := by
    rw [at_eq]; exact h2.2 _ (byte_lt' _ _)
  have g3 (n : Nat) : t3.get (at' c.toNat (8 * n)) = (S 3 (Tiger.byte c n)).toNat := by
    rw [at_eq]; exact h3.2 _ (byte_lt' _ _)
  have x' (a b : Tiger.Word) : Nat.xor a.toNat b.toNat = (a ^^^ b).toNat := (BitVec.toNat_xor _ _).symm
  refine ⟨?_, rfl, ?_⟩
  · rw [g3 1, g2 3, g1 5, g0 7, x', x', x']
    generalize S 3 (Tiger.byte c 1) ^^^ S 2 (Tiger.byte c 3) ^^^ S 1 (Tiger.byte c 5) ^^^ S 0 (Tiger.byte c 7) = y
    rw [BitVec.toNat_mul, BitVec.toNat_add]
    show (qb.toNat + y.toNat) * mul.toNat % 2 ^ 64 = _
    rw [Nat.mod_mul_mod]
  · rw [g0 0, g1 2, g2 4, g3 6, x', x', x']
    generalize S 0 (Tiger.byte c 0) ^^^ S 1 (Tiger.byte c 2) ^^^ S 2 (Tiger.byte c 4) ^^^ S 3 (Tiger.byte c 6) = y
    rw [BitVec.toNat_sub]
    show (qa.toNat + 2 ^ 64 - y.toNat) % 2 ^ 64 = _
    have := y.isLt
    congr 1
    omega

theorem rounds_rep {t0 t1 t2 t3 : Tree} {S : Tiger.SBox} (h0 : Rep t0 (S 0)) (h1 : Rep t1 (S 1))
    (h2 : Rep t2 (S 2)) (h3 : Rep t3 (S 3)) (xs : List (Tiger.Word × Tiger.Word)) :
    ∀ (s : St) (q : Tiger.State), RepSt s q →
      RepSt (rounds t0 t1 t2 t3 (xs.map fun p => (p.1.toNat, p.2.toNat)) s)
        (xs.foldl (fun q p => Tiger.round S q p.1 p.2) q) := by
  induction xs with
  | nil => intro s q h; exact h
  | cons p xs ih =>
    intro s q h
    obtain ⟨a, b, c⟩ := s
    exact ih (rnd t0 t1 t2 t3 a b c p.1.toNat p.2.toNat) _ (rnd_rep h0 h1 h2 h3 h.1 h.2.1 h.2.2 _ _)

/-- the words and multipliers of the 24 rounds for the generator string -/
def specSched : List (Tiger.Word × Tiger.Word) :=
  let x := (List.range 8).map (wordLE 64 Tiger.genString)
  let y := Tiger.keySchedule x
  let z := Tiger.keySchedule y
  x.map (·, 5) ++ (y.map (·, 7) ++ z.map (·, 9))

theorem compress_sched (S : Tiger.SBox) (q : Tiger.State) :
    Tiger.compress S q Tiger.genString =
      let r := specSched.foldl (fun q p => Tiger.round S q p.1 p.2) q
      (r.1 ^^^ q.1, r.2.1 - q.2.1, r.2.2 + q.2.2) := by
  unfold specSched Tiger.compress
  simp only [List.foldl_append, List.foldl_map]
  rfl

theorem comp_rep {t0 t1 t2 t3 : Tree} {S : Tiger.SBox} (h0 : Rep t0 (S 0)) (h1 : Rep t1 (S 1))
    (h2 : Rep t2 (S 2)) (h3 : Rep t3 (S 3)) {xs : List (Nat × Nat)}
    (hxs : xs = specSched.map fun p => (p.1.toNat, p.2.toNat)) {s : St} {q : Tiger.State}
    (h : RepSt s q) : RepSt (comp t0 t1 t2 t3 xs s) (Tiger.compress S q Tiger.genString) := by
  rw [compress_sched, hxs]
  have hr := rounds_rep h0 h1 h2 h3 specSched s q h
  unfold comp
  simp only []
  generalize rounds t0 t1 t2 t3 _ s = r at hr
  generalize specSched.foldl (fun q p => Tiger.round S q p.1 p.2) q = r' at hr
  obtain ⟨ra, rb, rc⟩ := r
  obtain ⟨sa, sb, sc⟩ := s
  obtain ⟨ra', rb', rc'⟩ := r'
  obtain ⟨qa, qb, qc⟩ := q
  obtain ⟨e1, e2, e3⟩ := hr
  obtain ⟨f1, f2, f3⟩ := h
  simp only at e1 e2 e3 f1 f2 f3
  subst e1 e2 e3 f1 f2 f3
  refine ⟨(BitVec.toNat_xor _ _).symm, ?_, ?_⟩
  · show (rb'.toNat + 2 ^ 64 - qb.toNat) % 2 ^ 64 = (rb' - qb).toNat
    rw [BitVec.toNat_sub]
    have := qb.isLt
    congr 1
    omega
  · exact (BitVec.toNat_add _ _).symm

theorem withByte_xor (a b m : Tiger.Word) : (a &&& ~~~m) ||| (b &&& m) = a ^^^ ((a ^^^ b) &&& m) := by
  ext i hi
  simp only [BitVec.getElem_or, BitVec.getElem_and, BitVec.getElem_not, BitVec.getElem_xor]
  cases a[i] <;> cases b[i] <;> cases m[i] <;> rfl

theorem swapB_rep {t : Tree} {S : Tiger.SBox} {k : Nat} (h : Rep t (S k)) {i j c : Nat} (hi : i < 256)
    (hj : j < 256) (hc : c < 8) : Rep (swapB t i j c) (Tiger.swapByte S k i j c k) := by
  have hm : (255 * 256 ^ c) < 2 ^ 64 := by
    have : 256 ^ c ≤ 256 ^ 7 := Nat.pow_le_pow_right (by decide) (by omega)
    omega
  have em : Nat.shiftLeft 255 (Nat.mul 8 c) = (BitVec.ofNat 64 (255 * 256 ^ c)).toNat := by
    rw [BitVec.toNat_ofNat, Nat.mod_eq_of_lt hm]
    show 255 <<< (8 * c) = _
    rw [Nat.shiftLeft_eq, Nat.pow_mul]
  have x' (a b : Tiger.Word) : Nat.xor a.toNat b.toNat = (a ^^^ b).toNat := (BitVec.toNat_xor _ _).symm
  have a' (a b : Tiger.Word) : Nat.land a.toNat b.toNat = (a &&& b).toNat := (BitVec.toNat_and _ _).symm
  unfold swapB
  simp only [h.2 i hi, h.2 j hj, em, x', a']
  refine ⟨Tree.perfect_set _ _ _ _ (Tree.perfect_set _ _ _ _ h.1), fun e he => ?_⟩
  rw [Tree.get_set 8 _ _ _ _ (Tree.perfect_set _ _ _ _ h.1) hj he,
    Tree.get_set 8 _ _ _ _ h.1 hi he, h.2 e he]
  unfold Tiger.swapByte Tiger.withByte
  simp only [withByte_xor]
  rw [if_pos trivial]
  by_cases h1 : e = j
  · by_cases h2 : e = i
    · rw [if_pos h1, if_pos h2, ← h1, ← h2]
    · rw [if_pos h1, if_neg h2, if_pos h1, BitVec.xor_comm (S k i)]
  · by_cases h2 : e = i
    · rw [if_neg h1, if_pos h2, if_pos h2]
    · rw [if_neg h1, if_neg h2, if_neg h2, if_neg h1]

theorem swaps_rep {t : Tree} {S : Tiger.SBox} {k : Nat} (h : Rep t (S k)) {i : Nat} (hi : i < 256)
    (w : Tiger.Word) : Rep (swaps t i w.toNat)
      ((List.range 8).foldl (fun S c => Tiger.swapByte S k i (Tiger.byte w c) c) S k) := by
  have st {t : Tree} {S : Tiger.SBox} (h : Rep t (S k)) (c : Nat) (hc : c < 8) :
      Rep (swapB t i (at' w.toNat (Nat.mul 8 c)) c) (Tiger.swapByte S k i (Tiger.byte w c) c k) := by
    show Rep (swapB t i (at' w.toNat (8 * c)) c) _
    rw [at_eq]
    exact swapB_rep h hi (byte_lt' _ _) hc
  show Rep (swapB (swapB (swapB (swapB (swapB (swapB (swapB (swapB t i (at' w.toNat (Nat.mul 8 0)) 0)
    i (at' w.toNat (Nat.mul 8 1)) 1) i (at' w.toNat (Nat.mul 8 2)) 2) i (at' w.toNat (Nat.mul 8 3)) 3)
    i (at' w.toNat (Nat.mul 8 4)) 4) i (at' w.toNat (Nat.mul 8 5)) 5) i (at' w.toNat (Nat.mul 8 6)) 6)
    i (at' w.toNat (Nat.mul 8 7)) 7) _
  exact st (st (st (st (st (st (st (st h 0 (by decide)) 1 (by decide)) 2 (by decide)) 3 (by decide)) 4
    (by decide)) 5 (by decide)) 6 (by decide)) 7 (by decide)

theorem swap_other (S : Tiger.SBox) (k k' i : Nat) (hk : k' ≠ k) (w : Tiger.Word) (l : List Nat) :
    l.foldl (fun S c => Tiger.swapByte S k i (Tiger.byte w c) c) S k' = S k' := by
  induction l generalizing S with
  | nil => rfl
  | cons c l ih =>
    rw [List.foldl_cons, ih]
    funext e
    unfold Tiger.swapByte
    rw [if_neg hk]

theorem gstep_rep {xs : List (Nat × Nat)} (hxs : xs = specSched.map fun p => (p.1.toNat, p.2.toNat))
    {g : G} {p : Tiger.SBox × Tiger.State} (h : RepG g p) (n : Nat) :
    RepG (gstep xs g n) (Tiger.genStep p n) := by
  obtain ⟨h0, h1, h2, h3, hs⟩ := h
  have es : RepSt (cond (Nat.beq (Nat.mod n 3) 0) (comp g.t0 g.t1 g.t2 g.t3 xs g.s) g.s)
      (if n % 3 = 0 then Tiger.compress p.1 p.2 Tiger.genString else p.2) := by
    show RepSt (cond (Nat.beq (n % 3) 0) _ _) _
    by_cases h : n % 3 = 0
    · rw [if_pos h, h]
      exact comp_rep h0 h1 h2 h3 hxs hs
    · have : Nat.beq (n % 3) 0 = false := by
        cases e : Nat.beq (n % 3) 0
        · rfl
        · exact absurd (Nat.eq_of_beq_eq_true e) h
      rw [if_neg h, this]
      exact hs
  unfold gstep Tiger.genStep
  simp only []
  generalize (cond (Nat.beq (Nat.mod n 3) 0) (comp g.t0 g.t1 g.t2 g.t3 xs g.s) g.s) = s at es
  generalize (if n % 3 = 0 then Tiger.compress p.1 p.2 Tiger.genString else p.2) = q at es
  have ew : pick s (Nat.mod n 3)
      = (if n % 3 = 0 then q.1 else if n % 3 = 1 then q.2.1 else q.2.2).toNat := by
    show pick s (n % 3) = _
    have : n % 3 < 3 := Nat.mod_lt _ (by decide)
    generalize n % 3 = r at this
    match r, this with
    | 0, _ => exact es.1
    | 1, _ => exact es.2.1
    | 2, _ => exact es.2.2
  rw [ew]
  generalize (if n % 3 = 0 then q.1 else if n % 3 = 1 then q.2.1 else q.2.2) = w
  show RepG (match n % 4 with
    | 0 => (⟨swaps g.t0 (n / 4 % 256) w.toNat, g.t1, g.t2, g.t3, s⟩ : G)
    | 1 => ⟨g.t0, swaps g.t1 (n / 4 % 256) w.toNat, g.t2, g.t3, s⟩
    | 2 => ⟨g.t0, g.t1, swaps g.t2 (n / 4 % 256) w.toNat, g.t3, s⟩
    | _ => ⟨g.t0, g.t1, g.t2, swaps g.t3 (n / 4 % 256) w.toNat, s⟩) _
  have hi : n / 4 % 256 < 256 := Nat.mod_lt _ (by decide)
  have : n % 4 < 4 := Nat.mod_lt _ (by decide)
  generalize n / 4 % 256 = i at hi
  generalize n % 4 = k at this
  match k, this with
  | 0, _ =>
    refine ⟨swaps_rep h0 hi w, ?_, ?_, ?_, es⟩ <;>
      (dsimp only; rw [swap_other] <;> first | assumption | decide)
  | 1, _ =>
    refine ⟨?_, swaps_rep h1 hi w, ?_, ?_, es⟩ <;>
      (dsimp only; rw [swap_other] <;> first | assumption | decide)
  | 2, _ =>
    refine ⟨?_, ?_, swaps_rep h2 hi w, ?_, es⟩ <;>
      (dsimp only; rw [swap_other] <;> first | assumption | decide)
  | 3, _ =>
    refine ⟨?_, ?_, ?_, swaps_rep h3 hi w, es⟩ <;>
      (dsimp only; rw [swap_other] <;> first | assumption | decide)

theorem run_rep {xs : List (Nat × Nat)} (hxs : xs = specSched.map fun p => (p.1.toNat, p.2.toNat))
    (k : Nat) : ∀ (n : Nat) (g : G) (p : Tiger.SBox × Tiger.State), RepG g p →
      RepG (run xs k n g) ((List.range' n k).foldl Tiger.genStep p) := by
  induction k with
  | zero => intro n g p h; exact h
  | succ k ih =>
    intro n g p h
    rw [run_succ, List.range'_succ, List.foldl_cons]
    exact ih _ _ _ (gstep_rep hxs h n)

end Verif.Proof.Tiger
