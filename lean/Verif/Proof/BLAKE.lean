import Verif.Model.BLAKE
import Verif.Spec.BLAKE
import Verif.Proof.Block
import Verif.Proof.Regs

/-! The BLAKE classes refine the BLAKE specification up to the rule for the counter. -/

namespace Verif.Proof.BLAKE
open Verif.Spec Verif.Model.BLAKE

variable {w B : Nat} {C : Type}

/-- Four different positions. -/
def Distinct (q : Fin 16 × Fin 16 × Fin 16 × Fin 16) : Prop :=
  q.1 ≠ q.2.1 ∧ q.1 ≠ q.2.2.1 ∧ q.1 ≠ q.2.2.2 ∧ q.2.1 ≠ q.2.2.1 ∧ q.2.1 ≠ q.2.2.2 ∧ q.2.2.1 ≠ q.2.2.2

instance (q : Fin 16 × Fin 16 × Fin 16 × Fin 16) : Decidable (Distinct q) := by
  unfold Distinct; infer_instance

/-- The eight assignments of the macro, for arbitrary inputs. -/
def mixAt (v : Vector (BitVec w) 16) (a b c d : Fin 16) (x y : BitVec w) (r1 r2 r3 r4 : Nat) :
    Vector (BitVec w) 16 :=
  let v := v.set a (v[a] + v[b] + x)
  let v := v.set d (rotr (v[d] ^^^ v[a]) r1)
  let v := v.set c (v[c] + v[d])
  let v := v.set b (rotr (v[b] ^^^ v[c]) r2)
  let v := v.set a (v[a] + v[b] + y)
  let v := v.set d (rotr (v[d] ^^^ v[a]) r3)
  let v := v.set c (v[c] + v[d])
  v.set b (rotr (v[b] ^^^ v[c]) r4)

/-- `v` with the four positions overwritten. -/
def put {α : Type} (v : Vector α 16) (a b c d : Fin 16) (A B C D : α) : Vector α 16 :=
  (((v.set a A).set b B).set c C).set d D

section
variable {α : Type} (v : Vector α 16) {a b c d : Fin 16} (h : Distinct (a, b, c, d)) (A B C D X : α)
include h

theorem ne6 : (a : Nat) ≠ b ∧ (a : Nat) ≠ c ∧ (a : Nat) ≠ d ∧ (b : Nat) ≠ c ∧ (b : Nat) ≠ d ∧ (c : Nat) ≠ d := by
  simpa [Distinct, Fin.ext_iff] using h

omit h in
theorem put_self : put v a b c d v[a] v[b] v[c] v[d] = v := by
  apply Vector.ext
  intro i hi
  simp only [put, Fin.getElem_fin, Vector.getElem_set]
  split
  · simp_all
  · split
    · simp_all
    · split
      · simp_all
      · split <;> simp_all

theorem put_a : (put v a b c d A B C D)[a] = A := by
  obtain ⟨h1, h2, h3, h4, h5, h6⟩ := ne6 h
  simp [put, h1.symm, h2.symm, h3.symm]

theorem put_b : (put v a b c d A B C D)[b] = B := by
  obtain ⟨h1, h2, h3, h4, h5, h6⟩ := ne6 h
  simp [put, h4.symm, h5.symm]

theorem put_c : (put v a b c d A B C D)[c] = C := by
  obtain ⟨h1, h2, h3, h4, h5, h6⟩ := ne6 h
  simp [put, h6.symm]

omit h in
theorem put_d : (put v a b c d A B C D)[d] = D := by
  simp [put]

theorem put_set_a : (put v a b c d A B C D).set a X = put v a b c d X B C D := by
  obtain ⟨h1, h2, h3, h4, h5, h6⟩ := ne6 h
  apply Vector.ext
  intro i hi
  simp only [put, Vector.getElem_set]
  by_cases e : (a : Nat) = i
  · subst e; simp [h1.symm, h2.symm, h3.symm]
  · simp [e]

theorem put_set_b : (put v a b c d A B C D).set b X = put v a b c d A X C D := by
  obtain ⟨h1, h2, h3, h4, h5, h6⟩ := ne6 h
  apply Vector.ext
  intro i hi
  simp only [put, Vector.getElem_set]
  by_cases e : (b : Nat) = i
  · subst e; simp [h4.symm, h5.symm]
  · simp [e]

theorem put_set_c : (put v a b c d A B C D).set c X = put v a b c d A B X D := by
  obtain ⟨h1, h2, h3, h4, h5, h6⟩ := ne6 h
  apply Vector.ext
  intro i hi
  simp only [put, Vector.getElem_set]
  by_cases e : (c : Nat) = i
  · subst e; simp [h6.symm]
  · simp [e]

omit h in
theorem put_set_d : (put v a b c d A B C D).set d X = put v a b c d A B C X := by
  apply Vector.ext
  intro i hi
  simp only [put, Vector.getElem_set]
  by_cases e : (d : Nat) = i
  · simp [e]
  · simp [e]
end

theorem mixAt_eq (v : Vector (BitVec w) 16) (a b c d : Fin 16) (x y : BitVec w) (r1 r2 r3 r4 : Nat)
    (h1 : r1 < w) (h2 : r2 < w) (h3 : r3 < w) (h4 : r4 < w) (hd : Distinct (a, b, c, d)) :
    mixAt v a b c d x y r1 r2 r3 r4 = BLAKE.G ⟨r1, r2, r3, r4⟩ v (a, b, c, d) x y := by
  have key : ∀ A B C D, mixAt (put v a b c d A B C D) a b c d x y r1 r2 r3 r4 =
      (let a1 := A + B + x
       let d1 := rotr (D ^^^ a1) r1
       let c1 := C + d1
       let b1 := rotr (B ^^^ c1) r2
       let a2 := a1 + b1 + y
       let d2 := rotr (d1 ^^^ a2) r3
       let c2 := c1 + d2
       let b2 := rotr (b1 ^^^ c2) r4
       put v a b c d a2 b2 c2 d2) := by
    intro A B C D
    unfold mixAt
    simp only [put_a _ hd, put_b _ hd, put_c _ hd, put_d, put_set_a _ hd, put_set_b _ hd,
      put_set_c _ hd, put_set_d]
  have := key v[a] v[b] v[c] v[d]
  rw [put_self v] at this
  rw [this]
  unfold BLAKE.G
  simp only [← rotr_eq _ _ h1, ← rotr_eq _ _ h2, ← rotr_eq _ _ h3, ← rotr_eq _ _ h4]
  rfl

/-- What one call does, as the specification describes a step: the positions, the indices of the
two message words and of the two constants. -/
def view (k : Call) : (Fin 16 × Fin 16 × Fin 16 × Fin 16) × Nat × Nat × Nat × Nat :=
  ((k.a, k.b, k.c, k.d), k.x, k.y, k.k1, k.k2)

/-- The steps of the specification in order. -/
def specCalls (rounds : Nat) : List ((Fin 16 × Fin 16 × Fin 16 × Fin 16) × Nat × Nat × Nat × Nat) :=
  (List.range rounds).flatMap fun r => (List.range 8).map fun i =>
    (BLAKE.quad i, BLAKE.sigma r (2 * i), BLAKE.sigma r (2 * i + 1), BLAKE.sigma r (2 * i + 1),
      BLAKE.sigma r (2 * i))

theorem calls32_eq : calls32.map view = specCalls 14 := by decide +kernel
theorem calls64_eq : calls64.map view = specCalls 16 := by decide +kernel

theorem calls32_distinct : ∀ k ∈ calls32, Distinct (k.a, k.b, k.c, k.d) := by decide +kernel
theorem calls64_distinct : ∀ k ∈ calls64, Distinct (k.a, k.b, k.c, k.d) := by decide +kernel

theorem spec_fold (p : BLAKE.Params w) (M : Nat → BitVec w) (v : Vector (BitVec w) 16) :
    (List.range p.rounds).foldl (BLAKE.round p M) v =
      (specCalls p.rounds).foldl (fun v k => BLAKE.G p.rot v k.1 (M k.2.1 ^^^ BLAKE.C w k.2.2.2.1)
        (M k.2.2.1 ^^^ BLAKE.C w k.2.2.2.2)) v := by
  unfold specCalls
  rw [List.foldl_flatMap]
  rfl

/-- `val n` is the counter that has counted `n` bits; the configuration is that of `p`. -/
structure CfgOK (c : Cfg w B C) (p : BLAKE.Params w) (val : Nat → C) : Prop where
  load : ∀ (m : Block B) (t : Fin 16), c.load m t = wordBE w m.toList t
  table : ∀ i : Fin 16, c.cTable[i] = BLAKE.C w i
  calls : c.calls.map view = specCalls p.rounds
  distinct : ∀ k ∈ c.calls, Distinct (k.a, k.b, k.c, k.d)
  rot : p.rot = ⟨c.r1, c.r2, c.r3, c.r4⟩
  rot1 : c.r1 < w
  rot2 : c.r2 < w
  rot3 : c.r3 < w
  rot4 : c.r4 < w
  t0 : ∀ n, c.t0 (val n) = BitVec.ofNat w n
  t1 : ∀ n, c.t1 (val n) = BitVec.ofNat w (n / 2 ^ w)
  add : ∀ n k : Nat, k ≤ 8 * B → c.addBits (val n) k = val (n + k)
  pos : ∀ k : Nat, k ≤ 8 * B → c.positive k = decide (0 < k)

theorem foldl_mem_congr {α σ : Type} (l : List α) (f g : σ → α → σ) (s : σ)
    (h : ∀ s, ∀ a ∈ l, f s a = g s a) : l.foldl f s = l.foldl g s := by
  induction l generalizing s with
  | nil => rfl
  | cons x l ih =>
    rw [List.foldl_cons, List.foldl_cons, h s x (by simp)]
    exact ih _ (fun s a ha => h s a (by simp [ha]))

variable {c : Cfg w B C} {p : BLAKE.Params w} {val : Nat → C}

theorem mix_fold (ok : CfgOK c p val) (m : Block B) (v : Vector (BitVec w) 16) :
    c.calls.foldl (mix c m) v = (List.range p.rounds).foldl (BLAKE.round p (wordBE w m.toList)) v := by
  rw [spec_fold, ← ok.calls, List.foldl_map]
  apply foldl_mem_congr
  intro v k hk
  have h1 : mix c m v k = mixAt v k.a k.b k.c k.d (c.load m k.x ^^^ c.cTable[k.k1])
    (c.load m k.y ^^^ c.cTable[k.k2]) c.r1 c.r2 c.r3 c.r4 := rfl
  rw [h1, mixAt_eq _ _ _ _ _ _ _ _ _ _ _ ok.rot1 ok.rot2 ok.rot3 ok.rot4 (ok.distinct k hk),
    ok.load, ok.load, ok.table, ok.table, ok.rot]
  rfl

/-- the array `v` before the mixing calls -/
def initV (c : Cfg w B C) (P : Nat) (s : MDState C (Vector (BitVec w) 8)) : Vector (BitVec w) 16 :=
  let mh := s.h
  let ct := c.cTable
  let v : Vector (BitVec w) 16 := #v[mh[0], mh[1], mh[2], mh[3], mh[4], mh[5], mh[6], mh[7],
    ct[0], ct[1], ct[2], ct[3], ct[4], ct[5], ct[6], ct[7]]
  let nonPaddingBits : Int := (B - P) * 8
  let sizeCounter := c.addBits s.sizeCounter nonPaddingBits
  if c.positive nonPaddingBits then
    let t0 := c.t0 sizeCounter
    let t1 := c.t1 sizeCounter
    let v := v.set 12 (v[12] ^^^ t0)
    let v := v.set 13 (v[13] ^^^ t0)
    let v := v.set 14 (v[14] ^^^ t1)
    v.set 15 (v[15] ^^^ t1)
  else v

/-- the chaining value from the array `v` after the mixing calls -/
def outH (mh : Vector (BitVec w) 8) (v : Vector (BitVec w) 16) : Vector (BitVec w) 8 :=
  #v[mh[0] ^^^ (v[0] ^^^ v[8]), mh[1] ^^^ (v[1] ^^^ v[9]), mh[2] ^^^ (v[2] ^^^ v[10]),
    mh[3] ^^^ (v[3] ^^^ v[11]), mh[4] ^^^ (v[4] ^^^ v[12]), mh[5] ^^^ (v[5] ^^^ v[13]),
    mh[6] ^^^ (v[6] ^^^ v[14]), mh[7] ^^^ (v[7] ^^^ v[15])]

/-- the state of the specification just before the rounds -/
def start (h : Vector (BitVec w) 8) (t0 t1 : BitVec w) : Vector (BitVec w) 16 :=
  #v[h[0], h[1], h[2], h[3], h[4], h[5], h[6], h[7],
    BLAKE.C w 0, BLAKE.C w 1, BLAKE.C w 2, BLAKE.C w 3,
    t0 ^^^ BLAKE.C w 4, t0 ^^^ BLAKE.C w 5, t1 ^^^ BLAKE.C w 6, t1 ^^^ BLAKE.C w 7]

theorem body_out (P : Nat) (s : MDState C (Vector (BitVec w) 8)) (m : Block B) :
    body c P s m = ⟨c.addBits s.sizeCounter ((B - P) * 8),
      outH s.h (c.calls.foldl (mix c m) (initV c P s))⟩ := rfl

theorem compress_out (h : Vector (BitVec w) 8) (m : List Byte) (t : Nat) :
    BLAKE.compress p h m t = outH h ((List.range p.rounds).foldl (BLAKE.round p (wordBE w m))
      (start h (BitVec.ofNat w t) (BitVec.ofNat w (t / 2 ^ w)))) := by
  unfold BLAKE.compress outH
  simp only [BitVec.xor_assoc]
  rfl

/-- the four exclusive-or assignments -/
def xor4 (v : Vector (BitVec w) 16) (t0 t1 : BitVec w) : Vector (BitVec w) 16 :=
  let v := v.set 12 (v[12] ^^^ t0)
  let v := v.set 13 (v[13] ^^^ t0)
  let v := v.set 14 (v[14] ^^^ t1)
  v.set 15 (v[15] ^^^ t1)

theorem xor4_eq (a0 a1 a2 a3 a4 a5 a6 a7 a8 a9 a10 a11 a12 a13 a14 a15 t0 t1 : BitVec w) :
    xor4 #v[a0, a1, a2, a3, a4, a5, a6, a7, a8, a9, a10, a11, a12, a13, a14, a15] t0 t1 =
      #v[a0, a1, a2, a3, a4, a5, a6, a7, a8, a9, a10, a11, a12 ^^^ t0, a13 ^^^ t0, a14 ^^^ t1, a15 ^^^ t1] := rfl

theorem initV_pos (ok : CfgOK c p val) (P : Nat) (s : MDState C (Vector (BitVec w) 8))
    (hp : c.positive ((B - P) * 8) = true) :
    initV c P s = start s.h (c.t0 (c.addBits s.sizeCounter ((B - P) * 8)))
      (c.t1 (c.addBits s.sizeCounter ((B - P) * 8))) := by
  have T : ∀ i (hi : i < 16), c.cTable[i] = BLAKE.C w i := fun i hi => ok.table ⟨i, hi⟩
  have h : initV c P s = xor4 #v[s.h[0], s.h[1], s.h[2], s.h[3], s.h[4], s.h[5], s.h[6], s.h[7],
      c.cTable[0], c.cTable[1], c.cTable[2], c.cTable[3], c.cTable[4], c.cTable[5], c.cTable[6],
      c.cTable[7]] (c.t0 (c.addBits s.sizeCounter ((B - P) * 8)))
      (c.t1 (c.addBits s.sizeCounter ((B - P) * 8))) := if_pos hp
  rw [h, xor4_eq]
  unfold start
  simp only [T]
  generalize c.t0 (c.addBits s.sizeCounter ((B - P) * 8)) = t0
  generalize c.t1 (c.addBits s.sizeCounter ((B - P) * 8)) = t1
  rw [BitVec.xor_comm t0, BitVec.xor_comm t0, BitVec.xor_comm t1, BitVec.xor_comm t1]

theorem initV_neg (ok : CfgOK c p val) (P : Nat) (s : MDState C (Vector (BitVec w) 8))
    (hp : c.positive ((B - P) * 8) = false) : initV c P s = start s.h 0#w 0#w := by
  have T : ∀ i (hi : i < 16), c.cTable[i] = BLAKE.C w i := fun i hi => ok.table ⟨i, hi⟩
  unfold initV start
  simp only [T, hp, BitVec.zero_xor]
  rfl

theorem body_pos (ok : CfgOK c p val) (P t : Nat) (s : MDState C (Vector (BitVec w) 8)) (m : Block B)
    (hp : c.positive ((B - P) * 8) = true)
    (ht : c.addBits s.sizeCounter ((B - P) * 8) = val t) :
    body c P s m = ⟨val t, BLAKE.compress p s.h m.toList t⟩ := by
  rw [body_out, initV_pos ok P s hp, mix_fold ok, compress_out, ht, ok.t0, ok.t1]

theorem body_neg (ok : CfgOK c p val) (P : Nat) (s : MDState C (Vector (BitVec w) 8)) (m : Block B)
    (hp : c.positive ((B - P) * 8) = false) :
    (body c P s m).h = BLAKE.compress p s.h m.toList 0 := by
  rw [body_out, initV_neg ok P s hp, mix_fold ok, compress_out, Nat.zero_div]

/-! ### Whole blocks of the message -/

/-- the object's state after a whole number of blocks -/
def den (c : Cfg w B C) (init : MDState C (Vector (BitVec w) 8)) :
    List Byte → MDState C (Vector (BitVec w) 8) :=
  mdFold B (body c 0) init

theorem blocks_fold (ok : CfgOK c p val) (hB : 0 < B) (l : List (List Byte)) (i : Nat)
    (hl : ∀ b ∈ l, b.length = B) (h : Vector (BitVec w) 8) :
    l.foldl (fun s b => body c 0 s (toBlock B b)) ⟨val (8 * B * i), h⟩ =
      ⟨val (8 * B * (i + l.length)),
        (l.zipIdx i).foldl (fun h b => BLAKE.compress p h b.1 (8 * B * (b.2 + 1))) h⟩ := by
  induction l generalizing i h with
  | nil => rfl
  | cons b l ih =>
    have e : ((B : Int) - (0 : Nat)) * 8 = ((8 * B : Nat) : Int) := by omega
    have hb : body c 0 ⟨val (8 * B * i), h⟩ (toBlock B b) =
        ⟨val (8 * B * (i + 1)), BLAKE.compress p h b (8 * B * (i + 1))⟩ := by
      have := body_pos ok 0 (8 * B * (i + 1)) ⟨val (8 * B * i), h⟩ (toBlock B b)
        (by rw [e, ok.pos _ (Nat.le_refl _)]; simp; omega)
        (by rw [e, ok.add _ _ (Nat.le_refl _)]; congr 1)
      rw [toList_toBlock b (hl b (by simp))] at this
      exact this
    rw [List.foldl_cons, List.zipIdx_cons, List.foldl_cons, hb, ih (i + 1) (fun b h => hl b (by simp [h])),
      List.length_cons]
    rw [show i + 1 + l.length = i + (l.length + 1) by omega]

theorem den_eq (ok : CfgOK c p val) (hB : 0 < B) (iv : Vector (BitVec w) 8) (m : List Byte)
    (hm : m.length % B = 0) :
    den c ⟨val 0, iv⟩ m = ⟨val (8 * m.length),
      (blocks B m).zipIdx.foldl (fun h b => BLAKE.compress p h b.1 (8 * B * (b.2 + 1))) iv⟩ := by
  have := blocks_fold ok hB (blocks B m) 0 (fun b h => mem_blocks_length B m b h) iv
  rw [Nat.mul_zero, blocks_length B m hB] at this
  unfold den mdFold
  rw [this]
  have e : B * (m.length / B) = m.length := by
    have := Nat.div_add_mod m.length B; omega
  rw [Nat.zero_add, Nat.mul_assoc, e]

theorem impl_eq (hB : 0 < B) (P : Nat) (s : MDState C (Vector (BitVec w) 8)) (d : List Byte)
    (hd : d.length % B = 0) :
    impl c P s d = .ok ((blocks B d).foldl (fun s b => body c P s (toBlock B b)) s) := by
  unfold impl
  rw [forBlocks_eq B hB]
  simp [hd]

theorem implOK (hB : 0 < B) (init : MDState C (Vector (BitVec w) 8)) :
    ImplOK B (impl c 0) (den c init) := by
  intro m d hm hd _
  rw [impl_eq hB 0 _ _ hd]
  unfold den
  rw [mdFold_append B _ init hB m d hm]

/-! ### Finalisation -/

/-- what the specification appends to a message of `n` bytes -/
def padTail (B L : Nat) (e : Byte) (n : Nat) : List Byte :=
  (if B - (n + L) % B = 1 then [0x80 ||| e]
    else [0x80] ++ List.replicate (B - (n + L) % B - 2) 0 ++ [e]) ++ toBE L (8 * n)

theorem pad_eq (B L : Nat) (e : Byte) (m : List Byte) :
    BLAKE.pad B L e m = m ++ padTail B L e m.length := by
  unfold BLAKE.pad padTail
  simp only [List.append_assoc]

theorem padZeros_pred (B L n : Nat) (hL : L + 1 ≤ B) : padZeros B L n = B - (n + L) % B - 1 := by
  rw [padZeros_eq B L n hL]
  have hr := Nat.mod_lt (n + L) (show 0 < B by omega)
  have h1 : (n + 1 + L) % B = ((n + L) % B + 1) % B := by
    rw [Nat.mod_add_mod]; congr 1; omega
  rw [h1]
  by_cases h : (n + L) % B + 1 = B
  · rw [h, Nat.mod_self, Nat.sub_zero, Nat.mod_self]; omega
  · rw [Nat.mod_eq_of_lt (a := (n + L) % B + 1) (by omega), Nat.mod_eq_of_lt (by omega)]; omega

/-- the bytes between message and length field, for `z` zero bytes after the marker byte -/
def mid (e : Byte) (z : Nat) : List Byte :=
  if z = 0 then [0x80 ||| e] else [0x80] ++ List.replicate (z - 1) 0 ++ [e]

theorem mid_length (e : Byte) (z : Nat) : (mid e z).length = z + 1 := by
  unfold mid
  split
  · subst z; rfl
  · simp; omega

theorem padTail_mid (B L : Nat) (e : Byte) (n : Nat) (hL : L + 1 ≤ B) :
    padTail B L e n = mid e (padZeros B L n) ++ toBE L (8 * n) := by
  have hr := Nat.mod_lt (n + L) (show 0 < B by omega)
  unfold padTail mid
  rw [padZeros_pred B L n hL]
  by_cases h : B - (n + L) % B = 1
  · rw [if_pos h, if_pos (by omega)]
  · rw [if_neg h, if_neg (by omega), show B - (n + L) % B - 2 = B - (n + L) % B - 1 - 1 by omega]

theorem getAt_holds {N : Nat} {b : Buffer N} {l : List Byte} (h : b.Holds l) (q : Nat)
    (hq : q < l.length) : b.getAt q = .ok l[q] := by
  have hN := h.le
  unfold Buffer.getAt
  rw [dif_pos (by omega)]
  congr 1
  have h2 := h.2
  unfold Buffer.contents at h2
  have h3 : (b.arr.toList.take b.endIdx)[q]? = l[q]? := by rw [h2]
  rw [List.getElem?_take, if_pos (by have := h.1; omega)] at h3
  rw [List.getElem?_eq_getElem (by simp; omega), List.getElem?_eq_getElem hq] at h3
  simpa using h3

theorem mid_zero (z : Nat) : [0x80] ++ List.replicate z (0 : Byte) = mid 0 z := by
  unfold mid
  cases z with
  | zero => rfl
  | succ z =>
    rw [if_neg (by omega), Nat.add_sub_cancel, List.append_assoc, ← List.replicate_succ']

/-- the effect of `m_buffer[m_buffer.size() - (L + 1)] |= 1` -/
theorem marker_set (r : List Byte) (z L : Nat) :
    (r ++ mid 0 z ++ List.replicate L 0).set (r.length + z)
      ((r ++ mid 0 z ++ List.replicate L (0 : Byte))[r.length + z]'(by
        simp only [List.length_append, mid_length]; omega) ||| 1)
      = r ++ mid 1 z ++ List.replicate L 0 := by
  have hl := mid_length 0 z
  have hg : (r ++ mid 0 z ++ List.replicate L (0 : Byte))[r.length + z]'(by
        simp only [List.length_append, mid_length]; omega) = (mid 0 z)[z]'(by omega) := by
    rw [List.getElem_append_left (by simp only [List.length_append, mid_length]; omega),
      List.getElem_append_right (by omega)]
    simp
  rw [hg, List.append_assoc, set_append_add, List.set_append_left _ _ (by omega), List.append_assoc]
  congr 2
  cases z with
  | zero => rfl
  | succ z =>
    have : ∀ e : Byte, mid e (z + 1) = ([0x80] ++ List.replicate z 0) ++ [e] := fun _ => rfl
    simp only [this]
    rw [List.set_append_right _ _ (by simp)]
    simp

/-- What `finalize` does with the counter. -/
structure FinOK (val : Nat → C) (L : Nat) (total : C → Nat → C) (writes : Nat → C → List (Nat × Byte)) where
  total : ∀ n k, k < 2 ^ 64 → total (val n) k = val (n + k)
  field : C → List Byte
  writes : LenWritesOK L writes field
  field_eq : ∀ n, field (val n) = toBE L n

/-- the marker bit -/
def ebyte (marker : Bool) : Byte := if marker then 1 else 0

theorem finalize_rel {L : Nat} (hL : L + 1 ≤ B) (hBS : 16 * B < 2 ^ 64) (ok : CfgOK c p val)
    {total : C → Nat → C} {writes : Nat → C → List (Nat × Byte)} (fk : FinOK val L total writes)
    (marker : Bool) (iv : Vector (BitVec w) 8)
    (o : Obj (2 * B) (MDState C (Vector (BitVec w) 8))) (m : List Byte)
    (h : Rel B (den c ⟨val 0, iv⟩) o m) :
    ∃ o', finalize c L marker total writes o = .ok o' ∧
      o'.chain = (blocks B (restPart B m ++ padTail B L (ebyte marker) m.length)).foldl
        (fun s b => body c (padZeros B L m.length + (L + 1)) s (toBlock B b))
        (den c ⟨val 0, iv⟩ (alignedPart B m)) := by
  obtain ⟨hc, hb⟩ := h
  have hB : 0 < B := by omega
  have hrl := restPart_lt B m hB
  have hrlen := restPart_length B m
  have hal : (alignedPart B m).length % B = 0 := by
    rw [alignedPart_length]; exact alignedLen_mod B m
  have hm := aligned_append_rest B m
  have hpz := padZeros_le B L m.length hL
  have hpm := padZeros_mod B L m.length hL
  unfold finalize
  obtain ⟨b1, e1, h1⟩ := Buffer.fill_holds hb 0x80 1 (by omega) (by omega)
  rw [e1]
  simp only [bind, Except.bind]
  have hs1 : b1.size = m.length % B + 1 := by
    rw [h1.size_eq, List.length_append, hrlen]; rfl
  rw [hs1]
  have hk : (2 * B - (m.length % B + 1 + L)) % B = padZeros B L m.length := rfl
  rw [hk]
  obtain ⟨b2, e2, h2⟩ := Buffer.fill_holds h1 0 (padZeros B L m.length + L) (by simp; omega)
    (by rw [List.length_append, hrlen, List.length_replicate]; omega)
  rw [e2]
  simp only []
  have hs2 : b2.size = m.length % B + 1 + padZeros B L m.length + L := by
    rw [h2.size_eq, List.length_append, List.length_append, hrlen]; simp; omega
  have hcnt : total o.chain.sizeCounter (o.buffer.size * 8) = val (8 * m.length) := by
    rw [hc, hb.size_eq, den_eq ok hB iv _ hal]
    simp only []
    rw [fk.total _ _ (by omega)]
    congr 1
    rw [Nat.mul_comm _ 8, ← Nat.mul_add, ← List.length_append, hm]
  rw [hcnt]
  have h2' : b2.Holds (restPart B m ++ mid 0 (padZeros B L m.length) ++ List.replicate L 0) := by
    rw [← mid_zero]
    rw [← List.replicate_append_replicate] at h2
    simpa [List.append_assoc] using h2
  have hmark : ∃ b3 : Buffer (2 * B), markLast L marker b2 = .ok b3 ∧
        b3.Holds (restPart B m ++ mid (ebyte marker) (padZeros B L m.length) ++ List.replicate L 0) := by
    cases marker with
    | false => exact ⟨b2, rfl, h2'⟩
    | true =>
      have hpos : b2.size - (L + 1) = (restPart B m).length + padZeros B L m.length := by
        rw [hs2, hrlen]; omega
      have hlt : (restPart B m).length + padZeros B L m.length <
          (restPart B m ++ mid 0 (padZeros B L m.length) ++ List.replicate L (0 : Byte)).length := by
        simp only [List.length_append, mid_length]; omega
      unfold markLast
      rw [hpos, if_pos rfl, getAt_holds h2' _ hlt]
      obtain ⟨b3, e3, h3⟩ := Buffer.setAt_holds h2' _
        ((restPart B m ++ mid 0 (padZeros B L m.length) ++ List.replicate L (0 : Byte))[
          (restPart B m).length + padZeros B L m.length] ||| 1) hlt
      refine ⟨b3, e3, ?_⟩
      rw [marker_set] at h3
      exact h3
  obtain ⟨b3, e3, h3⟩ := hmark
  rw [e3]
  simp only []
  have hs3 : b3.size = (restPart B m ++ mid (ebyte marker) (padZeros B L m.length)).length + L := by
    rw [h3.size_eq, List.length_append (bs := List.replicate L 0), List.length_replicate]
  obtain ⟨b4, e4, h4⟩ := writeLoop_holds (writes b3.size (val (8 * m.length))) h3 (by
    intro x hx
    rw [← h3.size_eq]
    exact fk.writes.bound b3.size _ (by omega) x hx)
  rw [e4]
  simp only []
  rw [hs3, fk.writes.value, fk.field_eq, List.append_assoc, ← padTail_mid B L _ _ hL] at h4
  have hlen : (restPart B m ++ padTail B L (ebyte marker) m.length).length % B = 0 := by
    rw [padTail_mid B L _ _ hL, List.length_append, List.length_append, mid_length, toBE_length, hrlen,
      ← hpm]
    congr 1; omega
  rw [h4.2, impl_eq hB _ _ _ hlen, hc]
  exact ⟨_, rfl, rfl⟩

/-- The blocks that `finalize` processes: `m.length / B` is the number of blocks before them. -/
def tailBlocks (B L : Nat) (e : Byte) (m : List Byte) : List (List Byte) :=
  blocks B (restPart B m ++ padTail B L e m.length)

/-- If the last blocks are compressed as the counter rule `t` says, so is the whole message. -/
theorem hash_of_tail {L : Nat} (hB : 0 < B) (ok : CfgOK c p val) (e : Byte) (iv : Vector (BitVec w) 8)
    (P : Nat) (m : List Byte) (t : Nat → Nat → Nat)
    (ht : ∀ i, i < m.length / B → t m.length i = 8 * B * (i + 1))
    (htail : ∀ h, ((tailBlocks B L e m).foldl (fun s b => body c P s (toBlock B b))
        ⟨val (8 * B * (m.length / B)), h⟩).h =
      ((tailBlocks B L e m).zipIdx (m.length / B)).foldl
        (fun h b => BLAKE.compress p h b.1 (t m.length b.2)) h) :
    bytesBE ((tailBlocks B L e m).foldl (fun s b => body c P s (toBlock B b))
      (den c ⟨val 0, iv⟩ (alignedPart B m))).h.toList = BLAKE.hashWith t p B L e iv m := by
  have hal : (alignedPart B m).length % B = 0 := by
    rw [alignedPart_length]; exact alignedLen_mod B m
  have hq : (alignedPart B m).length / B = m.length / B := by
    rw [alignedPart_length, alignedLen]
    exact (Nat.div_eq_sub_mod_div).symm
  have ha : (alignedPart B m).length = B * (m.length / B) := by
    have := Nat.div_add_mod (alignedPart B m).length B; rw [hq] at this; omega
  unfold BLAKE.hashWith
  rw [den_eq ok hB iv _ hal, ha, ← Nat.mul_assoc, htail, pad_eq]
  have hsplit : blocks B (m ++ padTail B L e m.length) = blocks B (alignedPart B m) ++ tailBlocks B L e m := by
    unfold tailBlocks
    rw [← blocks_append B _ _ hB hal, ← List.append_assoc, aligned_append_rest]
  rw [hsplit, List.zipIdx_append, List.foldl_append, blocks_length B _ hB, hq, Nat.zero_add]
  congr 3
  apply foldl_mem_congr
  intro h b hb
  have hlt := (List.mem_zipIdx hb).2.1
  rw [blocks_length B _ hB, hq] at hlt
  rw [ht b.2 (by omega)]

theorem div_mul_mod (n B : Nat) : B * (n / B) + n % B = n := Nat.div_add_mod n B

/-- One final block. -/
theorem tail_one {L : Nat} (hL : L + 1 ≤ B) (e : Byte) (m : List Byte) (hs : m.length % B < B - L) :
    ∃ b, tailBlocks B L e m = [b] ∧ b.length = B := by
  have hr := restPart_length B m
  have hp : padZeros B L m.length = B - (m.length % B + 1 + L) := by
    unfold padZeros
    rw [show 2 * B - (m.length % B + 1 + L) = (B - (m.length % B + 1 + L)) + B by omega,
      Nat.add_mod_right, Nat.mod_eq_of_lt (by omega)]
  have hlen : (restPart B m ++ padTail B L e m.length).length = B := by
    rw [padTail_mid B L _ _ hL, List.length_append, List.length_append, mid_length, toBE_length, hr, hp]
    omega
  refine ⟨_, ?_, hlen⟩
  unfold tailBlocks
  rw [blocks_cons B _ (by omega) (by omega), List.take_of_length_le (by omega),
    List.drop_eq_nil_of_le (by omega), blocks_nil]

/-- Two final blocks. -/
theorem tail_two {L : Nat} (hL : L + 1 ≤ B) (e : Byte) (m : List Byte) (hs : B - L ≤ m.length % B) :
    ∃ b b', tailBlocks B L e m = [b, b'] ∧ b.length = B ∧ b'.length = B := by
  have hr := restPart_length B m
  have hlt := Nat.mod_lt m.length (show 0 < B by omega)
  have hp : padZeros B L m.length = 2 * B - (m.length % B + 1 + L) := by
    unfold padZeros
    rw [Nat.mod_eq_of_lt (by omega)]
  have hlen : (restPart B m ++ padTail B L e m.length).length = 2 * B := by
    rw [padTail_mid B L _ _ hL, List.length_append, List.length_append, mid_length, toBE_length, hr, hp]
    omega
  refine ⟨(restPart B m ++ padTail B L e m.length).take B, (restPart B m ++ padTail B L e m.length).drop B,
    ?_, ?_, ?_⟩
  · unfold tailBlocks
    rw [blocks_cons B _ (by omega) (by omega), blocks_cons B _ (by omega) (by rw [List.length_drop]; omega),
      List.take_of_length_le (l := List.drop B _) (by rw [List.length_drop]; omega),
      List.drop_eq_nil_of_le (as := List.drop B _) (by rw [List.length_drop]; omega), blocks_nil]
  · rw [List.length_take]; omega
  · rw [List.length_drop]; omega

theorem padZeros_one {L : Nat} (n : Nat) (hs : n % B < B - L) :
    padZeros B L n = B - (n % B + 1 + L) := by
  unfold padZeros
  rw [show 2 * B - (n % B + 1 + L) = (B - (n % B + 1 + L)) + B by omega,
    Nat.add_mod_right, Nat.mod_eq_of_lt (by omega)]

theorem padZeros_two {L : Nat} (n : Nat) (hL : L + 1 ≤ B) (hs : B - L ≤ n % B) :
    padZeros B L n = 2 * B - (n % B + 1 + L) := by
  unfold padZeros
  rw [Nat.mod_eq_of_lt (by omega)]

/-- With one final block the counter is that of the specification. -/
theorem tail_one_fold {L : Nat} (hL : L + 1 ≤ B) (ok : CfgOK c p val) (e : Byte) (m : List Byte)
    (hs : m.length % B < B - L) (h : Vector (BitVec w) 8) :
    ((tailBlocks B L e m).foldl
        (fun s b => body c (padZeros B L m.length + (L + 1)) s (toBlock B b))
        ⟨val (8 * B * (m.length / B)), h⟩).h =
      ((tailBlocks B L e m).zipIdx (m.length / B)).foldl
        (fun h b => BLAKE.compress p h b.1 (BLAKE.counter B m.length b.2)) h := by
  obtain ⟨b, e1, hb⟩ := tail_one hL e m hs
  have hdm := div_mul_mod m.length B
  rw [e1]
  simp only [List.foldl_cons, List.foldl_nil, List.zipIdx_cons, List.zipIdx_nil]
  have hP : ((B : Int) - ((padZeros B L m.length + (L + 1) : Nat) : Int)) * 8
      = ((8 * (m.length % B) : Nat) : Int) := by
    rw [padZeros_one _ hs]; omega
  by_cases h0 : m.length % B = 0
  · rw [body_neg ok _ _ _ (by rw [hP, ok.pos _ (by omega), h0]; rfl), toList_toBlock b hb]
    unfold BLAKE.counter
    rw [if_neg (by omega)]
  · rw [body_pos ok _ (8 * m.length) _ _ (by rw [hP, ok.pos _ (by omega)]; simp; omega) (by
      rw [hP, ok.add _ _ (by omega), Nat.mul_assoc, ← Nat.mul_add, hdm]), toList_toBlock b hb]
    unfold BLAKE.counter
    rw [if_pos (by omega), Nat.min_eq_right]
    have : 8 * B * (m.length / B + 1) = 8 * (B * (m.length / B)) + 8 * B := by
      rw [Nat.mul_add, Nat.mul_assoc]; omega
    omega

theorem counter_early (m : List Byte) (i : Nat) (hi : i < m.length / B) :
    BLAKE.counter B m.length i = 8 * B * (i + 1) := by
  have hdm := div_mul_mod m.length B
  have h1 : B * (i + 1) ≤ B * (m.length / B) := Nat.mul_le_mul_left _ hi
  have hB : 0 < B := by
    rcases Nat.eq_zero_or_pos B with h | h
    · subst h; simp at hi
    · exact h
  have h2 : B * (i + 1) = B * i + B := Nat.mul_succ _ _
  unfold BLAKE.counter
  rw [if_pos (by omega), Nat.min_eq_left]
  rw [Nat.mul_assoc]; omega

theorem skip_fold {L : Nat} (hL : L + 1 ≤ B) (ok : CfgOK c p val)
    (hneg : ∀ n : Int, n ≤ 0 → c.positive n = false) (e : Byte) (m : List Byte)
    (h : Vector (BitVec w) 8) :
    ((tailBlocks B L e m).foldl
        (fun s b => body c (padZeros B L m.length + (L + 1)) s (toBlock B b))
        ⟨val (8 * B * (m.length / B)), h⟩).h =
      ((tailBlocks B L e m).zipIdx (m.length / B)).foldl
        (fun h b => BLAKE.compress p h b.1 (BLAKE.skipCounter B L m.length b.2)) h := by
  have hlt := Nat.mod_lt m.length (show 0 < B by omega)
  by_cases hs : m.length % B < B - L
  · rw [tail_one_fold hL ok e m hs h]
    obtain ⟨b, e1, hb⟩ := tail_one hL e m hs
    rw [e1]
    simp only [List.foldl_cons, List.foldl_nil, List.zipIdx_cons, List.zipIdx_nil]
    unfold BLAKE.skipCounter
    rw [if_neg (by omega)]
  · obtain ⟨b, b', e1, hb, hb'⟩ := tail_two hL e m (by omega)
    have hP : ((B : Int) - ((padZeros B L m.length + (L + 1) : Nat) : Int)) * 8 ≤ 0 := by
      rw [padZeros_two _ hL (by omega)]; omega
    rw [e1]
    simp only [List.foldl_cons, List.foldl_nil, List.zipIdx_cons, List.zipIdx_nil]
    rw [body_neg ok _ _ _ (hneg _ hP), body_neg ok _ _ _ (hneg _ hP), toList_toBlock b hb,
      toList_toBlock b' hb']
    unfold BLAKE.skipCounter
    rw [if_pos ⟨by omega, by omega⟩, if_pos ⟨by omega, by omega⟩]

theorem skip_early {L : Nat} (m : List Byte) (i : Nat) (hi : i < m.length / B) :
    BLAKE.skipCounter B L m.length i = 8 * B * (i + 1) := by
  unfold BLAKE.skipCounter
  rw [if_neg (by omega), counter_early m i hi]

theorem wrap_early (m : List Byte) (i : Nat) (hi : i < m.length / 64) :
    BLAKE.wrapCounter m.length i = 8 * 64 * (i + 1) := by
  unfold BLAKE.wrapCounter
  rw [if_neg (by omega), counter_early m i hi]

/-! ### The configurations -/

theorem load32 (m : Block 64) (t : Fin 16) : loadBE32 m t = wordBE 32 m.toList t :=
  loadBE32_eq m t (by omega)

theorem load64 (m : Block 128) (t : Fin 16) : loadBE64 m t = wordBE 64 m.toList t :=
  loadBE64_eq m t (by omega)

theorem cTable32_eq : ∀ i : Fin 16, cTable32[i] = BLAKE.C 32 i := by decide +kernel
theorem cTable64_eq : ∀ i : Fin 16, cTable64[i] = BLAKE.C 64 i := by decide +kernel

theorem ror32_lo (n : Nat) : ror 32 (BitVec.ofNat 64 n) 0 = BitVec.ofNat 32 n := by
  apply BitVec.eq_of_toNat_eq
  simp [ror]

theorem ror32_hi (n : Nat) : ror 32 (BitVec.ofNat 64 n) 32 = BitVec.ofNat 32 (n / 2 ^ 32) := by
  apply BitVec.eq_of_toNat_eq
  simp only [ror, BitVec.toNat_setWidth, BitVec.toNat_ushiftRight, BitVec.toNat_ofNat,
    Nat.shiftRight_eq_div_pow]
  omega

theorem cfg256_ok : CfgOK cfg256 BLAKE.p256 (BitVec.ofNat 64) where
  load := load32
  table := cTable32_eq
  calls := calls32_eq
  distinct := calls32_distinct
  rot := rfl
  rot1 := by decide
  rot2 := by decide
  rot3 := by decide
  rot4 := by decide
  t0 := ror32_lo
  t1 := ror32_hi
  add := fun n k _ => by
    show BitVec.ofNat 64 n + BitVec.ofInt 64 (k : Int) = _
    rw [BitVec.ofInt_natCast, BitVec.ofNat_add]
  pos := fun k _ => by
    show decide ((k : Int) > 0) = _
    simp

theorem cfg224_ok : CfgOK cfg224 BLAKE.p256 (BitVec.ofNat 64) where
  load := load32
  table := cTable32_eq
  calls := calls32_eq
  distinct := calls32_distinct
  rot := rfl
  rot1 := by decide
  rot2 := by decide
  rot3 := by decide
  rot4 := by decide
  t0 := ror32_lo
  t1 := ror32_hi
  add := fun n k hk => by
    show BitVec.ofNat 64 n + (BitVec.ofInt 32 (k : Int)).setWidth 64 = _
    rw [BitVec.ofInt_natCast, BitVec.ofNat_add]
    congr 1
    apply BitVec.eq_of_toNat_eq
    simp; omega
  pos := fun k hk => by
    show decide ((BitVec.ofInt 32 (k : Int)).toNat > 0) = _
    rw [BitVec.ofInt_natCast, BitVec.toNat_ofNat, Nat.mod_eq_of_lt (by omega)]

theorem cfg512_ok : CfgOK cfg512 BLAKE.p512 cnt128 where
  load := load64
  table := cTable64_eq
  calls := calls64_eq
  distinct := calls64_distinct
  rot := rfl
  rot1 := by decide
  rot2 := by decide
  rot3 := by decide
  rot4 := by decide
  t0 := fun _ => rfl
  t1 := fun _ => rfl
  add := fun n k hk => by
    show (cnt128 n).add (BitVec.ofInt 64 (k : Int)) = _
    rw [BitVec.ofInt_natCast]
    exact cntAct128 n k (by omega)
  pos := fun k _ => by
    show decide ((k : Int) > 0) = _
    simp

theorem wrap_fold (e : Byte) (m : List Byte) (h : Vector (BitVec 32) 8) :
    ((tailBlocks 64 8 e m).foldl
        (fun s b => body cfg224 (padZeros 64 8 m.length + (8 + 1)) s (toBlock 64 b))
        ⟨BitVec.ofNat 64 (8 * 64 * (m.length / 64)), h⟩).h =
      ((tailBlocks 64 8 e m).zipIdx (m.length / 64)).foldl
        (fun h b => BLAKE.compress BLAKE.p256 h b.1 (BLAKE.wrapCounter m.length b.2)) h := by
  have ok := cfg224_ok
  have hlt := Nat.mod_lt m.length (show 0 < 64 by omega)
  by_cases hs : m.length % 64 < 64 - 8
  · rw [tail_one_fold (by decide) ok e m hs h]
    obtain ⟨b, e1, hb⟩ := tail_one (B := 64) (L := 8) (by decide) e m hs
    rw [e1]
    simp only [List.foldl_cons, List.foldl_nil, List.zipIdx_cons, List.zipIdx_nil]
    unfold BLAKE.wrapCounter
    rw [if_neg (by omega)]
  · obtain ⟨b, b', e1, hb, hb'⟩ := tail_two (B := 64) (L := 8) (by decide) e m (by omega)
    have hP : BitVec.ofInt 32 ((((64 : Nat) : Int) - ((padZeros 64 8 m.length + (8 + 1) : Nat) : Int)) * 8)
        = BitVec.ofNat 32 (2 ^ 32 - 8 * (64 - m.length % 64)) := by
      rw [padZeros_two _ (by decide) (by omega)]
      apply BitVec.eq_of_toNat_eq
      rw [BitVec.toNat_ofInt, BitVec.toNat_ofNat]
      omega
    have hpos : cfg224.positive ((((64 : Nat) : Int) - ((padZeros 64 8 m.length + (8 + 1) : Nat) : Int)) * 8)
        = true := by
      show decide ((BitVec.ofInt 32 _).toNat > 0) = true
      rw [hP, BitVec.toNat_ofNat, Nat.mod_eq_of_lt (by omega)]
      simp; omega
    have hadd : ∀ n, cfg224.addBits (BitVec.ofNat 64 n)
        ((((64 : Nat) : Int) - ((padZeros 64 8 m.length + (8 + 1) : Nat) : Int)) * 8)
        = BitVec.ofNat 64 (n + (2 ^ 32 - 8 * (64 - m.length % 64))) := by
      intro n
      show BitVec.ofNat 64 n + (BitVec.ofInt 32 _).setWidth 64 = _
      rw [hP, BitVec.ofNat_add]
      congr 1
      apply BitVec.eq_of_toNat_eq
      rw [BitVec.toNat_setWidth, BitVec.toNat_ofNat, BitVec.toNat_ofNat]
      omega
    rw [e1]
    simp only [List.foldl_cons, List.foldl_nil, List.zipIdx_cons, List.zipIdx_nil]
    rw [body_pos ok _ (8 * 64 * (m.length / 64) + (2 ^ 32 - 8 * (64 - m.length % 64)))
        ⟨BitVec.ofNat 64 (8 * 64 * (m.length / 64)), h⟩ _ hpos (hadd _),
      body_pos ok _ (8 * 64 * (m.length / 64) + (2 ^ 32 - 8 * (64 - m.length % 64)) +
        (2 ^ 32 - 8 * (64 - m.length % 64))) _ _ hpos (hadd _), toList_toBlock b hb,
      toList_toBlock b' hb']
    unfold BLAKE.wrapCounter
    rw [if_pos ⟨by omega, by omega⟩, if_pos ⟨by omega, by omega⟩]
    rw [show ∀ q K, 512 * q + (q - q + 1) * K = 8 * 64 * q + K from fun q K => by
        rw [Nat.sub_self, Nat.zero_add, Nat.one_mul],
      show ∀ q K, 512 * q + (q + 1 - q + 1) * K = 8 * 64 * q + K + K from fun q K => by
        rw [Nat.add_sub_cancel_left]; omega]

/-! ### The four classes -/

def fin64 : FinOK (BitVec.ofNat 64) 8 cntAdd64 lenWritesBE64 where
  total := fun n k hk => cntAct64 n k hk
  field := fun x => toBE 8 x.toNat
  writes := by
    constructor
    · intro s c hs w hw
      simp [lenWritesBE64, List.range_succ] at hw
      rcases hw with h | h | h | h | h | h | h | h <;> subst h <;> simp only [] <;> omega
    · intro l c
      rw [← storeBE_eq]
      simp [lenWritesBE64, List.range_succ, storeBE, Nat.add_assoc, List.replicate, ror_ror]
  field_eq := fun n => by
    rw [BitVec.toNat_ofNat, show (2 : Nat) ^ 64 = 256 ^ 8 from by decide, toBE_mod]

def fin128 : FinOK cnt128 16 cntAdd128 lenWritesBE128 where
  total := fun n k hk => cntAct128 n k hk
  field := fun x => toBE 8 x.hi.toNat ++ toBE 8 x.lo.toNat
  writes := by
    constructor
    · intro s c hs w hw
      simp [lenWritesBE128, List.range_succ] at hw
      rcases hw with h | h | h | h | h | h | h | h | h | h | h | h | h | h | h | h <;> subst h <;>
        simp only [] <;> omega
    · intro l c
      rw [← storeBE_eq, ← storeBE_eq]
      simp [lenWritesBE128, List.range_succ, storeBE, Nat.add_assoc, List.replicate]
  field_eq := cnt128_field

theorem den_nil (init : MDState C (Vector (BitVec w) 8)) : den c init [] = init := by
  unfold den mdFold
  rw [blocks_nil]
  rfl

theorem hashWith_length (t : Nat → Nat → Nat) (p : BLAKE.Params w) (B L : Nat) (e : Byte)
    (iv : Vector (BitVec w) 8) (m : List Byte) :
    (BLAKE.hashWith t p B L e iv m).length = 8 * (w / 8) := by
  unfold BLAKE.hashWith
  rw [bytesBE_length, Vector.length_toList, Nat.mul_comm]

/-- A class refines the hash with the counter rule `t`. -/
def refinesWith {L : Nat} (hL : L + 1 ≤ B) (hBS : 16 * B < 2 ^ 64) (ok : CfgOK c p val)
    {total : C → Nat → C} {writes : Nat → C → List (Nat × Byte)} (fk : FinOK val L total writes)
    (marker : Bool) (iv : Vector (BitVec w) 8) (words : Nat) (hw : words ≤ 8) (t : Nat → Nat → Nat)
    (hearly : ∀ (m : List Byte) i, i < m.length / B → t m.length i = 8 * B * (i + 1))
    (htail : ∀ (m : List Byte) h, ((tailBlocks B L (ebyte marker) m).foldl
        (fun s b => body c (padZeros B L m.length + (L + 1)) s (toBlock B b))
        ⟨val (8 * B * (m.length / B)), h⟩).h =
      ((tailBlocks B L (ebyte marker) m).zipIdx (m.length / B)).foldl
        (fun h b => BLAKE.compress p h b.1 (t m.length b.2)) h) :
    Refines (blockApi B (impl c 0) ⟨val 0, iv⟩ (finalize c L marker total writes)
        (toArray (w / 8) words (words * (w / 8))))
      (fun m => .ok ((BLAKE.hashWith t p B L (ebyte marker) iv m).take (words * (w / 8)))) :=
  blockRefines (out := toArray (w / 8) words (words * (w / 8))) (by omega) (by omega) (by omega)
    (den_nil _) (implOK (c := c) (by omega) ⟨val 0, iv⟩)
    (fun o m => o.chain = (tailBlocks B L (ebyte marker) m).foldl
        (fun s b => body c (padZeros B L m.length + (L + 1)) s (toBlock B b))
        (den c ⟨val 0, iv⟩ (alignedPart B m)))
    (finalize_rel hL hBS ok fk marker iv)
    (dig := fun m => .ok ((BLAKE.hashWith t p B L (ebyte marker) iv m).take (words * (w / 8))))
    (by
      intro o m h
      rw [← hash_of_tail (by omega) ok (ebyte marker) iv (padZeros B L m.length + (L + 1)) m t
        (hearly m) (htail m), ← h]
      unfold toArray
      rw [flatMap_storeBE, Nat.mul_comm words, bytesBE_take words _ (by simpa using hw), Nat.mul_comm]
      apply resultArray_exact
      rw [List.length_take, bytesBE_length, Vector.length_toList]
      have := Nat.mul_le_mul_right (w / 8) hw
      rw [Nat.mul_comm (w / 8) 8]
      omega)

theorem iv224_eq : BLAKE.iv SHA2.H224 = iv224 := by decide +kernel
theorem iv256_eq : BLAKE.iv SHA2.H256 = iv256 := by decide +kernel
theorem iv384_eq : BLAKE.iv SHA2.H384 = iv384 := by decide +kernel
theorem iv512_eq : BLAKE.iv SHA2.H512 = iv512 := by decide +kernel

def refines224 : Refines Blake1_224 (fun m => .ok (BLAKE.dig224 m)) :=
  (refinesWith (by decide) (by decide) cfg224_ok fin64 false iv224 7 (by decide) BLAKE.wrapCounter
    wrap_early (wrap_fold _)).congr (fun m => by unfold BLAKE.dig224; rw [iv224_eq]; rfl)

def refines256 : Refines Blake1_256 (fun m => .ok (BLAKE.dig256 m)) :=
  (refinesWith (by decide) (by decide) cfg256_ok fin64 true iv256 8 (by decide) (BLAKE.skipCounter 64 8)
    skip_early (skip_fold (by decide) cfg256_ok (fun n hn => by
      show decide (n > 0) = false
      simpa using hn) _)).congr (fun m => by
    unfold BLAKE.dig256
    rw [iv256_eq, List.take_of_length_le (by rw [hashWith_length]; decide)]; rfl)

def refines384 : Refines Blake1_384 (fun m => .ok (BLAKE.dig384 m)) :=
  (refinesWith (by decide) (by decide) cfg512_ok fin128 false iv384 6 (by decide) (BLAKE.skipCounter 128 16)
    skip_early (skip_fold (by decide) cfg512_ok (fun n hn => by
      show decide (n > 0) = false
      simpa using hn) _)).congr (fun m => by
    unfold BLAKE.dig384; rw [iv384_eq]; rfl)

def refines512 : Refines Blake1_512 (fun m => .ok (BLAKE.dig512 m)) :=
  (refinesWith (by decide) (by decide) cfg512_ok fin128 true iv512 8 (by decide) (BLAKE.skipCounter 128 16)
    skip_early (skip_fold (by decide) cfg512_ok (fun n hn => by
      show decide (n > 0) = false
      simpa using hn) _)).congr (fun m => by
    unfold BLAKE.dig512
    rw [iv512_eq, List.take_of_length_le (by rw [hashWith_length]; decide)]; rfl)

theorem dig224_length (m : List Byte) : (BLAKE.dig224 m).length = 28 := by
  unfold BLAKE.dig224; rw [List.length_take, hashWith_length]; decide
theorem dig256_length (m : List Byte) : (BLAKE.dig256 m).length = 32 := by
  unfold BLAKE.dig256; rw [hashWith_length]
theorem dig384_length (m : List Byte) : (BLAKE.dig384 m).length = 48 := by
  unfold BLAKE.dig384; rw [List.length_take, hashWith_length]; decide
theorem dig512_length (m : List Byte) : (BLAKE.dig512 m).length = 64 := by
  unfold BLAKE.dig512; rw [hashWith_length]

theorem hashWith_congr (t t' : Nat → Nat → Nat) (p : BLAKE.Params w) (B L : Nat) (e : Byte)
    (iv : Vector (BitVec w) 8) (m : List Byte) (h : ∀ i, t m.length i = t' m.length i) :
    BLAKE.hashWith t p B L e iv m = BLAKE.hashWith t' p B L e iv m := by
  unfold BLAKE.hashWith
  simp only [h]

theorem dig224_eq (m : List Byte) (h : m.length % 64 < 56) : BLAKE.dig224 m = BLAKE.blake224 m := by
  unfold BLAKE.dig224 BLAKE.blake224 BLAKE.hash
  rw [hashWith_congr BLAKE.wrapCounter (BLAKE.counter 64) _ _ _ _ _ _ (fun i => if_neg (by omega))]

theorem dig256_eq (m : List Byte) (h : m.length % 64 < 56) : BLAKE.dig256 m = BLAKE.blake256 m := by
  unfold BLAKE.dig256 BLAKE.blake256 BLAKE.hash
  rw [hashWith_congr (BLAKE.skipCounter 64 8) (BLAKE.counter 64) _ _ _ _ _ _ (fun i => if_neg (by omega))]

theorem dig384_eq (m : List Byte) (h : m.length % 128 < 112) : BLAKE.dig384 m = BLAKE.blake384 m := by
  unfold BLAKE.dig384 BLAKE.blake384 BLAKE.hash
  rw [hashWith_congr (BLAKE.skipCounter 128 16) (BLAKE.counter 128) _ _ _ _ _ _ (fun i => if_neg (by omega))]

theorem dig512_eq (m : List Byte) (h : m.length % 128 < 112) : BLAKE.dig512 m = BLAKE.blake512 m := by
  unfold BLAKE.dig512 BLAKE.blake512 BLAKE.hash
  rw [hashWith_congr (BLAKE.skipCounter 128 16) (BLAKE.counter 128) _ _ _ _ _ _ (fun i => if_neg (by omega))]

end Verif.Proof.BLAKE
