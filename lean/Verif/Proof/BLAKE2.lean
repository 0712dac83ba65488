import Verif.Model.BLAKE2
import Verif.Spec.BLAKE2
import Verif.Proof.BLAKE

/-! The BLAKE2 classes refine RFC 7693. -/

namespace Verif.Proof.BLAKE2
open Verif.Spec Verif.Model.BLAKE2
open Verif.Proof.BLAKE (Distinct mixAt mixAt_eq foldl_mem_congr outH)

variable {w B : Nat} {C : Type}

/-- What one call does, as the specification describes a step. -/
def view (k : Call) : (Fin 16 × Fin 16 × Fin 16 × Fin 16) × Nat × Nat :=
  ((k.a, k.b, k.c, k.d), k.x, k.y)

/-- The steps of the specification in order. -/
def specCalls (rounds : Nat) : List ((Fin 16 × Fin 16 × Fin 16 × Fin 16) × Nat × Nat) :=
  (List.range rounds).flatMap fun r => (List.range 8).map fun i =>
    (BLAKE.quad i, BLAKE.sigma r (2 * i), BLAKE.sigma r (2 * i + 1))

theorem calls64_eq : calls64.map view = specCalls 12 := by decide +kernel
theorem calls32_eq : calls32.map view = specCalls 10 := by decide +kernel
theorem calls64_distinct : ∀ k ∈ calls64, Distinct (k.a, k.b, k.c, k.d) := by decide +kernel
theorem calls32_distinct : ∀ k ∈ calls32, Distinct (k.a, k.b, k.c, k.d) := by decide +kernel

theorem spec_fold (p : BLAKE2.Params w) (M : Nat → BitVec w) (v : Vector (BitVec w) 16) :
    (List.range p.rounds).foldl (BLAKE2.round p M) v =
      (specCalls p.rounds).foldl (fun v k => BLAKE.G p.rot v k.1 (M k.2.1) (M k.2.2)) v := by
  unfold specCalls
  rw [List.foldl_flatMap]
  congr 1

/-- `val n` is the counter that has counted `n` bytes; the configuration is that of `p`. -/
structure CfgOK (c : Cfg w B C) (p : BLAKE2.Params w) (val : Nat → C) : Prop where
  load : ∀ (m : Block B) (t : Fin 16), c.load m t = wordLE w m.toList t
  iv : c.iv = p.IV
  calls : c.calls.map view = specCalls p.rounds
  distinct : ∀ k ∈ c.calls, Distinct (k.a, k.b, k.c, k.d)
  rot : p.rot = ⟨c.r1, c.r2, c.r3, c.r4⟩
  rot1 : c.r1 < w
  rot2 : c.r2 < w
  rot3 : c.r3 < w
  rot4 : c.r4 < w
  t0 : ∀ n, c.t0 (val n) = BitVec.ofNat w n
  t1 : ∀ n, c.t1 (val n) = BitVec.ofNat w (n / 2 ^ w)
  zero : c.zero = val 0
  add : ∀ n k : Nat, k ≤ B → c.addBytes (val n) k = val (n + k)
  nn : c.nn = w

variable {c : Cfg w B C} {p : BLAKE2.Params w} {val : Nat → C}

theorem mix_fold (ok : CfgOK c p val) (m : Block B) (v : Vector (BitVec w) 16) :
    c.calls.foldl (mix c m) v = (List.range p.rounds).foldl (BLAKE2.round p (wordLE w m.toList)) v := by
  rw [spec_fold, ← ok.calls, List.foldl_map]
  apply foldl_mem_congr
  intro v k hk
  have h1 : mix c m v k = mixAt v k.a k.b k.c k.d (c.load m k.x) (c.load m k.y)
    c.r1 c.r2 c.r3 c.r4 := rfl
  rw [h1, mixAt_eq _ _ _ _ _ _ _ _ _ _ _ ok.rot1 ok.rot2 ok.rot3 ok.rot4 (ok.distinct k hk),
    ok.load, ok.load, ok.rot]
  rfl

/-- the array `v` before the mixing calls -/
def initV (iv h : Vector (BitVec w) 8) (t0 t1 x : BitVec w) : Vector (BitVec w) 16 :=
  #v[h[0], h[1], h[2], h[3], h[4], h[5], h[6], h[7],
    iv[0], iv[1], iv[2], iv[3], iv[4] ^^^ t0, iv[5] ^^^ t1, x, iv[7]]

theorem body_out (f : Bool) (P : Nat) (s : State w C) (m : Block B) :
    body c f P s m = ⟨c.addBytes s.sizeCounter ((B : Int) - P),
      outH s.h (c.calls.foldl (mix c m) (initV c.iv s.h
        (c.t0 (c.addBytes s.sizeCounter ((B : Int) - P)))
        (c.t1 (c.addBytes s.sizeCounter ((B : Int) - P)))
        (if f then ~~~c.iv[6] else c.iv[6])))⟩ := rfl

theorem F_out (h : Vector (BitVec w) 8) (m : List Byte) (t : Nat) (f : Bool) :
    BLAKE2.F p h m t f = outH h ((List.range p.rounds).foldl (BLAKE2.round p (wordLE w m))
      (initV p.IV h (BitVec.ofNat w t) (BitVec.ofNat w (t / 2 ^ w))
        (if f then p.IV[6] ^^^ BitVec.allOnes w else p.IV[6]))) := by
  unfold BLAKE2.F outH
  simp only [BitVec.xor_assoc]
  rfl

theorem body_eq (ok : CfgOK c p val) (f : Bool) (P n : Nat) (hP : P ≤ B) (h : Vector (BitVec w) 8)
    (m : Block B) :
    body c f P ⟨val n, h⟩ m = ⟨val (n + (B - P)), BLAKE2.F p h m.toList (n + (B - P)) f⟩ := by
  have e : (B : Int) - P = ((B - P : Nat) : Int) := by omega
  rw [body_out, e, ok.add _ _ (by omega), ok.t0, ok.t1, mix_fold ok, F_out, ok.iv, BitVec.xor_allOnes]

/-! ### Whole blocks of the message -/

/-- the state after a whole number of non-final blocks -/
def den (c : Cfg w B C) : List Byte → State w C := mdFold B (body c false 0) (init c)

theorem blocks_fold (ok : CfgOK c p val) (l : List (List Byte)) (i : Nat)
    (hl : ∀ b ∈ l, b.length = B) (h : Vector (BitVec w) 8) :
    l.foldl (fun s b => body c false 0 s (toBlock B b)) ⟨val (B * i), h⟩ =
      ⟨val (B * (i + l.length)),
        (l.zipIdx i).foldl (fun h b => BLAKE2.F p h b.1 (B * (b.2 + 1)) false) h⟩ := by
  induction l generalizing i h with
  | nil => rfl
  | cons b l ih =>
    have hb : body c false 0 ⟨val (B * i), h⟩ (toBlock B b) =
        ⟨val (B * (i + 1)), BLAKE2.F p h b (B * (i + 1)) false⟩ := by
      rw [body_eq ok false 0 _ (Nat.zero_le _), toList_toBlock b (hl b (by simp)), Nat.sub_zero,
        ← Nat.mul_succ]
    rw [List.foldl_cons, List.zipIdx_cons, List.foldl_cons, hb, ih (i + 1) (fun b h => hl b (by simp [h])),
      List.length_cons]
    rw [show i + 1 + l.length = i + (l.length + 1) by omega]

theorem init_eq (ok : CfgOK c p val) : init c = ⟨val 0, BLAKE2.h0 p w⟩ := by
  unfold init BLAKE2.h0
  rw [ok.zero, ok.iv, ok.nn]
  rfl

theorem den_eq (ok : CfgOK c p val) (hB : 0 < B) (m : List Byte) (hm : m.length % B = 0) :
    den c m = ⟨val m.length, (blocks B m).zipIdx.foldl
      (fun h b => BLAKE2.F p h b.1 (B * (b.2 + 1)) false) (BLAKE2.h0 p w)⟩ := by
  have := blocks_fold ok (blocks B m) 0 (fun b h => mem_blocks_length B m b h) (BLAKE2.h0 p w)
  rw [Nat.mul_zero, blocks_length B m hB] at this
  unfold den mdFold
  rw [init_eq ok, this]
  have e : B * (m.length / B) = m.length := by
    have := Nat.div_add_mod m.length B; omega
  rw [Nat.zero_add, e]

theorem impl_eq (hB : 0 < B) (f : Bool) (P : Nat) (s : State w C) (d : List Byte)
    (hd : d.length % B = 0) :
    impl c f P s d = .ok ((blocks B d).foldl (fun s b => body c f P s (toBlock B b)) s) := by
  unfold impl
  rw [forBlocks_eq B hB]
  simp [hd]

theorem implOK (hB : 0 < B) : ImplOK B (impl c false 0) (den c) := by
  intro m d hm hd _
  rw [impl_eq hB false 0 _ _ hd]
  unfold den
  rw [mdFold_append B _ _ hB m d hm]

/-! ### The buffer that always keeps the last block -/

/-- The object state that represents the message `m`: whole blocks `a` compressed, between 1 and
`B` bytes `r` kept back (none only if the message is empty). -/
def LRel {S : Type} (B : Nat) (den : List Byte → S) (o : Obj B S) (m : List Byte) : Prop :=
  ∃ a r, m = a ++ r ∧ a.length % B = 0 ∧ r.length ≤ B ∧ (r = [] → a = []) ∧
    o.chain = den a ∧ o.buffer.Holds r

variable {S : Type}

theorem relChain (hB : 0 < B) {den : List Byte → S} {o o' : Obj B S} {m m' : List Byte} (h : LRel B den o m)
    (h' : LRel B den o' m') (l : m.length < B) (l' : m'.length < B) : o.chain = o'.chain := by
  have key : ∀ {o : Obj B S} {m : List Byte}, LRel B den o m → m.length < B → o.chain = den [] := by
    rintro o m ⟨a, r, rfl, ha, -, -, hc, -⟩ l
    rw [List.length_append] at l
    rw [Nat.mod_eq_of_lt (by omega)] at ha
    rw [hc, List.length_eq_zero_iff.1 ha]
  rw [key h l, key h' l']

theorem addDataTail_rel (hB : 0 < B) {imp : S → List Byte → Except Fault S} {den : List Byte → S}
    (hi : ImplOK B imp den) {o : Obj B S} {a : List Byte} (ha : a.length % B = 0)
    (hc : o.chain = den a) (data : List Byte) (hd : data.length < 2 ^ 64) (h0 : data ≠ []) :
    ∃ o', Model.BLAKE2.addDataTail B imp o data = .ok o' ∧ LRel B den o' (a ++ data) := by
  have hpos : 0 < data.length := List.length_pos_iff.mpr h0
  have hmod := Nat.mod_lt data.length hB
  have hdm := Nat.div_add_mod data.length B
  obtain ⟨k, hk⟩ : ∃ k, k = data.length - (if data.length % B ≠ 0 then data.length % B else B) := ⟨_, rfl⟩
  have hkm : k % B = 0 ∧ k < data.length ∧ data.length ≤ k + B := by
    have hle := Nat.mod_le data.length B
    by_cases hz : data.length % B = 0
    · rw [if_neg (by simpa using hz)] at hk
      have hge : B ≤ data.length := by
        apply Nat.le_of_not_lt
        intro hlt
        rw [Nat.mod_eq_of_lt hlt] at hz
        omega
      refine ⟨?_, by omega, by omega⟩
      rw [hk, ← Nat.mod_eq_sub_mod hge]; exact hz
    · rw [if_pos hz] at hk
      refine ⟨?_, by omega, by omega⟩
      rw [hk]
      have := Nat.mul_mod_right B (data.length / B)
      rwa [show B * (data.length / B) = data.length - data.length % B by omega] at this
  obtain ⟨hk1, hk2, hk3⟩ := hkm
  unfold Model.BLAKE2.addDataTail
  simp only []
  rw [← hk]
  have e1 : spanFirst data k = .ok (data.take k) := by unfold spanFirst; rw [if_pos (by omega)]
  have htl : (data.take k).length = k := by rw [List.length_take]; omega
  have e2 := hi a (data.take k) ha (by rw [htl]; exact hk1) (by omega)
  rw [← hc] at e2
  obtain ⟨b, e3, hb⟩ := Buffer.ofRange_holds (N := B) (data.drop k) (by rw [List.length_drop]; omega)
  rw [e1]
  simp only [bind, Except.bind]
  rw [e2]
  simp only []
  rw [e3]
  refine ⟨_, rfl, a ++ data.take k, data.drop k, ?_, ?_, ?_, ?_, rfl, hb⟩
  · rw [List.append_assoc, List.take_append_drop]
  · rw [List.length_append, htl, Nat.add_mod, ha, hk1]; simp
  · rw [List.length_drop]; omega
  · intro h
    have := congrArg List.length h
    rw [List.length_drop, List.length_nil] at this
    omega

theorem addData_rel (hB : 0 < B) (hBS : B < 2 ^ 64) {imp : S → List Byte → Except Fault S}
    {den : List Byte → S} (hi : ImplOK B imp den) (n : Nat) :
    ∀ {o : Obj B S} {m : List Byte}, LRel B den o m → ∀ data : List Byte, data.length = n →
    data.length < 2 ^ 64 → ∃ o', Model.BLAKE2.addData B imp o data = .ok o' ∧ LRel B den o' (m ++ data) := by
  induction n using Nat.strongRecOn with
  | ind n ih =>
    intro o m h data hn hd
    rw [Model.BLAKE2.addData]
    by_cases h0 : data = []
    · subst h0
      exact ⟨o, rfl, by rw [List.append_nil]; exact h⟩
    have hpos : 0 < data.length := List.length_pos_iff.mpr h0
    rw [if_neg (by simp [h0])]
    obtain ⟨a, r, hm, ha, hr, hra, hc, hb⟩ := h
    rw [hb.size_eq, hb.empty_eq]
    by_cases hfull : r.length = B
    · rw [if_pos hfull, hb.2, hc, hi a r ha (by rw [hfull, Nat.mod_self]) (by omega)]
      simp only [bind, Except.bind]
      have hal : (a ++ r).length % B = 0 := by
        rw [List.length_append, hfull, Nat.add_mod_right]; exact ha
      rw [hm]
      exact addDataTail_rel (o := ⟨o.buffer.clear, den (a ++ r)⟩) hB hi hal rfl data hd h0
    · rw [if_neg hfull]
      by_cases hre : r = []
      · rw [hre]
        simp only [List.isEmpty_nil, Bool.not_true, Bool.false_eq_true, if_false]
        have ha0 := hra hre
        rw [hre, ha0] at hm
        rw [show m = a by rw [hm, ha0]; rfl]
        exact addDataTail_rel hB hi ha hc data hd h0
      · have hrpos : 0 < r.length := List.length_pos_iff.mpr hre
        have hne : (!r.isEmpty) = true := by simp [hre]
        rw [if_pos hne]
        simp only []
        rw [if_neg (by omega)]
        obtain ⟨b, e, hb'⟩ := Buffer.pushBack_holds (data.take (min (B - r.length) data.length)) hb
          (by rw [List.length_take]; omega)
        rw [e]
        simp only []
        have hrel : LRel B den { o with buffer := b }
            (m ++ data.take (min (B - r.length) data.length)) := by
          refine ⟨a, r ++ data.take (min (B - r.length) data.length), ?_, ha, ?_, ?_, hc, hb'⟩
          · rw [hm, List.append_assoc]
          · rw [List.length_append, List.length_take]; omega
          · intro h; simp at h; exact absurd h.1 hre
        obtain ⟨o', e', h'⟩ := ih (data.drop (min (B - r.length) data.length)).length
          (by rw [List.length_drop]; omega) hrel _ rfl (by rw [List.length_drop]; omega)
        refine ⟨o', e', ?_⟩
        rw [List.append_assoc, List.take_append_drop] at h'
        exact h'

/-! ### Finalisation -/

/-- the finalised state, as the specification defines it -/
def finH (p : BLAKE2.Params w) (B : Nat) (M : List Byte) : Vector (BitVec w) 8 :=
  let d := blocks B (BLAKE2.pad B M)
  let h := d.dropLast.zipIdx.foldl (fun h b => BLAKE2.F p h b.1 (B * (b.2 + 1)) false) (BLAKE2.h0 p w)
  BLAKE2.F p h (d.getLastD []) M.length true

theorem pad_split (a r : List Byte) (ha : a.length % B = 0) (hr : r.length ≤ B)
    (hra : r = [] → a = []) :
    BLAKE2.pad B (a ++ r) = a ++ (r ++ List.replicate (B - r.length) 0) := by
  unfold BLAKE2.pad
  by_cases h : r = []
  · rw [hra h, h]; rfl
  · have hrpos : 0 < r.length := List.length_pos_iff.mpr h
    rw [if_neg (by simp [h]), List.append_assoc]
    congr 3
    rw [List.length_append, Nat.add_mod, ha, Nat.zero_add, Nat.mod_mod]
    by_cases hf : r.length = B
    · rw [hf, Nat.mod_self, Nat.sub_zero, Nat.mod_self, Nat.sub_self]
    · rw [Nat.mod_eq_of_lt (a := r.length) (by omega), Nat.mod_eq_of_lt (by omega)]

theorem finalize_rel (hB : 0 < B) (ok : CfgOK c p val) (o : Obj B (State w C)) (m : List Byte)
    (h : LRel B (den c) o m) :
    ∃ o', finalize c o = .ok o' ∧ o'.chain.h = finH p B m := by
  obtain ⟨a, r, hm, ha, hr, hra, hc, hb⟩ := h
  unfold finalize
  simp only []
  rw [hb.size_eq]
  obtain ⟨b1, e1, h1⟩ := Buffer.fill_holds hb 0 (B - r.length) (by omega) (by omega)
  rw [e1]
  simp only [bind, Except.bind]
  have hlen : (r ++ List.replicate (B - r.length) (0 : Byte)).length = B := by
    rw [List.length_append, List.length_replicate]; omega
  have hbl : blocks B (r ++ List.replicate (B - r.length) (0 : Byte)) =
      [r ++ List.replicate (B - r.length) 0] := by
    rw [blocks_cons B _ hB (by omega), List.take_of_length_le (by omega),
      List.drop_eq_nil_of_le (by omega), blocks_nil]
  rw [h1.2, impl_eq hB _ _ _ _ (by rw [hlen, Nat.mod_self]), hbl, hc, den_eq ok hB a ha]
  refine ⟨_, rfl, ?_⟩
  simp only [List.foldl_cons, List.foldl_nil]
  rw [body_eq ok true _ _ (by omega), toList_toBlock _ hlen]
  unfold finH
  simp only []
  rw [hm, pad_split a r ha hr hra, blocks_append B _ _ hB ha, hbl, List.dropLast_concat,
    List.getLastD_concat, List.length_append, show B - (B - r.length) = r.length by omega]

/-- The refinement for both classes. -/
def refinesWith (hB : 0 < B) (hBS : B < 2 ^ 64) (ok : CfgOK c p val) (k size : Nat)
    (ho : ∀ h : Vector (BitVec w) 8, resultArray size (h.toList.flatMap (storeLE k)) = .ok (bytesLE h.toList)) :
    Refines (api c k size) (fun m => .ok (BLAKE2.hash p B m)) where
  R := LRel B (den c)
  F := fun o m => o.chain.h = finH p B m
  fresh := ⟨[], [], rfl, Nat.zero_mod _, Nat.zero_le _, fun _ => rfl, by
    show init c = den c []
    unfold den mdFold
    rw [blocks_nil]
    rfl, Buffer.holds_empty⟩
  add := fun _ _ d hd h => addData_rel hB hBS (implOK hB) d.length h d rfl hd
  fin := finalize_rel hB ok
  resetR := fun _ _ _ => rfl
  resetF := fun _ _ _ => rfl
  out := fun o m h => by
    show resultArray size (o.chain.h.toList.flatMap (storeLE k)) = _
    rw [ho, h]
    rfl

theorem hash_length (p : BLAKE2.Params w) (B : Nat) (m : List Byte) :
    (BLAKE2.hash p B m).length = 8 * (w / 8) := by
  unfold BLAKE2.hash
  rw [bytesLE_length, Vector.length_toList, Nat.mul_comm]

theorem cfg2_ok : CfgOK cfg2 BLAKE2.p2b cnt128 where
  load := fun m t => loadLE64_eq m t (by omega)
  iv := BLAKE.iv512_eq.symm
  calls := calls64_eq
  distinct := calls64_distinct
  rot := rfl
  rot1 := by decide
  rot2 := by decide
  rot3 := by decide
  rot4 := by decide
  t0 := fun _ => rfl
  t1 := fun _ => rfl
  zero := rfl
  add := fun n k hk => by
    show (cnt128 n).add (BitVec.ofInt 64 (k : Int)) = _
    rw [BitVec.ofInt_natCast]
    exact cntAct128 n k (by omega)
  nn := rfl

theorem cfg2s_ok : CfgOK cfg2s BLAKE2.p2s (BitVec.ofNat 64) where
  load := fun m t => loadLE32_eq m t (by omega)
  iv := BLAKE.iv256_eq.symm
  calls := calls32_eq
  distinct := calls32_distinct
  rot := rfl
  rot1 := by decide
  rot2 := by decide
  rot3 := by decide
  rot4 := by decide
  t0 := BLAKE.ror32_lo
  t1 := BLAKE.ror32_hi
  zero := rfl
  add := fun n k hk => by
    show BitVec.ofNat 64 n + BitVec.ofInt 64 (k : Int) = _
    rw [BitVec.ofInt_natCast, BitVec.ofNat_add]
  nn := rfl

def refines2 : Refines Blake2 (fun m => .ok (BLAKE2.blake2b m)) :=
  refinesWith (by decide) (by decide) cfg2_ok 8 64 (fun h => by
    show resultArray 64 (h.toList.flatMap (storeLE (64 / 8))) = _
    rw [flatMap_storeLE]
    apply resultArray_exact
    rw [bytesLE_length, Vector.length_toList])

def refines2s : Refines Blake2s (fun m => .ok (BLAKE2.blake2s m)) :=
  refinesWith (by decide) (by decide) cfg2s_ok 4 32 (fun h => by
    show resultArray 32 (h.toList.flatMap (storeLE (32 / 8))) = _
    rw [flatMap_storeLE]
    apply resultArray_exact
    rw [bytesLE_length, Vector.length_toList])

theorem blake2b_length (m : List Byte) : (BLAKE2.blake2b m).length = 64 := hash_length _ _ m
theorem blake2s_length (m : List Byte) : (BLAKE2.blake2s m).length = 32 := hash_length _ _ m

end Verif.Proof.BLAKE2
