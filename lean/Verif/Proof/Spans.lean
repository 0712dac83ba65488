import Verif.Proof.Memory
import Verif.Model.Spans
import Verif.Proof.CShake

/-! The classes of Model/Spans.lean through pointers. -/

namespace Verif.Proof.Memory
open Verif.Model Misuse

theorem sha3Agrees (R : Nat) [SHA3.RateOK R] : Agrees (SHA3.implAt R) (SHA3.impl R) := by
  intro s mem p d hm _ _
  simp only [SHA3.implAt, SHA3.impl, SHA3.absorb, forBlocksAt_eq SHA3.body hm]
  split <;> rfl

theorem blakeAgrees {w B : Nat} {C : Type} (c : BLAKE.Cfg w B C) (n : Nat) :
    Agrees (BLAKE.implAt c n) (BLAKE.impl c n) := by
  intro s mem p d hm _ _
  simp only [BLAKE.implAt, BLAKE.impl, forBlocksAt_eq _ hm]

theorem blake2Agrees {w B : Nat} {C : Type} (c : BLAKE2.Cfg w B C) (f : Bool) (n : Nat) :
    Agrees (BLAKE2.implAt c f n) (BLAKE2.impl c f n) := by
  intro s mem p d hm _ _
  simp only [BLAKE2.implAt, BLAKE2.impl, forBlocksAt_eq _ hm]

theorem sipAgrees (C : Nat) : Agrees (SipHash.implAt C) (SipHash.impl C) := by
  intro s mem p d hm _ _
  simp only [SipHash.implAt, SipHash.impl, forBlocksAt_eq _ hm]

theorem md2Agrees : Agrees MD2.implAt MD2.impl := by
  intro s mem p d hm hp hd
  have key : ∀ (s : MD2.St) i, i ∈ List.range (d.length / 16) →
      (do
        let m ← GSpan.make (p + i * 16) 16
        let l ← (List.range 16).mapM fun j => m.get mem j
        if h : l.length = 16 then return MD2.body s ⟨l.toArray, by simpa using h⟩ else throw .assertion : Except Fault MD2.St) =
      (do
        let m ← blockAt 16 d (i * 16)
        pure (MD2.body s m)) := by
    intro s i hi
    have hi := List.mem_range.1 hi
    have hb : i * 16 + 16 ≤ d.length := by omega
    have hp0 : p ≠ 0 := hp.resolve_right (by rintro rfl; simp at hb)
    rw [make_eq (Or.inl (by omega)) (by omega), ← blockFrom_eq hm _ hb]
    simp only [okb, blockFrom]
    have e : ∀ j ∈ List.range 16, GSpan.get mem ⟨p + i * 16, 16⟩ j = mem.read (p + i * 16 + j) := by
      intro j hj
      have hj := List.mem_range.1 hj
      simp [GSpan.get, expects, okb, hj]
    have e2 : (List.range 16).mapM (fun j => GSpan.get mem ⟨p + i * 16, 16⟩ j) =
        (List.range 16).mapM (fun j => mem.read (p + i * 16 + j)) := by
      generalize List.range 16 = l at e
      induction l with
      | nil => rfl
      | cons x l ih => simp only [List.mapM_cons, e x (by simp), ih (fun j hj => e j (by simp [hj]))]
    rw [e2]
    cases (List.range 16).mapM (fun j => mem.read (p + i * 16 + j)) with
    | error _ => rfl
    | ok l =>
      simp only [okb]
      split <;> rfl
  unfold MD2.implAt MD2.impl forBlocks
  show List.foldlM _ s (List.range (d.length / 16)) = _
  generalize List.range (d.length / 16) = l at key
  induction l generalizing s with
  | nil => rfl
  | cons x l ih =>
    simp only [List.foldlM_cons]
    rw [key s x (by simp)]
    congr 1
    funext s'
    exact ih s' (fun s i hi => key s i (by simp [hi]))

theorem get_eq {mem : Mem} {p : Nat} {d : List Byte} (hm : Lies mem p d) {i : Nat} (h : i < d.length) :
    GSpan.get mem ⟨p, d.length⟩ i = .ok d[i] := by
  simp [GSpan.get, expects, okb, h, Mem.read, hm i h]

theorem crcAgrees : Agrees CRC32.addDataAt CRC32.addData := by
  intro s mem p d hm _ _
  have key : ∀ fuel k h, CRC32.tailLoopAt mem ⟨p, d.length⟩ fuel k h = CRC32.tailLoop d fuel k h := by
    intro fuel
    induction fuel with
    | zero => intro k h; rfl
    | succ n ih =>
      intro k h
      simp only [CRC32.tailLoopAt, CRC32.tailLoop]
      split
      · rename_i hk
        rw [get_eq hm hk, List.getElem?_eq_getElem hk]
        simp only [okb]
        exact ih _ _
      · rfl
  simp only [CRC32.addDataAt, CRC32.addData, forBlocksAt_eq _ hm, key]

theorem fnvAgrees (w v : Nat) : Agrees (FNV.addDataAt (w := w) v) (FNV.addData v) := by
  intro s mem p d hm _ _
  simp only [FNV.addDataAt, FNV.addData, begin_eq, end_eq, okb, iterRange_eq _ s hm (Nat.le_refl _)]
  induction d generalizing s with
  | nil => rfl
  | cons x d ih =>
    simp only [List.foldlM_cons, List.foldl_cons, okb]
    have : ∀ (l : List Byte) (s : BitVec w), List.foldlM (fun h x => (Except.ok (FNV.body v h x) : Except Fault _)) s l =
        .ok (l.foldl (FNV.body v) s) := by
      intro l
      induction l with
      | nil => intro s; rfl
      | cons y l ih => intro s; simp only [List.foldlM_cons, List.foldl_cons, okb, ih]
    exact this d _

section
variable {S : Type} {B : Nat} {implAt : S → Mem → GSpan → Except Fault S} {impl : S → List Byte → Except Fault S}

theorem blake2TailAt_eq (ha : Agrees implAt impl) (o : Obj B S) {mem : Mem} {p : Nat} {d : List Byte}
    (hm : Lies mem p d) (hp : p ≠ 0 ∨ d = []) (hd : d.length < 2 ^ 63) (h0 : d ≠ []) :
    BLAKE2.addDataTailAt B implAt o mem ⟨p, d.length⟩ = BLAKE2.addDataTail B impl o d := by
  have hp' : p ≠ 0 ∨ d.length = 0 := hp.imp id (by rintro rfl; rfl)
  have hpos := List.length_pos_iff.mpr h0
  unfold BLAKE2.addDataTailAt BLAKE2.addDataTail
  simp only []
  generalize hr : (if d.length % B ≠ 0 then d.length % B else B) = r
  have hle : r ≤ d.length := by
    subst hr
    by_cases hz : d.length % B = 0
    · rw [if_neg (by omega)]
      rcases Nat.lt_or_ge d.length B with h | h
      · rw [Nat.mod_eq_of_lt h] at hz; omega
      · exact h
    · rw [if_pos hz]; exact Nat.mod_le _ _
  have hk : d.length - r ≤ d.length := Nat.sub_le _ _
  simp only [end_eq, okb, first_eq hp' hd hk, spanFirst, hk, if_true, sub_eq hp' hd hle]
  have hl : (d.take (d.length - r)).length = d.length - r := by simp
  have e := ha o.chain mem p (d.take (d.length - r)) (hm.take _) (hp.imp id (by rintro rfl; simp)) (by omega)
  rw [hl] at e
  rw [e]
  have e2 := ofRangeAt_eq (N := B) (f := p) (l := p + d.length) (c' := p + d.length)
    (hm.drop (d.length - r)) (by simp only [List.length_drop]; omega) (by simp only [List.length_drop]; omega)
  rw [e2]

theorem blake2At_eq (ha : Agrees implAt impl) (hB63 : B < 2 ^ 63) {self : Nat} (hs : self ≠ 0) {mem : Mem} :
    ∀ (fuel : Nat) (o : Obj B S) (p : Nat) (d : List Byte), Fits o → d.length ≤ fuel → Lies mem p d →
      (p ≠ 0 ∨ d = []) → d.length < 2 ^ 63 →
      BLAKE2.addDataAt B implAt self mem fuel o ⟨p, d.length⟩ = BLAKE2.addData B impl o d := by
  intro fuel
  induction fuel with
  | zero =>
    intro o p d _ hf _ _ _
    have : d = [] := List.length_eq_zero_iff.1 (by omega)
    subst this
    rw [BLAKE2.addDataAt, BLAKE2.addData]
    rfl
  | succ fuel ih =>
    intro o p d hfit hf hm hp hd
    obtain ⟨l, hl⟩ := hfit
    have hle := hl.le
    rw [BLAKE2.addDataAt, BLAKE2.addData]
    by_cases h0 : d = []
    · subst h0; rfl
    have hpos := List.length_pos_iff.mpr h0
    have he : d.isEmpty = false := by
      cases d with
      | nil => exact absurd rfl h0
      | cons => rfl
    have hp' : p ≠ 0 ∨ d.length = 0 := hp.imp id (by rintro rfl; rfl)
    simp only [he, Bool.false_eq_true, if_false, if_neg (show ¬ d.length = 0 by omega)]
    by_cases hfull : o.buffer.size = B
    · simp only [hfull, if_true]
      rw [make_eq (Or.inl hs) hB63]
      simp only [okb]
      have e2 := ha o.chain (o.buffer.mem self) self _ (holds_lies hl self) (Or.inl hs) (by omega)
      rw [← hl.size_eq, hfull] at e2
      rw [e2, hl.2]
      congr 1
      funext c
      exact blake2TailAt_eq ha _ hm hp hd h0
    · simp only [hfull, if_false]
      by_cases hemp : (!o.buffer.empty) = true
      · simp only [hemp, if_true]
        have hsz := hl.size_eq
        have hk : min (B - o.buffer.size) d.length ≤ d.length := Nat.min_le_right _ _
        have hk0 : ¬ min (B - o.buffer.size) d.length = 0 := by omega
        simp only [hk0, if_false, begin_eq, okb, add_eq hp' hd hk, subspan_eq hd hk]
        have e := pushBackAt_eq (f := p) (l := p + d.length) (c' := p + min (B - o.buffer.size) d.length) o.buffer
          (hm.take (min (B - o.buffer.size) d.length)) (by simp only [List.length_take]; omega) (by simp)
        rw [e]
        obtain ⟨b, eb, hb⟩ := Buffer.pushBack_holds (d.take (min (B - o.buffer.size) d.length)) hl
          (by rw [List.length_take, hl.size_eq]; omega)
        simp only [eb, okb]
        have := ih { o with buffer := b } (p + min (B - o.buffer.size) d.length) (d.drop (min (B - o.buffer.size) d.length))
          ⟨_, hb⟩ (by rw [List.length_drop]; omega) (hm.drop _) (Or.inl (by
            rcases hp with h | h
            · omega
            · exact absurd h h0)) (by rw [List.length_drop]; omega)
        rw [List.length_drop] at this
        exact this
      · simp only [hemp, Bool.false_eq_true, if_false]
        exact blake2TailAt_eq ha _ hm hp hd h0

end

/-! Histories, family by family; `self` is where the buffer of the object lies. -/

theorem blockSafe {N : Nat} {S : Type} {B : Nat} {A : API (Obj N S)} (t : Total A) {P : S → Prop}
    {implAt : S → Mem → GSpan → Except Fault S} {impl : S → List Byte → Except Fault S}
    (hI : ∀ o, t.I o → Room B P o) (hA : A.addData = addData B impl) (hB : B ≤ N) (hB63 : B < 2 ^ 63)
    (ha : Agrees implAt impl) {self : Nat} (hs : self ≠ 0) : A.MemorySafe (addDataAt B implAt self) := by
  apply memorySafe t
  intro o ho mem p d hm hp hd
  obtain ⟨⟨l, hl, hlt⟩, _⟩ := hI o ho
  rw [hA]
  exact addDataAt_eq hB ha hs hl (by omega) hB63 hm hp hd

/-! cSHAKE and TupleHash -/

section
open CShake Proof.CShake
variable {R : Nat} [SHA3.RateOK R]

/-- the Keccak object in use has room in its buffer -/
def Ready (c : Bool) (d : Nat) (o : CShake R) : Prop := ∃ x, o = Proof.CShake.mk c ⟨d, x⟩ ∧ Room R (fun _ => True) x

theorem rate_lt : R < 2 ^ 63 := by
  have := SHA3.RateOK.le (R := R)
  omega

theorem spanAt_eq {c : Bool} {d : Nat} {o : CShake R} (h : Ready c d o) {self : Nat} (hs : self ≠ 0) {mem : Mem}
    {p : Nat} {l : List Byte} (hm : Lies mem p l) (hp : p ≠ 0 ∨ l = []) (hl : l.length < 2 ^ 63) :
    addDataSpanAt self o mem ⟨p, l.length⟩ = CShake.addData o l := by
  obtain ⟨x, rfl, ⟨k, hk, hlt⟩, _⟩ := h
  have e := addDataAt_eq (Nat.le_refl R) (sha3Agrees R) hs hk (by omega) rate_lt hm hp hl
  cases c <;>
    simp only [addDataSpanAt, CShake.addData, onActive, Proof.CShake.mk, callK, API.step, SHA3.Keccak, blockApi, e,
      Bool.false_eq_true, if_false, if_true, Bool.true_eq_false]

theorem ready_step {c : Bool} {d : Nat} {o : CShake R} (h : Ready c d o) (op : Op) (ho : AnyOrder [op]) :
    ∃ o', CShake.step o op = .ok o' ∧ Ready c d o' := by
  obtain ⟨x, rfl, hx⟩ := h
  obtain ⟨y, e, hy⟩ := (sha3Total R (padOf c) d).run [op] x ho hx
  refine ⟨Proof.CShake.mk c ⟨d, y⟩, ?_, y, rfl, hy⟩
  have := run_mk c d x [op]
  rw [e] at this
  simp only [CShake.run] at this
  generalize CShake.step (Proof.CShake.mk c ⟨d, x⟩) op = z at this
  cases z with
  | error f => cases this
  | ok z => exact this

theorem ready_add {c : Bool} {d : Nat} {o : CShake R} (h : Ready c d o) (l : List Byte) (hl : l.length < 2 ^ 64) :
    ∃ o', CShake.addData o l = .ok o' ∧ Ready c d o' :=
  ready_step h (.add l) (by intro y hy; simp only [List.mem_singleton, Op.add.injEq] at hy; subst hy; exact hl)

theorem ready_fin {c : Bool} {d : Nat} {o : CShake R} (h : Ready c d o) :
    ∃ o', CShake.finalize o = .ok o' ∧ Ready c d o' := ready_step h .finalize (by intro y hy; simp at hy)

theorem ready_reset {c : Bool} {d : Nat} {o : CShake R} (h : Ready c d o) :
    ∃ o', CShake.reset o = .ok o' ∧ Ready c d o' := ready_step h .reset (by intro y hy; simp at hy)

theorem cshakeSafe {c : Bool} {d : Nat} {self : Nat} (hs : self ≠ 0) : ∀ (calls : List MemOp) (ops : List Op)
    (o : CShake R), Ready c d o → HandsAll calls ops →
      ∃ o', runAt self o calls = .ok o' ∧ CShake.run o ops = .ok o' := by
  intro calls
  induction calls with
  | nil =>
    intro ops o _ ho
    cases ops with
    | nil => exact ⟨o, rfl, rfl⟩
    | cons => exact ho.elim
  | cons call cs ih =>
    intro ops o hI ho
    cases ops with
    | nil => exact ho.elim
    | cons op ops =>
      obtain ⟨h1, h2⟩ := ho
      have : ∃ o1, stepAt self o call = .ok o1 ∧ CShake.step o op = .ok o1 ∧ Ready c d o1 := by
        cases call with
        | add mem ptr len =>
          cases op with
          | add l =>
            obtain ⟨rfl, hp, hl, hm⟩ := h1
            obtain ⟨o1, e, i⟩ := ready_add hI l (by omega)
            refine ⟨o1, ?_, e, i⟩
            simp only [stepAt, make_eq (hp.imp id (by rintro rfl; rfl)) hl, okb, spanAt_eq hI hs hm hp hl, e]
          | reset => exact h1.elim
          | finalize => exact h1.elim
        | reset =>
          cases op with
          | reset =>
            obtain ⟨o1, e, i⟩ := ready_reset hI
            exact ⟨o1, e, e, i⟩
          | add => exact h1.elim
          | finalize => exact h1.elim
        | finalize =>
          cases op with
          | finalize =>
            obtain ⟨o1, e, i⟩ := ready_fin hI
            exact ⟨o1, e, e, i⟩
          | add => exact h1.elim
          | reset => exact h1.elim
      obtain ⟨o1, e1, e2, i⟩ := this
      obtain ⟨o2, r1, r2⟩ := ih ops o1 i h2
      exact ⟨o2, by simp only [runAt, e1, okb, r1], by simp only [CShake.run, e2, okb, r2]⟩

theorem tupleSafe (nb : Nat → Nat) (hnb : Spec.SP800185.ExactLog nb) {c : Bool} {d : Nat} (hd : d < 2 ^ 28)
    {self loc : Nat} (hs : self ≠ 0) (hloc : loc ≠ 0) : ∀ (calls : List MemOp) (ops : List Op)
    (o : CShake R), Ready c d o → (∀ x, Op.add x ∈ ops → x.length < 2 ^ 53 - 256) → HandsAll calls ops →
      ∃ o', tupleRunAt nb self loc ⟨o, d⟩ calls = .ok o' ∧ tupleRun nb ⟨o, d⟩ ops = .ok o' := by
  intro calls
  induction calls with
  | nil =>
    intro ops o _ _ ho
    cases ops with
    | nil => exact ⟨⟨o, d⟩, rfl, rfl⟩
    | cons => exact ho.elim
  | cons call cs ih =>
    intro ops o hI hsm ho
    cases ops with
    | nil => exact ho.elim
    | cons op ops =>
      obtain ⟨h1, h2⟩ := ho
      have : ∃ o1, tupleStepAt nb self loc ⟨o, d⟩ call = .ok ⟨o1, d⟩ ∧ tupleStep nb ⟨o, d⟩ op = .ok ⟨o1, d⟩ ∧
          Ready c d o1 := by
        cases call with
        | add mem ptr len =>
          cases op with
          | add l =>
            obtain ⟨rfl, hp, hl, hm⟩ := h1
            have hsmall := hsm l (by simp)
            obtain ⟨b, eb, hb⟩ := leftEncode_holds nb hnb (8 * l.length) (by omega) (by omega)
            have hb8 := hb.le
            obtain ⟨o1, e1, i1⟩ := ready_add hI (Spec.SP800185.leftEncode (8 * l.length)) (by omega)
            obtain ⟨o2, e2, i2⟩ := ready_add i1 l (by omega)
            have hm8 : l.length * 8 % 2 ^ 64 = 8 * l.length := by omega
            have s1 := spanAt_eq hI hs (holds_lies hb loc) (Or.inl hloc) (by omega)
            rw [← hb.size_eq, e1] at s1
            refine ⟨o2, ?_, ?_, i2⟩
            · simp only [tupleStepAt, nextDataAt, make_eq (hp.imp id (by rintro rfl; rfl)) hl, okb, hm8, eb,
                make_eq (p := loc) (n := b.size) (Or.inl hloc) (by rw [hb.size_eq]; omega), s1, spanAt_eq i1 hs hm hp hl, e2]
              rfl
            · simp only [tupleStep, nextData, hm8, eb, okb, hb.2, e1, e2]
              rfl
          | reset => exact h1.elim
          | finalize => exact h1.elim
        | reset =>
          cases op with
          | reset =>
            obtain ⟨o1, e, i⟩ := ready_reset hI
            refine ⟨o1, ?_, ?_, i⟩ <;> simp only [tupleStepAt, tupleStep, tupleReset, e, okb] <;> rfl
          | add => exact h1.elim
          | finalize => exact h1.elim
        | finalize =>
          cases op with
          | finalize =>
            obtain ⟨b, eb, hb⟩ := rightEncode_holds nb hnb (8 * d) (by omega) (by omega)
            have hb8 := hb.le
            obtain ⟨o1, e1, i1⟩ := ready_add hI (Spec.SP800185.rightEncode (8 * d)) (by omega)
            obtain ⟨o2, e2, i2⟩ := ready_fin i1
            have hv : (BitVec.ofInt 64 ((d : Int) * 8)).toNat = 8 * d := by
              rw [show ((d : Int) * 8) = ((8 * d : Nat) : Int) by omega, BitVec.ofInt_natCast, BitVec.toNat_ofNat,
                Nat.mod_eq_of_lt (by omega)]
            have e : tupleFinalize nb ⟨o, d⟩ = .ok ⟨o2, d⟩ := by
              unfold tupleFinalize
              simp only []
              rw [if_neg (by omega), hv, eb]
              simp only [bind, Except.bind, pure, Except.pure, hb.2, e1, e2]
            exact ⟨o2, e, e, i2⟩
          | add => exact h1.elim
          | reset => exact h1.elim
      obtain ⟨o1, e1, e2, i⟩ := this
      obtain ⟨o2, r1, r2⟩ := ih ops o1 i (fun x hx => hsm x (by simp [hx])) h2
      exact ⟨o2, by simp only [tupleRunAt, e1, okb, r1], by simp only [tupleRun, e2, okb, r2]⟩

end

/-- the key constructor of SipHash -/
theorem sipConstructAt {mem : Mem} {p : Nat} {key : List Byte} (hm : Lies mem p key) :
    SipHash.constructAt mem ⟨p, key.length⟩ = SipHash.construct key := by
  unfold SipHash.constructAt SipHash.construct
  by_cases h : key.length = 16
  · have e := blockFrom_eq (B := 16) hm 0 (by omega)
    rw [Nat.add_zero] at e
    simp only [h, ne_eq, not_true, if_false, dif_pos, e, blockAt]
    rw [dif_pos (by omega)]
    simp only [okb, List.drop_zero]
    have : key.take 16 = key := List.take_of_length_le (by omega)
    simp only [this]
    rfl
  · simp only [h, ne_eq, not_false_eq_true, if_true, dif_neg]
    rfl

end Verif.Proof.Memory
