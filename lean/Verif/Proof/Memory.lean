import Verif.Core.Memory
import Verif.Proof.Misuse

/-! Through pointers `addData` does what it does on lists. -/

namespace Verif.Proof.Memory
open Verif.Model

/-- the bytes `d` lie at address `p` -/
def Lies (mem : Mem) (p : Nat) (d : List Byte) : Prop := ∀ i (h : i < d.length), mem (p + i) = some d[i]

theorem Lies.drop {mem : Mem} {p : Nat} {d : List Byte} (h : Lies mem p d) (k : Nat) : Lies mem (p + k) (d.drop k) := by
  intro i hi
  simp only [List.length_drop] at hi
  rw [Nat.add_assoc, h (k + i) (by omega)]
  simp

theorem Lies.take {mem : Mem} {p : Nat} {d : List Byte} (h : Lies mem p d) (k : Nat) : Lies mem p (d.take k) := by
  intro i hi
  simp only [List.length_take] at hi
  rw [h i (by omega)]
  simp

theorem okb {α β : Type} (a : α) (f : α → Except Fault β) : ((Except.ok a : Except Fault α) >>= f) = f a := rfl

theorem iterNe (f l c c' : Nat) : Iter.ne ⟨f, l, c⟩ ⟨f, l, c'⟩ = .ok (c != c') := by simp [Iter.ne, expects]; rfl

theorem deref_eq {mem : Mem} {f l c : Nat} {x : Byte} (h : c ≠ l) (hx : mem c = some x) :
    Iter.deref mem ⟨f, l, c⟩ = .ok x := by simp [Iter.deref, expects, okb, h, Mem.read, hx]

theorem inc_eq {f l c : Nat} (h : c ≠ l) : Iter.inc ⟨f, l, c⟩ = .ok ⟨f, l, c + 1⟩ := by
  simp [Iter.inc, expects, h]; rfl

theorem make_eq {p n : Nat} (h : p ≠ 0 ∨ n = 0) (hn : n < 2 ^ 63) : GSpan.make p n = .ok ⟨p, n⟩ := by
  have h1 : n ≠ 2 ^ 64 - 1 := by omega
  have h2 : (n != 2 ^ 64 - 1) = true := by simpa using h1
  have h3 : (p != 0 || n == 0) = true := by simpa using h
  simp only [GSpan.make, expects, h2, h3, if_true, okb]
  rfl

theorem begin_eq (p n : Nat) : GSpan.begin ⟨p, n⟩ = .ok ⟨p, p + n, p⟩ := by
  simp [GSpan.begin, Iter.make, expects]; rfl

theorem end_eq (p n : Nat) : GSpan.end ⟨p, n⟩ = .ok ⟨p, p + n, p + n⟩ := by
  simp [GSpan.end, Iter.make, expects]; rfl

theorem first_eq {p n k : Nat} (h : p ≠ 0 ∨ n = 0) (hn : n < 2 ^ 63) (hk : k ≤ n) :
    GSpan.first ⟨p, n⟩ k = .ok ⟨p, k⟩ := by
  simp only [GSpan.first, expects, hk, decide_true, if_true, okb]
  exact make_eq (by omega) (by omega)

theorem subspan_eq {p n k : Nat} (hn : n < 2 ^ 63) (hk : k ≤ n) :
    GSpan.subspan ⟨p, n⟩ k = .ok ⟨p + k, n - k⟩ := by
  have h1 : n - k ≠ 2 ^ 64 - 1 := by omega
  have h2 : (n - k != 2 ^ 64 - 1) = true := by simpa using h1
  simp only [GSpan.subspan, expects, hk, decide_true, if_true, okb, h2]
  rfl

theorem add_eq {p n k : Nat} (h : p ≠ 0 ∨ n = 0) (hn : n < 2 ^ 63) (hk : k ≤ n) :
    Iter.add ⟨p, p + n, p⟩ (Iter.toDiff k) = .ok ⟨p, p + n, p + k⟩ := by
  have e : Iter.toDiff k = (k : Int) := by simp only [Iter.toDiff]; rw [if_pos (by omega)]
  rw [e]
  have h1 : ((k : Int) == 0 || (p != 0 && p != 0 && (p + n) != 0)) = true := by
    simp only [Bool.or_eq_true, beq_iff_eq, Bool.and_eq_true, bne_iff_ne]; omega
  have h2 : (!(decide (0 < (k : Int))) || decide ((k : Int) ≤ ((p + n : Nat) : Int) - p)) = true := by
    simp only [Bool.or_eq_true, Bool.not_eq_true', decide_eq_false_iff_not, decide_eq_true_eq]; omega
  have h3 : (!(decide ((k : Int) < 0)) || decide (-(k : Int) ≤ (p : Int) - p)) = true := by
    simp only [Bool.or_eq_true, Bool.not_eq_true', decide_eq_false_iff_not, decide_eq_true_eq]; omega
  simp only [Iter.add, expects, h1, h2, h3, if_true, okb]
  rfl

theorem sub_eq {p n k : Nat} (h : p ≠ 0 ∨ n = 0) (hn : n < 2 ^ 63) (hk : k ≤ n) :
    Iter.sub ⟨p, p + n, p + n⟩ (Iter.toDiff k) = .ok ⟨p, p + n, p + (n - k)⟩ := by
  have e : Iter.toDiff k = (k : Int) := by simp only [Iter.toDiff]; rw [if_pos (by omega)]
  rw [e]
  have h1 : ((k : Int) == 0 || (p != 0 && (p + n) != 0 && (p + n) != 0)) = true := by
    simp only [Bool.or_eq_true, beq_iff_eq, Bool.and_eq_true, bne_iff_ne]; omega
  have h2 : (!(decide (0 < (k : Int))) || decide ((k : Int) ≤ ((p + n : Nat) : Int) - p)) = true := by
    simp only [Bool.or_eq_true, Bool.not_eq_true', decide_eq_false_iff_not, decide_eq_true_eq]; omega
  have h3 : (!(decide ((k : Int) < 0)) || decide (-(k : Int) ≤ ((p + n : Nat) : Int) - (p + n : Nat))) = true := by
    simp only [Bool.or_eq_true, Bool.not_eq_true', decide_eq_false_iff_not, decide_eq_true_eq]; omega
  simp only [Iter.sub, expects, h1, h2, h3, if_true, okb]
  have : (((p + n : Nat) : Int) - (k : Int)).toNat = p + (n - k) := by omega
  rw [this]
  rfl

theorem iterLoop_eq {S : Type} (mem : Mem) (body : S → Byte → Except Fault S) (d : List Byte) :
    ∀ (fuel f l c : Nat) (s : S), Lies mem c d → c + d.length ≤ l → d.length < fuel →
      iterLoop mem body fuel ⟨f, l, c⟩ ⟨f, l, c + d.length⟩ s = d.foldlM body s := by
  induction d with
  | nil =>
    intro fuel f l c s _ _ hf
    obtain ⟨k, rfl⟩ : ∃ k, fuel = k + 1 := ⟨fuel - 1, by simp at hf; omega⟩
    simp only [iterLoop, iterNe, okb, List.length_nil, Nat.add_zero, bne_self_eq_false, Bool.false_eq_true, if_false,
      List.foldlM_nil]
  | cons x d ih =>
    intro fuel f l c s hm hl hf
    obtain ⟨k, rfl⟩ : ∃ k, fuel = k + 1 := ⟨fuel - 1, by simp at hf; omega⟩
    simp only [List.length_cons] at hl hf
    have hx : mem c = some x := hm 0 (by simp)
    have hd : Lies mem (c + 1) d := by simpa using hm.drop 1
    have hne : c ≠ l := by omega
    have hc : (c != c + 1 + d.length) = true := by simp; omega
    have e : c + (d.length + 1) = c + 1 + d.length := by omega
    have := fun s => ih k f l (c + 1) s hd (by omega) (by omega)
    simp only [iterLoop, List.length_cons, e, iterNe, okb, hc, if_true, deref_eq hne hx, inc_eq hne, this,
      List.foldlM_cons]

theorem iterRange_eq {S : Type} {mem : Mem} (body : S → Byte → Except Fault S) {d : List Byte} {f l c : Nat} (s : S)
    (hm : Lies mem c d) (hl : c + d.length ≤ l) :
    iterRange mem body ⟨f, l, c⟩ ⟨f, l, c + d.length⟩ s = d.foldlM body s :=
  iterLoop_eq mem body d _ f l c s hm hl (by simp only []; omega)

theorem pushBack_foldlM {N : Nat} (d : List Byte) : ∀ b : Buffer N, b.pushBack d = d.foldlM (fun b x => b.fill x) b := by
  induction d with
  | nil => intro b; rfl
  | cons x d ih =>
    intro b
    simp only [Buffer.pushBack, List.foldlM_cons]
    exact congrArg _ (funext ih)

theorem pushBackAt_eq {N : Nat} {mem : Mem} {d : List Byte} {f l c c' : Nat} (b : Buffer N)
    (hm : Lies mem c d) (hl : c + d.length ≤ l) (hc : c' = c + d.length) :
    b.pushBackAt mem ⟨f, l, c⟩ ⟨f, l, c'⟩ = b.pushBack d := by
  subst hc
  rw [pushBack_foldlM]
  exact iterRange_eq _ b hm hl

theorem ofRangeAt_eq {N : Nat} {mem : Mem} {d : List Byte} {f l c c' : Nat}
    (hm : Lies mem c d) (hl : c + d.length ≤ l) (hc : c' = c + d.length) :
    (Buffer.ofRangeAt mem ⟨f, l, c⟩ ⟨f, l, c'⟩ : Except Fault (Buffer N)) = Buffer.ofRange d :=
  pushBackAt_eq {} hm hl hc

theorem reads {mem : Mem} {a : Nat} {d : List Byte} (hm : Lies mem a d) :
    (List.range d.length).mapM (fun i => mem.read (a + i)) = .ok d := by
  have : ∀ i ∈ List.range d.length, mem.read (a + i) = .ok (d.getD i 0) := by
    intro i hi
    have hi := List.mem_range.1 hi
    simp [Mem.read, hm i hi, List.getD_eq_getElem?_getD, hi]
  have h2 : (List.range d.length).mapM (fun i => mem.read (a + i)) =
      (List.range d.length).mapM (fun i => (.ok (d.getD i 0) : Except Fault Byte)) := by
    generalize List.range d.length = l at this
    induction l with
    | nil => rfl
    | cons x l ih => simp only [List.mapM_cons, this x (by simp), ih (fun i hi => this i (by simp [hi]))]
  rw [h2]
  have h3 : ∀ l : List Nat, l.mapM (fun i => (.ok (d.getD i 0) : Except Fault Byte)) = .ok (l.map fun i => d.getD i 0) := by
    intro l
    induction l with
    | nil => rfl
    | cons x l ih => simp only [List.mapM_cons, ih, okb]; rfl
  rw [h3]
  congr 1
  apply List.ext_getElem
  · simp
  · intro i h1 h2
    simp [List.getD_eq_getElem?_getD, h2]

theorem blockFrom_eq {B : Nat} {mem : Mem} {p : Nat} {d : List Byte} (hm : Lies mem p d) (off : Nat)
    (h : off + B ≤ d.length) : blockFrom B mem (p + off) = blockAt B d off := by
  have hl : ((d.drop off).take B).length = B := by simp; omega
  have hr := reads ((hm.drop off).take B)
  rw [hl] at hr
  simp only [blockFrom, blockAt, hr, okb, dif_pos hl, dif_pos h]
  rfl

theorem forBlocksAt_eq {S : Type} {B : Nat} (body : S → Block B → S) {mem : Mem} {p : Nat} {d : List Byte}
    (hm : Lies mem p d) (s : S) : forBlocksAt B body mem ⟨p, d.length⟩ s = forBlocks B body d s := by
  unfold forBlocksAt forBlocks
  have : ∀ i ∈ List.range (d.length / B), blockFrom B mem (p + i * B) = blockAt B d (i * B) := by
    intro i hi
    have hi := List.mem_range.1 hi
    apply blockFrom_eq hm
    have : (i + 1) * B ≤ d.length / B * B := Nat.mul_le_mul_right B hi
    have := Nat.div_mul_le_self d.length B
    rw [Nat.add_mul] at *
    omega
  show List.foldlM _ s (List.range (d.length / B)) = _
  generalize List.range (d.length / B) = l at this
  induction l generalizing s with
  | nil => rfl
  | cons x l ih =>
    simp only [List.foldlM_cons, this x (by simp)]
    congr 1
    funext s'
    exact ih s' (fun i hi => this i (by simp [hi]))

/-- `addDataImpl` through a pointer is `addDataImpl` on the list. -/
def Agrees {S : Type} (implAt : S → Mem → GSpan → Except Fault S) (impl : S → List Byte → Except Fault S) : Prop :=
  ∀ s mem p d, Lies mem p d → (p ≠ 0 ∨ d = []) → d.length < 2 ^ 63 → implAt s mem ⟨p, d.length⟩ = impl s d

theorem mdAgrees {C H : Type} (B : Nat) (cnt : Counter C) (comp : H → Block B → H) :
    Agrees (mdImplAt B cnt comp) (mdImpl B cnt comp) := by
  intro s mem p d hm _ _
  simp only [mdImplAt, mdImpl, forBlocksAt_eq comp hm]

theorem holds_lies {N : Nat} {b : Buffer N} {l : List Byte} (h : b.Holds l) (self : Nat) : Lies (b.mem self) self l := by
  intro i hi
  have hN := h.le
  have e : b.arr.toList.take b.endIdx = l := h.2
  have hk : i < N := by omega
  have h1 : (b.arr.toList.take b.endIdx)[i]? = some l[i] := by rw [e]; simp
  have h2 : b.endIdx = l.length := h.1
  rw [List.getElem?_take, if_pos (by omega)] at h1
  simp only [Buffer.mem, Nat.le_add_right, if_true, Nat.add_sub_cancel_left]
  simpa using h1

section
variable {N : Nat} {S : Type} {B : Nat} {implAt : S → Mem → GSpan → Except Fault S}
  {impl : S → List Byte → Except Fault S}

theorem addDataTailAt_eq (ha : Agrees implAt impl) (o : Obj N S) {mem : Mem} {p : Nat} {d : List Byte}
    (hm : Lies mem p d) (hp : p ≠ 0 ∨ d = []) (hd : d.length < 2 ^ 63) :
    addDataTailAt B implAt o mem ⟨p, d.length⟩ = addDataTail B impl o d := by
  have hp' : p ≠ 0 ∨ d.length = 0 := hp.imp id (by rintro rfl; rfl)
  unfold addDataTailAt addDataTail
  simp only []
  by_cases h : d.length < B
  · simp only [h, if_true, begin_eq, end_eq, okb, ofRangeAt_eq hm (Nat.le_refl _) rfl]
  · have hk : d.length - d.length % B ≤ d.length := Nat.sub_le _ _
    simp only [h, if_false, begin_eq, end_eq, okb, first_eq hp' hd hk, spanFirst, hk, if_true, add_eq hp' hd hk]
    have hl : (d.take (d.length - d.length % B)).length = d.length - d.length % B := by simp
    have e := ha o.chain mem p (d.take (d.length - d.length % B)) (hm.take _)
      (hp.imp id (by rintro rfl; rfl)) (by omega)
    rw [hl] at e
    rw [e]
    have e2 := ofRangeAt_eq (N := N) (f := p) (l := p + d.length) (c' := p + d.length)
      (hm.drop (d.length - d.length % B)) (by simp only [List.length_drop]; omega)
      (by simp only [List.length_drop]; omega)
    rw [e2]

theorem addDataAt_eq (hB : B ≤ N) (ha : Agrees implAt impl) {self : Nat} (hs : self ≠ 0) {o : Obj N S} {l : List Byte}
    (hl : o.buffer.Holds l) (hlB : l.length ≤ B) (hB63 : B < 2 ^ 63) {mem : Mem} {p : Nat} {d : List Byte}
    (hm : Lies mem p d) (hp : p ≠ 0 ∨ d = []) (hd : d.length < 2 ^ 63) :
    addDataAt B implAt self o mem ⟨p, d.length⟩ = addData B impl o d := by
  have hp' : p ≠ 0 ∨ d.length = 0 := hp.imp id (by rintro rfl; rfl)
  unfold addDataAt addData
  by_cases he : (!o.buffer.empty) = true
  · simp only [he, if_true]
    have hk : min (B - o.buffer.size) d.length ≤ d.length := Nat.min_le_right _ _
    simp only [begin_eq, okb, add_eq hp' hd hk, subspan_eq hd hk, spanSub, hk, if_true]
    have e := pushBackAt_eq (f := p) (l := p + d.length) (c' := p + min (B - o.buffer.size) d.length) o.buffer
      (hm.take (min (B - o.buffer.size) d.length)) (by simp only [List.length_take]; omega) (by simp)
    rw [e]
    obtain ⟨b, eb, hb⟩ := Buffer.pushBack_holds (d.take (min (B - o.buffer.size) d.length)) hl
      (by rw [List.length_take, hl.size_eq]; omega)
    simp only [eb, okb]
    split
    · rfl
    · rename_i hge
      have hbs : b.size = (l ++ d.take (min (B - o.buffer.size) d.length)).length := hb.size_eq
      have hsz : b.size < 2 ^ 63 := by
        rw [hbs, List.length_append, List.length_take, hl.size_eq]; omega
      rw [make_eq (Or.inl hs) hsz]
      simp only [okb]
      have e2 := ha o.chain (b.mem self) self _ (holds_lies hb self) (Or.inl hs) (by rw [← hbs]; exact hsz)
      rw [← hbs] at e2
      rw [e2, hb.2]
      congr 1
      funext c
      have e3 := addDataTailAt_eq (B := B) ha (⟨b.clear, c⟩ : Obj N S) (hm.drop (min (B - o.buffer.size) d.length))
        (by
          rcases hp with h | h
          · exact Or.inl (by omega)
          · exact Or.inr (by simp [h]))
        (by rw [List.length_drop]; omega)
      rw [List.length_drop] at e3
      exact e3
  · simp only [he, Bool.false_eq_true, if_false]
    exact addDataTailAt_eq ha o hm hp hd

end

/-- From one call to histories. -/
theorem history {O : Type} {A : API O} (t : Misuse.Total A) {addAt : O → Mem → GSpan → Except Fault O}
    (h : ∀ o, t.I o → ∀ mem p d, Lies mem p d → (p ≠ 0 ∨ d = []) → d.length < 2 ^ 63 →
      addAt o mem ⟨p, d.length⟩ = A.addData o d) : ∀ calls ops o, t.I o → HandsAll calls ops →
      ∃ o', A.runAt addAt o calls = .ok o' ∧ A.run o ops = .ok o' := by
  intro calls
  induction calls with
  | nil =>
    intro ops o _ ho
    cases ops with
    | nil => exact ⟨o, rfl, rfl⟩
    | cons => exact ho.elim
  | cons c cs ih =>
    intro ops o hI ho
    cases ops with
    | nil => exact ho.elim
    | cons op ops =>
      obtain ⟨h1, h2⟩ := ho
      have : ∃ o1, A.stepAt addAt o c = .ok o1 ∧ A.step o op = .ok o1 ∧ t.I o1 := by
        cases c with
        | add mem ptr len =>
          cases op with
          | add d =>
            obtain ⟨rfl, hp, hd, hm⟩ := h1
            obtain ⟨o1, e, i⟩ := t.add o d hI (by omega)
            refine ⟨o1, ?_, e, i⟩
            simp only [API.stepAt, make_eq (hp.imp id (by rintro rfl; rfl)) hd, okb, h o hI mem ptr d hm hp hd, e]
          | reset => exact h1.elim
          | finalize => exact h1.elim
        | reset =>
          cases op with
          | reset => exact ⟨_, rfl, rfl, t.reset o hI⟩
          | add => exact h1.elim
          | finalize => exact h1.elim
        | finalize =>
          cases op with
          | finalize =>
            obtain ⟨o1, e, i⟩ := t.fin o hI
            exact ⟨o1, e, e, i⟩
          | add => exact h1.elim
          | reset => exact h1.elim
      obtain ⟨o1, e1, e2, i⟩ := this
      obtain ⟨o2, r1, r2⟩ := ih ops o1 i h2
      exact ⟨o2, by simp only [API.runAt, e1, okb, r1], by simp only [API.run, e2, okb, r2]⟩

theorem memorySafe {O : Type} {A : API O} (t : Misuse.Total A) {addAt : O → Mem → GSpan → Except Fault O}
    (h : ∀ o, t.I o → ∀ mem p d, Lies mem p d → (p ≠ 0 ∨ d = []) → d.length < 2 ^ 63 →
      addAt o mem ⟨p, d.length⟩ = A.addData o d) : A.MemorySafe addAt :=
  fun calls ops ho => history t h calls ops A.fresh t.fresh ho

end Verif.Proof.Memory
