import Verif.Model.Spans
import Verif.Model.StdSpans

/-! # Where the text with `gsl::span` succeeds, the text with `std::span` does the same -/

namespace Verif.Proof.StdSpans
open Model

/-- `b` succeeds with the same result wherever `a` succeeds -/
def Gets {α : Type} (a b : Except Fault α) : Prop := ∀ x, a = .ok x → b = .ok x

theorem Gets.refl {α : Type} (a : Except Fault α) : Gets a a := fun _ h => h

theorem Gets.bind {α β : Type} {a b : Except Fault α} {f g : α → Except Fault β} (h : Gets a b)
    (hf : ∀ x, Gets (f x) (g x)) : Gets (a >>= f) (b >>= g) := by
  intro x e
  cases a with
  | error _ => cases e
  | ok y => rw [h y rfl]; exact hf y x e

/-- a check that only the left side makes -/
theorem Gets.drop {α β : Type} {a : Except Fault α} {f : α → Except Fault β} {b : Except Fault β}
    (h : ∀ x, a = .ok x → Gets (f x) b) : Gets (a >>= f) b := by
  intro x e
  cases a with
  | error _ => cases e
  | ok y => exact h y rfl x e

theorem Gets.ite {α : Type} {c : Prop} [Decidable c] {a b a' b' : Except Fault α} (h : Gets a a') (h' : Gets b b') :
    Gets (if c then a else b) (if c then a' else b') := by
  split
  · exact h
  · exact h'

theorem expects_ok {c : Bool} {u : Unit} (h : expects c = .ok u) : c = true := by
  unfold expects at h
  split at h
  · assumption
  · cases h

theorem expects_bind {α : Type} {c : Bool} {f : Unit → Except Fault α} {x : α} (h : (expects c >>= f) = .ok x) :
    c = true ∧ f () = .ok x := by
  cases c with
  | false => cases h
  | true => exact ⟨rfl, h⟩

/-- the same span -/
def conv (s : GSpan) : StdSpan := ⟨s.data, s.size⟩

theorem make_ok {p n : Nat} {s : GSpan} (h : GSpan.make p n = .ok s) : s = ⟨p, n⟩ := by
  have h := (expects_bind (expects_bind h).2).2
  exact (Except.ok.inj h).symm

theorem first_gets {α : Type} (s : GSpan) (n : Nat) {f : GSpan → Except Fault α} {g : StdSpan → Except Fault α}
    (h : ∀ t, Gets (f t) (g (conv t))) : Gets (s.first n >>= f) ((conv s).first n >>= g) := by
  refine Gets.drop fun t e => ?_
  have e := expects_bind e
  have e2 := make_ok e.2
  subst e2
  intro x hx
  have : (conv s).first n = .ok ⟨s.data, n⟩ := by
    unfold StdSpan.first expects
    rw [show (decide (n ≤ (conv s).size)) = true from e.1]
    rfl
  rw [this]
  exact h _ x hx

theorem subspan_gets {α : Type} (s : GSpan) (n : Nat) {f : GSpan → Except Fault α} {g : StdSpan → Except Fault α}
    (h : ∀ t, Gets (f t) (g (conv t))) : Gets (s.subspan n >>= f) ((conv s).subspan n >>= g) := by
  refine Gets.drop fun t e => ?_
  have e := expects_bind e
  have e2 := Except.ok.inj (expects_bind e.2).2
  subst e2
  intro x hx
  have : (conv s).subspan n = .ok ⟨s.data + n, s.size - n⟩ := by
    unfold StdSpan.subspan expects
    rw [show (decide (n ≤ (conv s).size)) = true from e.1]
    rfl
  rw [this]
  exact h _ x hx

theorem make_gets {α : Type} (p n : Nat) {f : GSpan → Except Fault α} {b : Except Fault α} (h : Gets (f ⟨p, n⟩) b) :
    Gets (GSpan.make p n >>= f) b := by
  refine Gets.drop fun t e => ?_
  rw [make_ok e]
  exact h

theorem get_gets (mem : Mem) (s : GSpan) (i : Nat) : Gets (s.get mem i) ((conv s).get mem i) := Gets.refl _

theorem begin_gets {α : Type} (s : GSpan) {f : Iter → Except Fault α} {b : Except Fault α}
    (h : ∀ it : Iter, it.cur = (conv s).begin → Gets (f it) b) : Gets (s.begin >>= f) b := by
  refine Gets.drop fun t e => ?_
  have e := Except.ok.inj (expects_bind e).2
  subst e
  exact h _ rfl

theorem end_gets {α : Type} (s : GSpan) {f : Iter → Except Fault α} {b : Except Fault α}
    (h : ∀ it : Iter, it.cur = (conv s).end → Gets (f it) b) : Gets (s.end >>= f) b := by
  refine Gets.drop fun t e => ?_
  have e := Except.ok.inj (expects_bind e).2
  subst e
  exact h _ rfl

theorem add_gets {α : Type} (it : Iter) (n : Int) {f : Iter → Except Fault α} {b : Except Fault α}
    (h : ∀ it' : Iter, it'.cur = ptrAdd it.cur n → Gets (f it') b) : Gets (it.add n >>= f) b := by
  refine Gets.drop fun t e => ?_
  have e := Except.ok.inj (expects_bind (expects_bind (expects_bind e).2).2).2
  subst e
  exact h _ rfl

theorem sub_gets {α : Type} (it : Iter) (n : Int) {f : Iter → Except Fault α} {b : Except Fault α}
    (h : ∀ it' : Iter, it'.cur = ptrAdd it.cur (-n) → Gets (f it') b) : Gets (it.sub n >>= f) b := by
  refine Gets.drop fun t e => ?_
  have e := Except.ok.inj (expects_bind (expects_bind (expects_bind e).2).2).2
  subst e
  exact h _ (by show ((it.cur : Int) - n).toNat = ((it.cur : Int) + -n).toNat; rw [Int.sub_eq_add_neg])

theorem loop_ok {S : Type} (mem : Mem) (body : S → Byte → Except Fault S) (fuel : Nat) (it last : Iter) (s x : S)
    (h : iterLoop mem body fuel it last s = .ok x) :
    it.cur ≤ last.cur ∧ ∀ n, last.cur - it.cur < n → ptrLoop mem body n it.cur last.cur s = .ok x := by
  induction fuel generalizing it s with
  | zero => cases h
  | succ fuel ih =>
    unfold iterLoop at h
    cases hne : it.ne last with
    | error _ => rw [hne] at h; cases h
    | ok c =>
    rw [hne] at h
    obtain rfl : (it.cur != last.cur) = c := Except.ok.inj (expects_bind hne).2
    change (if (it.cur != last.cur) = true then _ else _) = _ at h
    by_cases hc : it.cur = last.cur
    · have hb : (it.cur != last.cur) = false := by simp [hc]
      rw [hb] at h
      refine ⟨by omega, fun n hn => ?_⟩
      cases n with
      | zero => omega
      | succ n =>
        unfold ptrLoop
        rw [if_neg (by simp [hc])]
        exact h
    · have hb : (it.cur != last.cur) = true := by simp [hc]
      rw [hb] at h
      simp only [if_true] at h
      cases hd : it.deref mem with
      | error _ => rw [hd] at h; cases h
      | ok y =>
        rw [hd] at h
        have hr := (expects_bind hd).2
        change (body s y >>= fun s => it.inc >>= fun i => iterLoop mem body fuel i last s) = .ok x at h
        cases hs : body s y with
        | error _ => rw [hs] at h; cases h
        | ok s' =>
          rw [hs] at h
          change (it.inc >>= fun i => iterLoop mem body fuel i last s') = .ok x at h
          cases hinc : it.inc with
          | error _ => rw [hinc] at h; cases h
          | ok it' =>
          rw [hinc] at h
          obtain rfl : { it with cur := it.cur + 1 } = it' := Except.ok.inj (expects_bind hinc).2
          obtain ⟨h1, h2⟩ := ih _ _ h
          have h1 : it.cur + 1 ≤ last.cur := h1
          refine ⟨by omega, fun n hn => ?_⟩
          cases n with
          | zero => omega
          | succ n =>
            unfold ptrLoop
            rw [if_pos hc, hr]
            show (body s y >>= fun s => ptrLoop mem body n (it.cur + 1) last.cur s) = _
            rw [hs]
            exact h2 n (by show last.cur - (it.cur + 1) < n; omega)

theorem range_gets {S : Type} (mem : Mem) (body : S → Byte → Except Fault S) (f l : Iter) (s : S) {p q : Nat}
    (hp : f.cur = p) (hq : l.cur = q) : Gets (iterRange mem body f l s) (ptrRange mem body p q s) := by
  subst hp hq
  exact fun x h => (loop_ok mem body _ f l s x h).2 _ (by omega)

theorem push_gets {N : Nat} (mem : Mem) (b : Buffer N) (f l : Iter) {p q : Nat} (hp : f.cur = p) (hq : l.cur = q) :
    Gets (b.pushBackAt mem f l) (b.pushBackStd mem p q) := range_gets mem _ f l b hp hq

theorem ofRange_gets {N : Nat} (mem : Mem) (f l : Iter) {p q : Nat} (hp : f.cur = p) (hq : l.cur = q) :
    Gets (Buffer.ofRangeAt (N := N) mem f l) (Buffer.ofRangeStd mem p q) := push_gets mem {} f l hp hq

/-- `addDataImpl` -/
def ImplGets {S : Type} (impl : S → Mem → GSpan → Except Fault S) (impl' : S → Mem → StdSpan → Except Fault S) : Prop :=
  ∀ s mem d, Gets (impl s mem d) (impl' s mem (conv d))

theorem tail_gets {N B : Nat} {S : Type} {impl impl'} (hi : ImplGets impl impl') (o : Obj N S) (mem : Mem) (d : GSpan) :
    Gets (addDataTailAt B impl o mem d) (addDataTailStd B impl' o mem (conv d)) := by
  unfold addDataTailAt addDataTailStd
  refine Gets.ite ?_ ?_
  · refine begin_gets d fun b hb => end_gets d fun e he => ?_
    exact Gets.bind (ofRange_gets _ _ _ hb he) fun _ => Gets.refl _
  · refine first_gets d _ fun t => Gets.bind (hi _ _ _) fun c => Gets.ite ?_ (Gets.refl _)
    refine begin_gets d fun b hb => add_gets b _ fun b' hb' => end_gets d fun e he => ?_
    exact Gets.bind (ofRange_gets _ _ _ (by rw [hb', hb]; rfl) he) fun _ => Gets.refl _

theorem addData_gets {N B : Nat} {S : Type} {impl impl'} (hi : ImplGets impl impl') (self : Nat) (o : Obj N S) (mem : Mem)
    (d : GSpan) : Gets (addDataAt B impl self o mem d) (addDataStd B impl' self o mem (conv d)) := by
  unfold addDataAt addDataStd
  refine Gets.ite ?_ (tail_gets hi _ _ _)
  refine begin_gets d fun b hb => begin_gets d fun b1 hb1 => add_gets b1 _ fun e he => ?_
  refine Gets.bind (push_gets _ _ _ _ hb (by rw [he, hb1]; rfl)) fun bf => Gets.ite (Gets.refl _) ?_
  refine make_gets _ _ (Gets.bind (hi _ _ _) fun c => subspan_gets d _ fun t => tail_gets hi _ _ _)

theorem mdGets {C H : Type} (B : Nat) (cnt : Counter C) (comp : H → Block B → H) :
    ImplGets (mdImplAt B cnt comp) (mdImplStd B cnt comp) := fun _ _ _ => Gets.refl _
theorem sha3Gets (R : Nat) [SHA3.RateOK R] : ImplGets (SHA3.implAt R) (SHA3.implStd R) := fun _ _ _ => Gets.refl _
theorem blakeGets {w B : Nat} {C : Type} (c : BLAKE.Cfg w B C) (n : Nat) : ImplGets (BLAKE.implAt c n) (BLAKE.implStd c n) :=
  fun _ _ _ => Gets.refl _
theorem sipGets (C : Nat) : ImplGets (SipHash.implAt C) (SipHash.implStd C) := fun _ _ _ => Gets.refl _
theorem blake2Gets {w B : Nat} {C : Type} (c : BLAKE2.Cfg w B C) (f : Bool) (n : Nat) :
    ImplGets (BLAKE2.implAt c f n) (BLAKE2.implStd c f n) := fun _ _ _ => Gets.refl _

theorem foldlM_gets {α S : Type} {f g : S → α → Except Fault S} (h : ∀ s a, Gets (f s a) (g s a)) (l : List α) (s : S) :
    Gets (l.foldlM f s) (l.foldlM g s) := by
  induction l generalizing s with
  | nil => exact Gets.refl _
  | cons a l ih =>
    simp only [List.foldlM_cons]
    exact Gets.bind (h s a) fun s => ih s

theorem md2Gets : ImplGets MD2.implAt MD2.implStd := fun s _ _ =>
  foldlM_gets (fun _ _ => make_gets _ _ (Gets.refl _)) _ s

theorem crcTail_gets (mem : Mem) (d : GSpan) (fuel p : Nat) (h : W32) :
    Gets (CRC32.tailLoopAt mem d fuel p h) (CRC32.tailLoopStd mem (conv d) fuel p h) := by
  induction fuel generalizing p h with
  | zero => exact Gets.refl _
  | succ fuel ih =>
    unfold CRC32.tailLoopAt CRC32.tailLoopStd
    exact Gets.ite (Gets.bind (get_gets mem d p) fun x => ih _ _) (Gets.refl _)

theorem crcGets (o : W32) (mem : Mem) (d : GSpan) : Gets (CRC32.addDataAt o mem d) (CRC32.addDataStd o mem (conv d)) := by
  unfold CRC32.addDataAt CRC32.addDataStd
  exact Gets.bind (Gets.refl _) fun h => crcTail_gets mem d _ _ h

theorem fnvGets {w : Nat} (v : Nat) (o : BitVec w) (mem : Mem) (d : GSpan) :
    Gets (FNV.addDataAt v o mem d) (FNV.addDataStd v o mem (conv d)) := by
  unfold FNV.addDataAt FNV.addDataStd
  exact begin_gets d fun b hb => end_gets d fun e he => range_gets _ _ _ _ _ hb he

theorem blake2Tail_gets {B : Nat} {S : Type} {impl impl'} (hi : ImplGets impl impl') (o : Obj B S) (mem : Mem) (d : GSpan) :
    Gets (BLAKE2.addDataTailAt B impl o mem d) (BLAKE2.addDataTailStd B impl' o mem (conv d)) := by
  unfold BLAKE2.addDataTailAt BLAKE2.addDataTailStd
  refine first_gets d _ fun t => Gets.bind (hi _ _ _) fun c => ?_
  refine end_gets d fun b hb => sub_gets b _ fun b' hb' => end_gets d fun e he => ?_
  exact Gets.bind (ofRange_gets _ _ _ (by rw [hb', hb]; rfl) he) fun _ => Gets.refl _

theorem blake2_gets {B : Nat} {S : Type} {impl impl'} (hi : ImplGets impl impl') (self : Nat) (mem : Mem) (fuel : Nat) (o : Obj B S)
    (d : GSpan) :
    Gets (BLAKE2.addDataAt B impl self mem fuel o d) (BLAKE2.addDataStd B impl' self mem fuel o (conv d)) := by
  induction fuel generalizing o d with
  | zero =>
    unfold BLAKE2.addDataAt BLAKE2.addDataStd
    refine Gets.ite (Gets.refl _) (Gets.ite ?_ (Gets.ite (Gets.refl _) (blake2Tail_gets hi _ _ _)))
    exact make_gets _ _ (Gets.bind (hi _ _ _) fun c => blake2Tail_gets hi _ _ _)
  | succ fuel ih =>
    unfold BLAKE2.addDataAt BLAKE2.addDataStd
    refine Gets.ite (Gets.refl _) (Gets.ite ?_ (Gets.ite ?_ (blake2Tail_gets hi _ _ _)))
    · exact make_gets _ _ (Gets.bind (hi _ _ _) fun c => blake2Tail_gets hi _ _ _)
    · refine begin_gets d fun b hb => begin_gets d fun b1 hb1 => add_gets b1 _ fun e he => ?_
      exact Gets.bind (push_gets _ _ _ _ hb (by rw [he, hb1]; rfl)) fun bf => subspan_gets d _ fun t => ih _ _

theorem run_gets {O : Type} {A : API O} {addAt addStd} (h : ∀ o mem d, Gets (addAt o mem d) (addStd o mem (conv d)))
    (calls : List MemOp) (o : O) : Gets (A.runAt addAt o calls) (A.runStd addStd o calls) := by
  induction calls generalizing o with
  | nil => exact Gets.refl _
  | cons c cs ih =>
    unfold API.runAt API.runStd
    refine Gets.bind ?_ fun o => ih o
    cases c with
    | add mem p n => exact make_gets p n (h o mem ⟨p, n⟩)
    | reset => exact Gets.refl _
    | finalize => exact Gets.refl _

/-- every class -/
theorem same {O : Type} {A : API O} {addAt addStd} (h : ∀ o mem d, Gets (addAt o mem d) (addStd o mem (conv d)))
    (hs : A.MemorySafe addAt) : A.SameWithStdSpan addAt addStd := by
  refine ⟨fun calls o e => run_gets h calls _ o e, fun calls ops hh => ?_⟩
  obtain ⟨o, e, e'⟩ := hs calls ops hh
  exact ⟨o, e, run_gets h calls _ o e, e'⟩

section
open CShake
variable {R : Nat} [SHA3.RateOK R]

theorem cshakeAdd_gets (self : Nat) (o : CShake R) (mem : Mem) (d : GSpan) :
    Gets (addDataSpanAt self o mem d) (addDataSpanStd self o mem (conv d)) := by
  unfold addDataSpanAt addDataSpanStd onActive
  refine Gets.ite ?_ ?_
  · cases o.shake with
    | none => exact Gets.refl _
    | some k =>
      exact Gets.bind (Gets.bind (addData_gets (sha3Gets R) self k.obj mem d) fun _ => Gets.refl _) fun _ => Gets.refl _
  · cases o.keccak with
    | none => exact Gets.refl _
    | some k =>
      exact Gets.bind (Gets.bind (addData_gets (sha3Gets R) self k.obj mem d) fun _ => Gets.refl _) fun _ => Gets.refl _

theorem cshakeRun_gets (self : Nat) (calls : List MemOp) (o : CShake R) :
    Gets (CShake.runAt self o calls) (CShake.runStd self o calls) := by
  induction calls generalizing o with
  | nil => exact Gets.refl _
  | cons c cs ih =>
    unfold CShake.runAt CShake.runStd
    refine Gets.bind ?_ fun o => ih o
    cases c with
    | add mem p n => exact make_gets p n (cshakeAdd_gets self o mem ⟨p, n⟩)
    | reset => exact Gets.refl _
    | finalize => exact Gets.refl _

theorem next_gets (nb : Nat → Nat) (self loc : Nat) (o : TupleHash R) (mem : Mem) (d : GSpan) :
    Gets (nextDataAt nb self loc o mem d) (nextDataStd nb self loc o mem (conv d)) := by
  unfold nextDataAt nextDataStd
  refine Gets.bind (Gets.refl _) fun e => make_gets _ _ ?_
  exact Gets.bind (cshakeAdd_gets self _ _ _) fun c => Gets.bind (cshakeAdd_gets self _ _ _) fun _ => Gets.refl _

theorem tupleRun_gets (nb : Nat → Nat) (self loc : Nat) (calls : List MemOp) (o : TupleHash R) :
    Gets (tupleRunAt nb self loc o calls) (tupleRunStd nb self loc o calls) := by
  induction calls generalizing o with
  | nil => exact Gets.refl _
  | cons c cs ih =>
    unfold tupleRunAt tupleRunStd
    refine Gets.bind ?_ fun o => ih o
    cases c with
    | add mem p n => exact make_gets p n (next_gets nb self loc o mem ⟨p, n⟩)
    | reset => exact Gets.refl _
    | finalize => exact Gets.refl _

end
end Verif.Proof.StdSpans
