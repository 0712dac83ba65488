import Verif.Core.Access
import Verif.Proof.Threads
import Verif.Model.SHA2

/-! The addresses depend on lengths only. -/

namespace Verif.Proof.Access
open Verif.Model Verif.Proof.Threads

variable {α β γ δ : Type}

/-! ## Two results -/

/-- both succeed and are related, or neither succeeds -/
def Agree (R : α → β → Prop) : Except Fault α → Except Fault β → Prop
  | .ok a, .ok b => R a b
  | .error _, .error _ => True
  | _, _ => False

theorem Agree.bind {R : α → β → Prop} {T : γ → δ → Prop} {e : Except Fault α} {e' : Except Fault β}
    {f : α → Except Fault γ} {f' : β → Except Fault δ} (h : Agree R e e') (h2 : ∀ a b, R a b → Agree T (f a) (f' b)) :
    Agree T (e >>= f) (e' >>= f') := by
  cases e with
  | error => cases e' with
    | error => trivial
    | ok => exact h.elim
  | ok a => cases e' with
    | error => exact h.elim
    | ok b => exact h2 a b h

theorem Agree.pure {R : α → β → Prop} {a : α} {b : β} (h : R a b) :
    Agree R (Pure.pure a : Except Fault α) (Pure.pure b : Except Fault β) := h

theorem Agree.ite {R : α → β → Prop} {c c' : Prop} [Decidable c] [Decidable c'] (hc : c ↔ c')
    {e f : Except Fault α} {e' f' : Except Fault β} (h : c → Agree R e e') (h2 : ¬ c → Agree R f f') :
    Agree R (if c then e else f) (if c' then e' else f') := by
  by_cases h0 : c
  · rw [if_pos h0, if_pos (hc.1 h0)]; exact h h0
  · rw [if_neg h0, if_neg (fun h => h0 (hc.2 h))]; exact h2 h0

theorem Agree.self {R : α → α → Prop} (h : ∀ a, R a a) (e : Except Fault α) : Agree R e e := by
  cases e with
  | ok a => exact h a
  | error => trivial

theorem Agree.mono {R T : α → β → Prop} {e : Except Fault α} {e' : Except Fault β} (h : Agree R e e')
    (h2 : ∀ a b, R a b → T a b) : Agree T e e' := by
  cases e with
  | error => cases e' with
    | error => trivial
    | ok => exact h.elim
  | ok a => cases e' with
    | error => exact h.elim
    | ok b => exact h2 a b h

/-- the same loop twice -/
theorem Agree.foldlM_self {S S' I : Type} {R : S → S' → Prop} {f : S → I → Except Fault S} {f' : S' → I → Except Fault S'}
    (h : ∀ s s' i, R s s' → Agree R (f s i) (f' s' i)) (l : List I) : ∀ s s', R s s' → Agree R (l.foldlM f s) (l.foldlM f' s') := by
  induction l with
  | nil => intro s s' hs; exact Agree.pure hs
  | cons i l ih =>
    intro s s' hs
    simp only [List.foldlM_cons]
    exact (h _ _ i hs).bind ih

/-! ## Two threads -/

/-- the same accesses, and related results -/
def Twin (R : α → β → Prop) (p : Act α) (q : Act β) : Prop :=
  ∀ m m', SameLayout m m' → p.trace m = q.trace m' ∧
    Agree (fun r r' => R r.1 r'.1 ∧ SameLayout r.2 r'.2) (p.alone m) (q.alone m')

theorem trace_bind (p : Act α) (q : α → Act γ) : ∀ m, (p >>= q).trace m =
    p.trace m ++ match p.alone m with
      | .ok r => (q r.1).trace r.2
      | .error _ => [] := by
  show ∀ m, (p.bind q).trace m = _
  induction p with
  | ret a => intro m; rfl
  | fault e => intro m; rfl
  | read a k ih =>
    intro m
    simp only [Act.bind, Act.trace, Act.alone, List.cons_append, List.cons.injEq, true_and]
    cases m a with
    | none => rfl
    | some x => exact ih x m
  | write a x k ih =>
    intro m
    simp only [Act.bind, Act.trace, Act.alone, List.cons_append, List.cons.injEq, true_and]
    exact ih _

theorem alone_bind_eq (p : Act α) (q : α → Act γ) : ∀ m, (p >>= q).alone m = p.alone m >>= fun r => (q r.1).alone r.2 := by
  show ∀ m, (p.bind q).alone m = _
  induction p with
  | ret a => intro m; rfl
  | fault e => intro m; rfl
  | read a k ih =>
    intro m
    simp only [Act.bind, Act.alone]
    cases m a with
    | none => rfl
    | some x => exact ih x m
  | write a x k ih => intro m; exact ih _

theorem Twin.bind {R : α → β → Prop} {T : γ → δ → Prop} {p : Act α} {p' : Act β} {q : α → Act γ} {q' : β → Act δ}
    (h : Twin R p p') (h2 : ∀ a b, R a b → Twin T (q a) (q' b)) : Twin T (p >>= q) (p' >>= q') := by
  intro m m' hm
  obtain ⟨t, a⟩ := h m m' hm
  rw [trace_bind, trace_bind, alone_bind_eq, alone_bind_eq, t]
  refine ⟨?_, a.bind fun r r' hr => (h2 _ _ hr.1 _ _ hr.2).2⟩
  congr 1
  cases e : p.alone m with
  | error => cases e' : p'.alone m' with
    | error => rfl
    | ok => rw [e, e'] at a; exact a.elim
  | ok r => cases e' : p'.alone m' with
    | error => rw [e, e'] at a; exact a.elim
    | ok r' =>
      rw [e, e'] at a
      exact (h2 _ _ a.1 _ _ a.2).1

theorem Twin.pure {R : α → β → Prop} {a : α} {b : β} (h : R a b) : Twin R (Pure.pure a : Act α) (Pure.pure b : Act β) :=
  fun _ _ hm => ⟨rfl, h, hm⟩

theorem Twin.lift {R : α → β → Prop} {e : Except Fault α} {e' : Except Fault β} (h : Agree R e e') :
    Twin R (Act.lift e) (Act.lift e') := by
  intro m m' hm
  cases e with
  | error => cases e' with
    | error => exact ⟨rfl, trivial⟩
    | ok => exact h.elim
  | ok a => cases e' with
    | error => exact h.elim
    | ok b => exact ⟨rfl, h, hm⟩

theorem Twin.liftSelf (e : Except Fault α) : Twin Eq (Act.lift e) (Act.lift e) := Twin.lift (Agree.self (fun _ => rfl) e)

theorem Twin.fault {R : α → β → Prop} (e e' : Fault) : Twin R (Act.fault e) (Act.fault e') := fun _ _ _ => ⟨rfl, trivial⟩

theorem Twin.read (a : Nat) : Twin (fun _ _ => True) (Act.read a Act.ret) (Act.read a Act.ret) := by
  intro m m' hm
  simp only [Act.trace, Act.alone]
  cases e : m a with
  | none => rw [(hm a).1 e]; exact ⟨rfl, trivial⟩
  | some x => cases e' : m' a with
    | none => rw [(hm a).2 e'] at e; cases e
    | some y => exact ⟨rfl, trivial, hm⟩

theorem Twin.write {R : α → β → Prop} {p : Act α} {q : Act β} (a : Nat) (x y : Byte) (h : Twin R p q) :
    Twin R (.write a (some x) p) (.write a (some y) q) := by
  intro m m' hm
  have := h (fun b => if b = a then some x else m b) (fun b => if b = a then some y else m' b) (by
    intro b
    by_cases hb : b = a
    · simp [hb]
    · simp only [hb, if_false]; exact hm b)
  exact ⟨by simp only [Act.trace, this.1], this.2⟩

theorem Twin.ite {R : α → β → Prop} {c c' : Prop} [Decidable c] [Decidable c'] (hc : c ↔ c') {p q : Act α}
    {p' q' : Act β} (h : c → Twin R p p') (h2 : ¬ c → Twin R q q') :
    Twin R (if c then p else q) (if c' then p' else q') := by
  by_cases h0 : c
  · rw [if_pos h0, if_pos (hc.1 h0)]; exact h h0
  · rw [if_neg h0, if_neg (fun h => h0 (hc.2 h))]; exact h2 h0

theorem Twin.within {R : α → β → Prop} {p : Act α} {q : Act β} (h : Twin R p q) {m m' : Mem} (hm : SameLayout m m') :
    Twin R (p.within m) (q.within m') := by
  refine Twin.lift ?_
  have := (h m m' hm).2
  cases e : p.alone m with
  | error => cases e' : q.alone m' with
    | error => trivial
    | ok => rw [e, e'] at this; exact this.elim
  | ok r => cases e' : q.alone m' with
    | error => rw [e, e'] at this; exact this.elim
    | ok r' => rw [e, e'] at this; exact this.1

theorem Twin.foldlM_self {S S' I : Type} {R : S → S' → Prop} {f : S → I → Act S} {f' : S' → I → Act S'}
    (h : ∀ s s' i, R s s' → Twin R (f s i) (f' s' i)) (l : List I) : ∀ s s', R s s' → Twin R (l.foldlM f s) (l.foldlM f' s') := by
  induction l with
  | nil => intro s s' hs; exact Twin.pure hs
  | cons i l ih =>
    intro s s' hs
    simp only [List.foldlM_cons]
    exact (h _ _ i hs).bind ih

theorem Twin.mono {R T : α → β → Prop} {p : Act α} {q : Act β} (h : Twin R p q) (h2 : ∀ a b, R a b → T a b) : Twin T p q :=
  fun m m' hm => ⟨(h m m' hm).1, (h m m' hm).2.mono fun _ _ h => ⟨h2 _ _ h.1, h.2⟩⟩

theorem Twin.lookAlike {R : α → β → Prop} {p : Act α} {q : Act β} (h : Twin R p q) : LookAlike p q := by
  intro m m' hm
  obtain ⟨t, a⟩ := h m m' hm
  refine ⟨t, ?_⟩
  unfold Act.Succeeds
  cases e : p.alone m with
  | error => cases e' : q.alone m' with
    | error => simp
    | ok => rw [e, e'] at a; exact a.elim
  | ok r => cases e' : q.alone m' with
    | error => rw [e, e'] at a; exact a.elim
    | ok r' => simp

/-- code that only reads leaves memory as it is -/
theorem readOnly_alone {p : Act α} (h : p.ReadOnly) (m : Mem) {r : α × Mem} (e : p.alone m = .ok r) : r.2 = m := by
  induction p with
  | ret a => cases e; rfl
  | fault => cases e
  | read a k ih =>
    simp only [Act.alone] at e
    split at e
    · exact ih _ (h _) e
    · cases e
  | write => exact h.elim

theorem LookAlike.twin {p : Act α} {q : Act β} (h : LookAlike p q) (hp : p.ReadOnly) (hq : q.ReadOnly) :
    Twin (fun _ _ => True) p q := by
  intro m m' hm
  obtain ⟨t, a⟩ := h m m' hm
  refine ⟨t, ?_⟩
  unfold Act.Succeeds at a
  cases e : p.alone m with
  | error => cases e' : q.alone m' with
    | error => trivial
    | ok r => exact absurd (a.2 ⟨r, e'⟩) (by rw [e]; simp)
  | ok r => cases e' : q.alone m' with
    | error => exact absurd (a.1 ⟨r, e⟩) (by rw [e']; simp)
    | ok r' =>
      refine ⟨trivial, ?_⟩
      rw [readOnly_alone hp m e, readOnly_alone hq m' e']
      exact hm

/-! ## Buffers -/

/-- the same number of bytes -/
def SameSize {N : Nat} (b b' : Buffer N) : Prop := b.endIdx = b'.endIdx

theorem fillLoop_endIdx {N : Nat} (x : Byte) (n : Nat) : ∀ b : Buffer N, (Buffer.fillLoop x n b).endIdx = b.endIdx + n := by
  induction n with
  | zero => intro b; rfl
  | succ n ih => intro b; rw [Buffer.fillLoop, ih]; simp; omega

theorem fillAgree {N : Nat} {b b' : Buffer N} (h : SameSize b b') (x y : Byte) (n : Nat) :
    Agree (fun c c' => SameSize c c') (b.fill x n) (b'.fill y n) := by
  unfold Buffer.fill
  unfold SameSize at h
  refine Agree.ite (by rw [h]) (fun _ => ?_) (fun _ => trivial)
  show SameSize _ _
  unfold SameSize
  rw [fillLoop_endIdx, fillLoop_endIdx, h]

theorem setAgree {N : Nat} {b b' : Buffer N} (h : SameSize b b') (pos : Nat) (x y : Byte) :
    Agree (fun c c' => SameSize c c') (b.setAt pos x) (b'.setAt pos y) := by
  unfold Buffer.setAt
  exact Agree.ite Iff.rfl (fun _ => h) (fun _ => trivial)

theorem getAgree {N : Nat} (b b' : Buffer N) (pos : Nat) : Agree (fun _ _ => True) (b.getAt pos) (b'.getAt pos) := by
  unfold Buffer.getAt
  split <;> trivial

theorem sameSize_clear {N : Nat} (b b' : Buffer N) : SameSize b.clear b'.clear := rfl

theorem memLayout {N : Nat} (b b' : Buffer N) (self : Nat) : SameLayout (b.mem self) (b'.mem self) := by
  intro a
  unfold Buffer.mem
  split
  · simp
  · simp

theorem contents_length {N : Nat} {b b' : Buffer N} (h : SameSize b b') : b.contents.length = b'.contents.length := by
  unfold Buffer.contents
  unfold SameSize at h
  simp [h]

/-- the stores go to the same places -/
theorem writeLoopAgree {N : Nat} {ws ws' : List (Nat × Byte)} (hw : ws.map (·.1) = ws'.map (·.1)) {b b' : Buffer N}
    (h : SameSize b b') : Agree (fun c c' => SameSize c c') (writeLoop b ws) (writeLoop b' ws') := by
  unfold writeLoop
  induction ws generalizing ws' b b' with
  | nil => cases ws' with
    | nil => exact h
    | cons => simp at hw
  | cons w ws ih => cases ws' with
    | nil => simp at hw
    | cons w' ws' =>
      simp only [List.map_cons, List.cons.injEq] at hw
      simp only [List.foldlM_cons]
      rw [hw.1]
      exact (setAgree h _ _ _).bind fun c c' hc => ih hw.2 hc

/-! ## The streaming text -/

theorem iterLoopTwin {S S' : Type} {R : S → S' → Prop} {body : S → Byte → Except Fault S} {body' : S' → Byte → Except Fault S'}
    (h : ∀ s s' x y, R s s' → Agree R (body s x) (body' s' y)) (fuel : Nat) :
    ∀ it last s s', R s s' → Twin R (iterLoopAct body fuel it last s) (iterLoopAct body' fuel it last s') := by
  induction fuel with
  | zero => intro it last s s' _; exact Twin.fault _ _
  | succ fuel ih =>
    intro it last s s' hs
    simp only [iterLoopAct]
    refine (Twin.liftSelf (it.ne last)).bind ?_
    rintro b _ rfl
    refine Twin.ite Iff.rfl (fun _ => ?_) (fun _ => Twin.pure hs)
    refine Twin.bind (R := fun _ _ => True) ?_ fun x y _ => ?_
    · exact (Twin.liftSelf _).bind fun _ _ _ => Twin.read _
    refine (Twin.lift (h s s' x y hs)).bind fun s s' hs => ?_
    refine (Twin.liftSelf _).bind ?_
    rintro it _ rfl
    exact ih it last s s' hs

theorem iterRangeTwin {S S' : Type} {R : S → S' → Prop} {body : S → Byte → Except Fault S} {body' : S' → Byte → Except Fault S'}
    (h : ∀ s s' x y, R s s' → Agree R (body s x) (body' s' y)) (first last : Iter) {s : S} {s' : S'} (hs : R s s') :
    Twin R (iterRangeAct body first last s) (iterRangeAct body' first last s') := iterLoopTwin h _ _ _ _ _ hs

theorem pushBackTwin {N : Nat} {b b' : Buffer N} (h : SameSize b b') (first last : Iter) :
    Twin (fun c c' => SameSize c c') (b.pushBackAct first last) (b'.pushBackAct first last) :=
  iterRangeTwin (fun _ _ x y h => fillAgree h x y 1) _ _ h

theorem ofRangeTwin {N : Nat} (first last : Iter) :
    Twin (fun c c' => SameSize c c') (Buffer.ofRangeAct (N := N) first last) (Buffer.ofRangeAct first last) :=
  pushBackTwin rfl _ _

/-- the body of the loop over blocks -/
def TwinBody {S : Type} (bodyAct : S → Nat → Act S) : Prop :=
  ∀ s s' a, Twin (fun _ _ => True) (bodyAct s a) (bodyAct s' a)

theorem twinBody {S : Type} {B : Nat} {bodyAct : S → Nat → Act S} {body : S → Block B → S} (h : Straight bodyAct)
    (hr : Reads bodyAct body) : TwinBody bodyAct := fun s s' a => LookAlike.twin (h s s' a) (hr s a).1 (hr s' a).1

theorem forBlocksTwin {S : Type} {B : Nat} {bodyAct : S → Nat → Act S} (h : TwinBody bodyAct) (data : GSpan) (s s' : S) :
    Twin (fun _ _ => True) (forBlocksAct B bodyAct data s) (forBlocksAct B bodyAct data s') :=
  Twin.foldlM_self (R := fun _ _ => True) (f := fun s i => bodyAct s (data.data + i * B))
    (f' := fun s i => bodyAct s (data.data + i * B)) (fun s s' i _ => h s s' _) _ s s' trivial

/-- an `addDataImpl`; `P` relates what the two objects have beside the buffer -/
def TwinImpl {S : Type} (P : S → S → Prop) (impl : S → GSpan → Act S) : Prop :=
  ∀ s s' data, P s s' → Twin P (impl s data) (impl s' data)

/-- two objects: as many bytes in the buffer, the rest related by `P` -/
def SameObj {N : Nat} {S : Type} (P : S → S → Prop) (o o' : Obj N S) : Prop := SameSize o.buffer o'.buffer ∧ P o.chain o'.chain

theorem tailTwin {N : Nat} {S : Type} {B : Nat} {P : S → S → Prop} {impl : S → GSpan → Act S} (h : TwinImpl P impl)
    {o o' : Obj N S} (ho : SameObj P o o') (data : GSpan) :
    Twin (SameObj P) (addDataTailAct B impl o data) (addDataTailAct B impl o' data) := by
  unfold addDataTailAct
  refine Twin.ite Iff.rfl (fun _ => ?_) (fun _ => ?_)
  · refine (Twin.liftSelf _).bind ?_
    rintro i _ rfl
    refine (Twin.liftSelf _).bind ?_
    rintro j _ rfl
    exact (ofRangeTwin i j).bind fun b b' hb => Twin.pure ⟨hb, ho.2⟩
  · refine (Twin.liftSelf _).bind ?_
    rintro f _ rfl
    refine (h _ _ f ho.2).bind fun c c' hc => ?_
    refine Twin.ite Iff.rfl (fun _ => ?_) (fun _ => Twin.pure ⟨ho.1, hc⟩)
    refine (Twin.liftSelf _).bind ?_
    rintro i _ rfl
    refine (Twin.liftSelf _).bind ?_
    rintro j _ rfl
    refine (Twin.liftSelf _).bind ?_
    rintro k _ rfl
    exact (ofRangeTwin _ _).bind fun b b' hb => Twin.pure ⟨hb, hc⟩

theorem addDataTwin {N : Nat} {S : Type} {B : Nat} {P : S → S → Prop} {impl : S → GSpan → Act S} (h : TwinImpl P impl)
    (self : Nat) {o o' : Obj N S} (ho : SameObj P o o') (data : GSpan) :
    Twin (SameObj P) (addDataAct B impl self o data) (addDataAct B impl self o' data) := by
  have hsz : o.buffer.size = o'.buffer.size := ho.1
  have he : o.buffer.empty = o'.buffer.empty := by unfold Buffer.empty; rw [show o.buffer.endIdx = _ from ho.1]
  unfold addDataAct
  rw [hsz, he]
  refine Twin.ite Iff.rfl (fun _ => ?_) (fun _ => tailTwin h ho data)
  refine (Twin.liftSelf _).bind ?_
  rintro i _ rfl
  refine (Twin.liftSelf _).bind ?_
  rintro j _ rfl
  refine (Twin.liftSelf _).bind ?_
  rintro k _ rfl
  refine (pushBackTwin ho.1 _ _).bind fun b b' hb => ?_
  have hbs : b.size = b'.size := hb
  rw [hbs]
  refine Twin.ite Iff.rfl (fun _ => Twin.pure ⟨hb, ho.2⟩) (fun _ => ?_)
  refine (Twin.liftSelf _).bind ?_
  rintro f _ rfl
  refine ((h _ _ f ho.2).within (memLayout b b' self)).bind fun c c' hc => ?_
  refine (Twin.liftSelf _).bind ?_
  rintro d _ rfl
  exact tailTwin (o := ⟨b.clear, c⟩) (o' := ⟨b'.clear, c'⟩) h ⟨rfl, hc⟩ _

/-! ## `finalize`, where the bytes are in a list -/

theorem blockAtAgree (B : Nat) {l l' : List Byte} (h : l.length = l'.length) (off : Nat) :
    Agree (fun _ _ => True) (blockAt B l off) (blockAt B l' off) := by
  unfold blockAt
  by_cases hc : off + B ≤ l.length
  · rw [dif_pos hc, dif_pos (h ▸ hc)]; trivial
  · rw [dif_neg hc, dif_neg (h ▸ hc)]; trivial

theorem forBlocksAgree {S : Type} {B : Nat} (body : S → Block B → S) {l l' : List Byte} (h : l.length = l'.length) (s s' : S) :
    Agree (fun _ _ => True) (forBlocks B body l s) (forBlocks B body l' s') := by
  unfold forBlocks
  rw [h]
  refine Agree.foldlM_self (R := fun _ _ => True) (fun s s' i _ => ?_) _ s s' trivial
  exact (blockAtAgree B h _).bind fun _ _ _ => Agree.pure trivial

/-- an `addDataImpl` on a list -/
def AgreeImpl {S : Type} (P : S → S → Prop) (impl : S → List Byte → Except Fault S) : Prop :=
  ∀ s s' l l', P s s' → l.length = l'.length → Agree P (impl s l) (impl s' l')

/-- the stores of the length field go to places that depend on the size of the buffer only -/
def SamePlaces {C : Type} (writes : Nat → C → List (Nat × Byte)) : Prop :=
  ∀ size c c', (writes size c).map (·.1) = (writes size c').map (·.1)

theorem places_be64 : SamePlaces (fun size (c : W64) => lenWritesBE64 size (c * 8)) := fun _ _ _ => rfl
theorem places_le64 : SamePlaces (fun size (c : W64) => lenWritesLE64 size (c * 8)) := fun _ _ _ => rfl
theorem places_be128 : SamePlaces (fun size (c : Uint128) => lenWritesBE128 size c.mul8) := fun _ _ _ => rfl

theorem mdImplAgree {C H : Type} (B : Nat) (cnt : Counter C) (comp : H → Block B → H) :
    AgreeImpl (fun _ _ => True) (mdImpl B cnt comp) := by
  intro s s' l l' _ hl
  unfold mdImpl
  rw [hl]
  by_cases h : l'.length % B ≠ 0
  · rw [if_pos h, if_pos h]; trivial
  · rw [if_neg h, if_neg h]
    exact (forBlocksAgree comp hl _ _).bind fun _ _ _ => trivial

theorem mdFinalizeAgree {N : Nat} {C H : Type} {B L : Nat} {padByte : Byte} {cntAdd : C → Nat → C} {cntPost : C → C}
    {writes : Nat → C → List (Nat × Byte)} (hw : SamePlaces writes)
    {impl : MDState C H → List Byte → Except Fault (MDState C H)} (hi : AgreeImpl (fun _ _ => True) impl)
    {o o' : Obj N (MDState C H)} (ho : SameObj (fun _ _ => True) o o') :
    Agree (SameObj (fun _ _ => True)) (mdFinalize B L padByte cntAdd cntPost writes impl o)
      (mdFinalize B L padByte cntAdd cntPost writes impl o') := by
  unfold mdFinalize
  refine (fillAgree ho.1 _ _ _).bind fun b b' hb => ?_
  have hbs : b.size = b'.size := hb
  rw [hbs]
  refine (fillAgree hb _ _ _).bind fun b b' hb => ?_
  have hbs : b.size = b'.size := hb
  rw [hbs]
  refine (writeLoopAgree (hw _ _ _) hb).bind fun b b' hb => ?_
  exact (hi _ _ _ _ trivial (contents_length hb)).bind fun c c' _ => ⟨rfl, trivial⟩

/-! ## From calls to threads -/

theorem commandsTwin {O : Type} {A A' : API O} {addAct : O → GSpan → Act O} {R : O → O → Prop}
    (hadd : ∀ o o' s, R o o' → Twin R (addAct o s) (addAct o' s)) (hres : ∀ o o', R o o' → R (A.reset o) (A'.reset o'))
    (hfin : ∀ o o', R o o' → Agree R (A.finalize o) (A'.finalize o')) (cmds : List Cmd) :
    ∀ cmds' o o', Cmd.SameBut cmds cmds' → R o o' → Twin R (A.commands addAct o cmds) (A'.commands addAct o' cmds') := by
  induction cmds with
  | nil =>
    intro cmds' o o' hc hR
    cases cmds' with
    | nil => exact Twin.pure hR
    | cons c cs => cases c <;> exact hc.elim
  | cons c cs ih =>
    intro cmds' o o' hc hR
    cases cmds' with
    | nil => cases c <;> exact hc.elim
    | cons c' cs' =>
      cases c <;> cases c' <;> try exact hc.elim
      · obtain ⟨rfl, hc⟩ := hc
        exact Twin.write _ _ _ (ih _ _ _ hc hR)
      · obtain ⟨rfl, rfl, hc⟩ := hc
        simp only [API.commands]
        refine (Twin.liftSelf _).bind ?_
        rintro s _ rfl
        exact (hadd _ _ s hR).bind fun o o' h => ih _ _ _ hc h
      · exact ih cs' _ _ hc (hres _ _ hR)
      · simp only [API.commands]
        exact (Twin.lift (hfin _ _ hR)).bind fun o o' h => ih _ _ _ hc h

theorem sameAccesses {O : Type} {A A' : API O} {addAct : O → GSpan → Act O} {R : O → O → Prop} (h0 : R A.fresh A'.fresh)
    (hadd : ∀ o o' s, R o o' → Twin R (addAct o s) (addAct o' s)) (hres : ∀ o o', R o o' → R (A.reset o) (A'.reset o'))
    (hfin : ∀ o o', R o o' → Agree R (A.finalize o) (A'.finalize o'))
    (hout : ∀ o o', R o o' → Agree (fun _ _ => True) (A.toArray o) (A'.toArray o')) : A.SameAccesses A' addAct := by
  intro cmds cmds' hc
  refine Twin.lookAlike (R := fun _ _ => True) ?_
  exact (commandsTwin hadd hres hfin cmds cmds' _ _ hc h0).bind fun o o' h => Twin.lift (hout o o' h)

/-! ## The classes -/

theorem resultAgree (n : Nat) {l l' : List Byte} (h : l.length = l'.length) :
    Agree (fun _ _ => True) (resultArray n l) (resultArray n l') := by
  unfold resultArray
  rw [h]
  exact Agree.ite Iff.rfl (fun _ => trivial) (fun _ => trivial)

theorem length_be {w : Nat} (k : Nat) (l : List (BitVec w)) : (l.flatMap (storeBE k)).length = k * l.length := by
  induction l with
  | nil => rfl
  | cons x l ih =>
    rw [List.flatMap_cons, List.length_append, ih, List.length_cons, Nat.mul_succ]
    simp [storeBE]; omega

theorem length_le {w : Nat} (k : Nat) (l : List (BitVec w)) : (l.flatMap (storeLE k)).length = k * l.length := by
  induction l with
  | nil => rfl
  | cons x l ih =>
    rw [List.flatMap_cons, List.length_append, ih, List.length_cons, Nat.mul_succ]
    simp [storeLE]; omega

/-- a Merkle-Damgård style class -/
theorem mdSame {C H : Type} {B L : Nat} {padByte : Byte} {cnt : Counter C} {comp : H → Block B → H} {iv : H}
    {out : H → Except Fault (List Byte)} {compAct : H → Nat → Act H} (hb : Straight compAct) (hr : Reads compAct comp)
    (hw : SamePlaces cnt.writes) (ho : ∀ h h', Agree (fun _ _ => True) (out h) (out h')) (self : Nat) :
    (mdApi B L padByte cnt comp iv out).SameAccesses (mdApi B L padByte cnt comp iv out)
      (addDataAct B (mdImplAct B cnt compAct) self) := by
  have himpl : TwinImpl (fun _ _ => True) (mdImplAct B cnt compAct) := by
    intro s s' data _
    unfold mdImplAct
    refine Twin.ite Iff.rfl (fun _ => Twin.fault _ _) (fun _ => ?_)
    exact (forBlocksTwin (twinBody hb hr) data _ _).bind fun _ _ _ => Twin.pure trivial
  refine sameAccesses (R := SameObj fun _ _ => True) ⟨rfl, trivial⟩ (fun o o' s h => addDataTwin himpl self h s)
    (fun o o' _ => ⟨rfl, trivial⟩) (fun o o' h => mdFinalizeAgree hw (mdImplAgree B cnt comp) h) (fun o o' _ => ho _ _)

/-- a class with the shared streaming text -/
theorem blockSame {N B : Nat} {S : Type} {P : S → S → Prop} {impl : S → List Byte → Except Fault S} {init : S}
    {fin : Obj N S → Except Fault (Obj N S)} {out : Obj N S → Except Fault (List Byte)} {implAct : S → GSpan → Act S}
    (hi : TwinImpl P implAct) (h0 : P init init)
    (hf : ∀ o o', SameObj P o o' → Agree (SameObj P) (fin o) (fin o'))
    (ho : ∀ o o', SameObj P o o' → Agree (fun _ _ => True) (out o) (out o')) (self : Nat) :
    (blockApi B impl init fin out).SameAccesses (blockApi B impl init fin out) (addDataAct B implAct self) :=
  sameAccesses (R := SameObj P) ⟨rfl, h0⟩ (fun o o' s h => addDataTwin hi self h s) (fun o o' _ => ⟨rfl, h0⟩) hf ho

theorem sha2Same32 (iv : Vector W32 8) (words size : Nat) {bodyAct : Vector W32 8 → Nat → Act (Vector W32 8)}
    (hb : Straight bodyAct) (hr : Reads bodyAct (SHA2.compress SHA2.cfg32 (by decide))) (self : Nat) :
    (SHA2.api32 iv words size).SameAccesses (SHA2.api32 iv words size)
      (addDataAct 64 (mdImplAct 64 counterBE64 bodyAct) self) :=
  mdSame hb hr places_be64 (fun _ _ => resultAgree _ (by
    simp only [List.length_append, length_be, List.length_take, Vector.length_toList])) self

theorem sha2Same64 (iv : Vector W64 8) (words size : Nat) {extra : Vector W64 8 → List Byte}
    (he : ∀ h h', (extra h).length = (extra h').length) {bodyAct : Vector W64 8 → Nat → Act (Vector W64 8)}
    (hb : Straight bodyAct) (hr : Reads bodyAct (SHA2.compress SHA2.cfg64 (by decide))) (self : Nat) :
    (SHA2.api64 iv words size extra).SameAccesses (SHA2.api64 iv words size extra)
      (addDataAct 128 (mdImplAct 128 counterBE128 bodyAct) self) :=
  mdSame hb hr places_be128 (fun h h' => resultAgree _ (by
    simp only [List.length_append, length_be, List.length_take, Vector.length_toList, he h h'])) self

/-! ### Keccak -/

/-- as many bytes in `m_final` -/
def SameK (s s' : SHA3.KState) : Prop := s.final.length = s'.final.length

section
variable {R : Nat} [SHA3.RateOK R]

theorem sha3Twin {bodyAct : SHA3.State → Nat → Act SHA3.State} (h : TwinBody bodyAct) :
    TwinImpl SameK (SHA3.implAct R bodyAct) := by
  intro s s' data hs
  unfold SHA3.implAct
  refine Twin.ite Iff.rfl (fun _ => Twin.fault _ _) (fun _ => ?_)
  exact (forBlocksTwin h data _ _).bind fun _ _ _ => Twin.pure hs

theorem absorbAgree (s s' : SHA3.State) {l l' : List Byte} (hl : l.length = l'.length) :
    Agree (fun _ _ => True) (SHA3.absorb R s l) (SHA3.absorb R s' l') := by
  unfold SHA3.absorb
  rw [hl]
  by_cases h : l'.length % R ≠ 0
  · rw [if_pos h, if_pos h]; trivial
  · rw [if_neg h, if_neg h]
    exact forBlocksAgree _ hl _ _

theorem sha3Agree : AgreeImpl SameK (SHA3.impl R) := by
  intro s s' l l' hs hl
  unfold SHA3.impl
  exact (absorbAgree _ _ hl).bind fun _ _ _ => hs

theorem squeezeAgree (d : Nat) (s s' : SHA3.KState) (hs : SameK s s') :
    Agree SameK (SHA3.squeeze R d s) (SHA3.squeeze R d s') := by
  induction hn : d - s.final.length using Nat.strongRecOn generalizing s s' with
  | ind n ih =>
    have hpos := SHA3.RateOK.pos (R := R)
    have hle := SHA3.RateOK.le (R := R)
    have h1 := SHA3.stateToVector_length s.state
    have h2 := SHA3.stateToVector_length s'.state
    have hR : R ≤ 200 := by omega
    have hk : SameK ⟨s.state, s.final ++ (SHA3.stateToVector s.state).take R⟩
        ⟨s'.state, s'.final ++ (SHA3.stateToVector s'.state).take R⟩ := by
      unfold SameK at hs ⊢
      simp only [List.length_append, List.length_take, h1, h2, hs]
    rw [SHA3.squeeze.eq_def R d s, SHA3.squeeze.eq_def R d s']
    simp only [h1, h2, hR, dite_true]
    have hk' : (s.final ++ (SHA3.stateToVector s.state).take R).length = (s'.final ++ (SHA3.stateToVector s'.state).take R).length := hk
    by_cases hc : (s.final ++ (SHA3.stateToVector s.state).take R).length ≥ d
    · rw [dif_pos hc, dif_pos (hk' ▸ hc)]
      exact hk
    · rw [dif_neg hc, dif_neg (hk' ▸ hc)]
      have ha := absorbAgree (R := R) s.state s'.state (l := List.replicate R 0) (l' := List.replicate R 0) rfl
      cases e : SHA3.absorb R s.state (List.replicate R 0) with
      | error => cases e' : SHA3.absorb R s'.state (List.replicate R 0) with
        | error => trivial
        | ok => rw [e, e'] at ha; exact ha.elim
      | ok st => cases e' : SHA3.absorb R s'.state (List.replicate R 0) with
        | error => rw [e, e'] at ha; exact ha.elim
        | ok st' =>
          refine ih _ ?_ _ _ hk rfl
          simp only [List.length_append, List.length_take, h1] at hc ⊢
          omega

theorem sha3FinAgree (P : Byte) (d : Nat) {o o' : Obj R SHA3.KState} (h : SameObj SameK o o') :
    Agree (SameObj SameK) (SHA3.finalize R P d o) (SHA3.finalize R P d o') := by
  unfold SHA3.finalize
  refine (fillAgree h.1 _ _ _).bind fun b b' hb => ?_
  have hbs : b.size = b'.size := hb
  rw [hbs]
  refine (fillAgree hb _ _ _).bind fun b b' hb => ?_
  have hbs : b.size = b'.size := hb
  rw [hbs]
  refine (getAgree _ _ _).bind fun x y _ => ?_
  refine (setAgree hb _ _ _).bind fun b b' hb => ?_
  refine (sha3Agree _ _ _ _ h.2 (contents_length hb)).bind fun c c' hc => ?_
  refine (squeezeAgree d _ _ hc).bind fun c c' hc => ?_
  refine ⟨rfl, ?_⟩
  unfold SameK at hc ⊢
  simp [hc]

theorem keccakSame (P : Byte) (d : Nat) {bodyAct : SHA3.State → Nat → Act SHA3.State} (hb : Straight bodyAct)
    (hr : Reads bodyAct (SHA3.body (R := R))) (self : Nat) :
    (SHA3.Keccak R P d).SameAccesses (SHA3.Keccak R P d) (addDataAct R (SHA3.implAct R bodyAct) self) :=
  blockSame (sha3Twin (twinBody hb hr)) rfl (fun _ _ h => sha3FinAgree P d h)
    (fun o o' _ => show Agree (fun _ _ => True) (SHA3.toVector o) (SHA3.toVector o') from trivial) self

end

/-! ### MD2 -/

theorem md2Twin {bodyAct : MD2.St → Nat → Act MD2.St} (h : TwinBody bodyAct) : TwinImpl (fun _ _ => True) (MD2.implAct bodyAct) := by
  intro s s' data _
  unfold MD2.implAct
  refine Twin.foldlM_self (R := fun _ _ => True) (fun s s' i _ => ?_) _ _ _ trivial
  refine (Twin.liftSelf _).bind ?_
  rintro m _ rfl
  exact h _ _ _

theorem md2FinAgree {o o' : Obj (2 * 16) MD2.St} (h : SameObj (fun _ _ => True) o o') :
    Agree (SameObj fun _ _ => True) (MD2.finalize o) (MD2.finalize o') := by
  unfold MD2.finalize
  have hs : o.buffer.size = o'.buffer.size := h.1
  rw [hs]
  refine (fillAgree h.1 _ _ _).bind fun b b' hb => ?_
  refine Agree.bind (R := fun _ _ => True) (forBlocksAgree _ (contents_length hb) _ _) fun c c' _ => ?_
  refine Agree.bind (R := fun _ _ => True) (forBlocksAgree _ (by simp) _ _) fun c c' _ => ?_
  exact ⟨rfl, trivial⟩

theorem md2Same {bodyAct : MD2.St → Nat → Act MD2.St} (hb : Straight bodyAct) (hr : Reads bodyAct MD2.body) (self : Nat) :
    MD2.MD2.SameAccesses MD2.MD2 (addDataAct 16 (MD2.implAct bodyAct) self) :=
  blockSame (md2Twin (twinBody hb hr)) trivial (fun _ _ h => md2FinAgree h)
    (fun o o' _ => show Agree (fun _ _ => True) (MD2.toArray o) (MD2.toArray o') from trivial) self

/-! ### BLAKE and BLAKE2 -/

theorem blakeTwin {S : Type} {B : Nat} {bodyAct : S → Nat → Act S} (h : TwinBody bodyAct) :
    TwinImpl (fun _ _ => True) (blakeImplAct B bodyAct) := by
  intro s s' data _
  unfold blakeImplAct
  exact Twin.ite Iff.rfl (fun _ => Twin.fault _ _) (fun _ => forBlocksTwin h data _ _)

section
variable {w B : Nat} {C : Type}

theorem blakeAgree (c : BLAKE.Cfg w B C) (n : Nat) : AgreeImpl (fun _ _ => True) (BLAKE.impl c n) := by
  intro s s' l l' _ hl
  unfold BLAKE.impl
  rw [hl]
  by_cases h : l'.length % B ≠ 0
  · rw [if_pos h, if_pos h]; trivial
  · rw [if_neg h, if_neg h]
    exact forBlocksAgree _ hl _ _

theorem markAgree {N : Nat} (L : Nat) (marker : Bool) {b b' : Buffer N} (h : SameSize b b') :
    Agree (fun c c' => SameSize c c') (BLAKE.markLast L marker b) (BLAKE.markLast L marker b') := by
  unfold BLAKE.markLast
  have hbs : b.size = b'.size := h
  rw [hbs]
  exact Agree.ite Iff.rfl (fun _ => (getAgree _ _ _).bind fun _ _ _ => setAgree h _ _ _) (fun _ => h)

theorem blakeFinAgree (c : BLAKE.Cfg w B C) (L : Nat) (marker : Bool) (total : C → Nat → C)
    {writes : Nat → C → List (Nat × Byte)} (hw : SamePlaces writes)
    {o o' : Obj (2 * B) (MDState C (Vector (BitVec w) 8))} (h : SameObj (fun _ _ => True) o o') :
    Agree (SameObj fun _ _ => True) (BLAKE.finalize c L marker total writes o) (BLAKE.finalize c L marker total writes o') := by
  unfold BLAKE.finalize
  refine (fillAgree h.1 _ _ _).bind fun b b' hb => ?_
  have hbs : b.size = b'.size := hb
  rw [hbs]
  refine (fillAgree hb _ _ _).bind fun b b' hb => ?_
  refine (markAgree L marker hb).bind fun b b' hb => ?_
  have hbs : b.size = b'.size := hb
  rw [hbs]
  refine (writeLoopAgree (hw _ _ _) hb).bind fun b b' hb => ?_
  exact (blakeAgree c _ _ _ _ _ trivial (contents_length hb)).bind fun _ _ _ => ⟨rfl, trivial⟩

theorem blake2FinAgree (c : BLAKE2.Cfg w B C) {o o' : Obj B (BLAKE2.State w C)} (h : SameObj (fun _ _ => True) o o') :
    Agree (SameObj fun _ _ => True) (BLAKE2.finalize c o) (BLAKE2.finalize c o') := by
  unfold BLAKE2.finalize
  have hs : o.buffer.size = o'.buffer.size := h.1
  rw [hs]
  refine (fillAgree h.1 _ _ _).bind fun b b' hb => ?_
  refine Agree.bind (R := fun _ _ => True) ?_ fun c c' _ => ⟨rfl, trivial⟩
  unfold BLAKE2.impl
  rw [contents_length hb]
  by_cases h : b'.contents.length % B ≠ 0
  · rw [if_pos h, if_pos h]; trivial
  · rw [if_neg h, if_neg h]
    exact forBlocksAgree _ (contents_length hb) _ _

theorem blake2TailTwin {S : Type} {P : S → S → Prop} {impl : S → GSpan → Act S} (h : TwinImpl P impl)
    {o o' : Obj B S} (ho : SameObj P o o') (data : GSpan) :
    Twin (SameObj P) (BLAKE2.addDataTailAct B impl o data) (BLAKE2.addDataTailAct B impl o' data) := by
  unfold BLAKE2.addDataTailAct
  refine (Twin.liftSelf _).bind ?_
  rintro f _ rfl
  refine (h _ _ f ho.2).bind fun c c' hc => ?_
  refine (Twin.liftSelf _).bind ?_
  rintro i _ rfl
  refine (Twin.liftSelf _).bind ?_
  rintro j _ rfl
  refine (Twin.liftSelf _).bind ?_
  rintro k _ rfl
  exact (ofRangeTwin _ _).bind fun b b' hb => Twin.pure ⟨hb, hc⟩

theorem blake2AddTwin {S : Type} {P : S → S → Prop} {impl : S → GSpan → Act S} (h : TwinImpl P impl) (self : Nat)
    (fuel : Nat) : ∀ {o o' : Obj B S} (_ : SameObj P o o') (data : GSpan),
    Twin (SameObj P) (BLAKE2.addDataAct B impl self fuel o data) (BLAKE2.addDataAct B impl self fuel o' data) := by
  have full : ∀ {o o' : Obj B S} (_ : SameObj P o o') (data : GSpan), Twin (SameObj P)
      (do let s ← (impl o.chain (← .lift (GSpan.make self o.buffer.size))).within (o.buffer.mem self)
          BLAKE2.addDataTailAct B impl ⟨o.buffer.clear, s⟩ data)
      (do let s ← (impl o'.chain (← .lift (GSpan.make self o'.buffer.size))).within (o'.buffer.mem self)
          BLAKE2.addDataTailAct B impl ⟨o'.buffer.clear, s⟩ data) := by
    intro o o' ho data
    have hs : o.buffer.size = o'.buffer.size := ho.1
    rw [hs]
    refine (Twin.liftSelf _).bind ?_
    rintro f _ rfl
    refine ((h _ _ f ho.2).within (memLayout _ _ self)).bind fun c c' hc => ?_
    exact blake2TailTwin (o := ⟨o.buffer.clear, c⟩) (o' := ⟨o'.buffer.clear, c'⟩) h ⟨rfl, hc⟩ _
  have emp : ∀ {o o' : Obj B S}, SameObj P o o' → o.buffer.empty = o'.buffer.empty := by
    intro o o' ho
    unfold Buffer.empty
    rw [show o.buffer.endIdx = _ from ho.1]
  induction fuel with
  | zero =>
    intro o o' ho data
    have hs : o.buffer.size = o'.buffer.size := ho.1
    unfold BLAKE2.addDataAct
    refine Twin.ite Iff.rfl (fun _ => Twin.pure ho) (fun _ => ?_)
    refine Twin.ite (by rw [hs]) (fun _ => full ho data) (fun _ => ?_)
    exact Twin.ite (by rw [emp ho]) (fun _ => Twin.fault _ _) (fun _ => blake2TailTwin h ho _)
  | succ fuel ih =>
    intro o o' ho data
    have hs : o.buffer.size = o'.buffer.size := ho.1
    unfold BLAKE2.addDataAct
    refine Twin.ite Iff.rfl (fun _ => Twin.pure ho) (fun _ => ?_)
    refine Twin.ite (by rw [hs]) (fun _ => full ho data) (fun _ => ?_)
    refine Twin.ite (by rw [emp ho]) (fun _ => ?_) (fun _ => blake2TailTwin h ho _)
    simp only [hs]
    refine (Twin.liftSelf _).bind ?_
    rintro i _ rfl
    refine (Twin.liftSelf _).bind ?_
    rintro j _ rfl
    refine (Twin.liftSelf _).bind ?_
    rintro k _ rfl
    refine (pushBackTwin ho.1 _ _).bind fun b b' hb => ?_
    refine (Twin.liftSelf _).bind ?_
    rintro d _ rfl
    exact ih (o := { o with buffer := b }) (o' := { o' with buffer := b' }) ⟨hb, ho.2⟩ d

theorem blake2Same (c : BLAKE2.Cfg w B C) (k size : Nat)
    {bodyAct : BLAKE2.State w C → Nat → Act (BLAKE2.State w C)} (hb : Straight bodyAct)
    (hr : Reads bodyAct (BLAKE2.body c false 0)) (self : Nat) :
    (BLAKE2.api c k size).SameAccesses (BLAKE2.api c k size)
      (fun o s => BLAKE2.addDataAct B (blakeImplAct B bodyAct) self s.size o s) :=
  sameAccesses (R := SameObj fun _ _ => True) ⟨rfl, trivial⟩
    (fun _ _ s h => blake2AddTwin (blakeTwin (twinBody hb hr)) self s.size h s) (fun _ _ _ => ⟨rfl, trivial⟩)
    (fun _ _ h => blake2FinAgree c h) (fun o o' _ => resultAgree _ (by simp only [length_le, Vector.length_toList]))

end

theorem blake32Same (c : BLAKE.Cfg 32 64 W64) (marker : Bool) (iv : Vector W32 8) (words size : Nat)
    {bodyAct : MDState W64 (Vector W32 8) → Nat → Act (MDState W64 (Vector W32 8))} (hb : Straight bodyAct)
    (hr : Reads bodyAct (BLAKE.body c 0)) (self : Nat) :
    (BLAKE.api32 c marker iv words size).SameAccesses (BLAKE.api32 c marker iv words size)
      (addDataAct 64 (blakeImplAct 64 bodyAct) self) :=
  blockSame (blakeTwin (twinBody hb hr)) trivial (fun _ _ h => blakeFinAgree c 8 marker _ (fun _ _ _ => rfl) h)
    (fun _ _ _ => resultAgree _ (by simp only [length_be, List.length_take, Vector.length_toList])) self

theorem blake64Same (c : BLAKE.Cfg 64 128 Uint128) (marker : Bool) (iv : Vector W64 8) (words size : Nat)
    {bodyAct : MDState Uint128 (Vector W64 8) → Nat → Act (MDState Uint128 (Vector W64 8))} (hb : Straight bodyAct)
    (hr : Reads bodyAct (BLAKE.body c 0)) (self : Nat) :
    (BLAKE.api64 c marker iv words size).SameAccesses (BLAKE.api64 c marker iv words size)
      (addDataAct 128 (blakeImplAct 128 bodyAct) self) :=
  blockSame (blakeTwin (twinBody hb hr)) trivial (fun _ _ h => blakeFinAgree c 16 marker _ (fun _ _ _ => rfl) h)
    (fun _ _ _ => resultAgree _ (by simp only [length_be, List.length_take, Vector.length_toList])) self

/-! ### SipHash -/

theorem sipTwin {bodyAct : Vector W64 4 → Nat → Act (Vector W64 4)} (h : TwinBody bodyAct) :
    TwinImpl (fun _ _ => True) (SipHash.implAct bodyAct) := by
  intro s s' data _
  unfold SipHash.implAct
  refine Twin.ite Iff.rfl (fun _ => Twin.fault _ _) (fun _ => ?_)
  exact (forBlocksTwin h data _ _).bind fun _ _ _ => Twin.pure trivial

theorem sipFinAgree (C D : Nat) {o o' : SipHash.O} (h : SameObj (fun _ _ => True) o o') :
    Agree (SameObj fun _ _ => True) (SipHash.finalize C D o) (SipHash.finalize C D o') := by
  unfold SipHash.finalize
  have hs : o.buffer.size = o'.buffer.size := h.1
  rw [hs]
  refine (fillAgree h.1 _ _ _).bind fun b b' hb => ?_
  refine (fillAgree hb _ _ _).bind fun b b' hb => ?_
  refine Agree.bind (R := fun _ _ => True) ?_ fun c c' _ => ⟨rfl, trivial⟩
  unfold SipHash.impl
  rw [contents_length hb]
  by_cases h : b'.contents.length % 8 ≠ 0
  · rw [if_pos h, if_pos h]; trivial
  · rw [if_neg h, if_neg h]
    exact (forBlocksAgree _ (contents_length hb) _ _).bind fun _ _ _ => trivial

theorem sipSame (C D : Nat) (key key' : Block 16) {bodyAct : Vector W64 4 → Nat → Act (Vector W64 4)}
    (hb : Straight bodyAct) (hr : Reads bodyAct (SipHash.body C)) (self : Nat) :
    (SipHash.SipHashCD C D key).SameAccesses (SipHash.SipHashCD C D key') (addDataAct 8 (SipHash.implAct bodyAct) self) :=
  sameAccesses (R := SameObj fun _ _ => True) ⟨rfl, trivial⟩ (fun _ _ s h => addDataTwin (sipTwin (twinBody hb hr)) self h s)
    (fun _ _ _ => ⟨rfl, trivial⟩) (fun _ _ h => sipFinAgree C D h)
    (fun o o' _ => show Agree (fun _ _ => True) (SipHash.toArray o) (SipHash.toArray o') from
      resultAgree _ (by simp [storeBE]))

/-! ### CRC-32 and FNV -/

theorem crcTailTwin (data : GSpan) (fuel : Nat) : ∀ processed (h h' : W32),
    Twin (fun _ _ => True) (CRC32.tailLoopAct data fuel processed h) (CRC32.tailLoopAct data fuel processed h') := by
  induction fuel with
  | zero => intro processed h h'; exact Twin.ite Iff.rfl (fun _ => Twin.fault _ _) (fun _ => Twin.pure trivial)
  | succ fuel ih =>
    intro processed h h'
    simp only [CRC32.tailLoopAct]
    refine Twin.ite Iff.rfl (fun _ => ?_) (fun _ => Twin.pure trivial)
    refine Twin.bind (R := fun _ _ => True) ?_ fun x y _ => ih _ _ _
    exact (Twin.liftSelf _).bind fun _ _ _ => Twin.read _

theorem crcSame {bodyAct : W32 → Nat → Act W32} (hb : Straight bodyAct) (hr : Reads bodyAct CRC32.body) :
    CRC32.CRC_32.SameAccesses CRC32.CRC_32 (CRC32.addDataAct bodyAct) := by
  refine sameAccesses (R := fun _ _ => True) trivial (fun _ _ s _ => ?_) (fun _ _ _ => trivial) (fun _ _ _ => trivial)
    (fun h h' _ => show Agree (fun _ _ => True) (resultArray 4 (storeBE 4 h)) (resultArray 4 (storeBE 4 h')) from
      resultAgree _ (by simp [storeBE]))
  exact (forBlocksTwin (twinBody hb hr) s _ _).bind fun _ _ _ => crcTailTwin _ _ _ _ _

theorem fnvSame (w v : Nat) : (FNV.FNVHash w v).SameAccesses (FNV.FNVHash w v) (FNV.addDataAct v) := by
  refine sameAccesses (R := fun _ _ => True) trivial (fun _ _ s _ => ?_) (fun _ _ _ => trivial) (fun _ _ _ => trivial)
    (fun h h' _ => show Agree (fun _ _ => True) (resultArray (w / 8) (storeBE (w / 8) h))
      (resultArray (w / 8) (storeBE (w / 8) h')) from resultAgree _ (by simp [storeBE]))
  unfold FNV.addDataAct
  refine (Twin.liftSelf _).bind ?_
  rintro i _ rfl
  refine (Twin.liftSelf _).bind ?_
  rintro j _ rfl
  exact iterRangeTwin (R := fun _ _ => True) (fun _ _ _ _ _ => Agree.pure trivial) _ _ trivial

/-! ### cSHAKE and TupleHash -/

theorem pushBackAgree {N : Nat} (l : List Byte) : ∀ (l' : List Byte) {b b' : Buffer N}, SameSize b b' → l.length = l'.length →
    Agree (fun c c' => SameSize c c') (b.pushBack l) (b'.pushBack l') := by
  induction l with
  | nil =>
    intro l' b b' h hl
    cases l' with
    | nil => exact h
    | cons => simp at hl
  | cons x l ih =>
    intro l' b b' h hl
    cases l' with
    | nil => simp at hl
    | cons y l' =>
      simp only [Buffer.pushBack]
      exact (fillAgree h x y 1).bind fun c c' hc => ih l' hc (by simpa using hl)

theorem firstAgree {l l' : List Byte} (h : l.length = l'.length) (n : Nat) :
    Agree (fun c c' => c.length = c'.length) (spanFirst l n) (spanFirst l' n) := by
  unfold spanFirst
  rw [h]
  exact Agree.ite Iff.rfl (fun _ => show _ = _ by simp [h]) (fun _ => trivial)

theorem subAgree {l l' : List Byte} (h : l.length = l'.length) (n : Nat) :
    Agree (fun c c' => c.length = c'.length) (spanSub l n) (spanSub l' n) := by
  unfold spanSub
  rw [h]
  exact Agree.ite Iff.rfl (fun _ => show _ = _ by simp [h]) (fun _ => trivial)

theorem tailAgree {N : Nat} {S : Type} {B : Nat} {P : S → S → Prop} {impl : S → List Byte → Except Fault S}
    (hi : AgreeImpl P impl) {o o' : Obj N S} (ho : SameObj P o o') {l l' : List Byte} (hl : l.length = l'.length) :
    Agree (SameObj P) (addDataTail B impl o l) (addDataTail B impl o' l') := by
  unfold addDataTail
  rw [hl]
  refine Agree.ite Iff.rfl (fun _ => ?_) (fun _ => ?_)
  · exact (pushBackAgree l l' (b := {}) (b' := {}) rfl hl).bind fun b b' hb => ⟨hb, ho.2⟩
  · refine (firstAgree hl _).bind fun d d' hd => (hi _ _ _ _ ho.2 hd).bind fun c c' hc => ?_
    refine Agree.ite Iff.rfl (fun _ => ?_) (fun _ => ⟨ho.1, hc⟩)
    exact (pushBackAgree _ _ (b := {}) (b' := {}) rfl (by simp [hl])).bind fun b b' hb => ⟨hb, hc⟩

theorem addDataAgree {N : Nat} {S : Type} {B : Nat} {P : S → S → Prop} {impl : S → List Byte → Except Fault S}
    (hi : AgreeImpl P impl) {o o' : Obj N S} (ho : SameObj P o o') {l l' : List Byte} (hl : l.length = l'.length) :
    Agree (SameObj P) (addData B impl o l) (addData B impl o' l') := by
  have hsz : o.buffer.size = o'.buffer.size := ho.1
  have he : o.buffer.empty = o'.buffer.empty := by unfold Buffer.empty; rw [show o.buffer.endIdx = _ from ho.1]
  unfold addData
  rw [hsz, he, hl]
  refine Agree.ite Iff.rfl (fun _ => ?_) (fun _ => tailAgree hi ho hl)
  refine (pushBackAgree _ _ ho.1 (by simp [hl])).bind fun b b' hb => ?_
  have hbs : b.size = b'.size := hb
  rw [hbs]
  refine Agree.ite Iff.rfl (fun _ => ⟨hb, ho.2⟩) (fun _ => ?_)
  refine (hi _ _ _ _ ho.2 (contents_length hb)).bind fun c c' hc => (subAgree hl _).bind fun d d' hd => ?_
  exact tailAgree (o := ⟨b.clear, c⟩) (o' := ⟨b'.clear, c'⟩) hi ⟨rfl, hc⟩ hd

section
open CShake
variable {R : Nat} [SHA3.RateOK R] {bodyAct : SHA3.State → Nat → Act SHA3.State}

/-- two objects behind pointers -/
def SameKObj (k k' : KObj R) : Prop := k.digestLength = k'.digestLength ∧ SameObj SameK k.obj k'.obj

/-- both null, or both not -/
def SamePtr : Option (KObj R) → Option (KObj R) → Prop
  | none, none => True
  | some k, some k' => SameKObj k k'
  | _, _ => False

/-- two cSHAKE objects -/
def SameC (o o' : CShake R) : Prop := o.customized = o'.customized ∧ SamePtr o.shake o'.shake ∧ SamePtr o.keccak o'.keccak

theorem activeAgree {o o' : CShake R} (h : SameC o o') {f f' : Byte → KObj R → Except Fault (KObj R)}
    (hf : ∀ P k k', SameKObj k k' → Agree SameKObj (f P k) (f' P k')) : Agree SameC (onActive o f) (onActive o' f') := by
  obtain ⟨c, s, k⟩ := o
  obtain ⟨c', s', k'⟩ := o'
  obtain ⟨h1, h2, h3⟩ := h
  simp only at h1 h2 h3
  subst h1
  unfold onActive
  refine Agree.ite Iff.rfl (fun _ => ?_) (fun _ => ?_)
  · cases s <;> cases s' <;> try exact h2.elim
    · trivial
    · exact (hf _ _ _ h2).bind fun _ _ h => ⟨rfl, h, h3⟩
  · cases k <;> cases k' <;> try exact h3.elim
    · trivial
    · exact (hf _ _ _ h3).bind fun _ _ h => ⟨rfl, h2, h⟩

theorem caddAgree {o o' : CShake R} (h : SameC o o') {l l' : List Byte} (hl : l.length = l'.length) :
    Agree SameC (CShake.addData o l) (CShake.addData o' l') := by
  refine activeAgree h fun P k k' hk => ?_
  refine Agree.bind (R := SameObj SameK) ?_ fun _ _ h => ⟨hk.1, h⟩
  exact addDataAgree sha3Agree hk.2 hl

theorem cresetAgree {o o' : CShake R} (h : SameC o o') : Agree SameC (reset o) (reset o') := by
  refine activeAgree h fun P k k' hk => ?_
  refine Agree.bind (R := SameObj SameK) ?_ fun _ _ h => ⟨hk.1, h⟩
  exact ⟨rfl, rfl⟩

theorem cfinAgree {o o' : CShake R} (h : SameC o o') : Agree SameC (finalize o) (finalize o') := by
  refine activeAgree h fun P k k' hk => ?_
  refine Agree.bind (R := SameObj SameK) ?_ fun _ _ h => ⟨hk.1, h⟩
  rw [hk.1]
  exact sha3FinAgree P _ hk.2

theorem coutAgree {o o' : CShake R} (h : SameC o o') : Agree (fun _ _ => True) (CShake.toVector o) (CShake.toVector o') := by
  obtain ⟨c, s, k⟩ := o
  obtain ⟨c', s', k'⟩ := o'
  obtain ⟨h1, h2, h3⟩ := h
  simp only at h1 h2 h3
  subst h1
  unfold CShake.toVector
  refine Agree.ite Iff.rfl (fun _ => ?_) (fun _ => ?_)
  · cases s <;> cases s' <;> first | exact h2.elim | trivial
  · cases k <;> cases k' <;> first | exact h3.elim | trivial

theorem zerosAgree (n : Nat) : ∀ {o o' : CShake R}, SameC o o' → Agree SameC (addZeros n o) (addZeros n o') := by
  induction n with
  | zero => intro o o' h; exact h
  | succ n ih => intro o o' h; exact (caddAgree h rfl).bind fun _ _ h => ih h

theorem stringAgree (nb : Nat → Nat) {o o' : CShake R} (h : SameC o o') {l l' : List Byte} (hl : l.length = l'.length)
    (n : Nat) : Agree (fun r r' => SameC r.1 r'.1 ∧ r.2 = r'.2) (CShake.processString nb o l n) (CShake.processString nb o' l' n) := by
  unfold CShake.processString
  rw [hl]
  refine (Agree.self (R := Eq) (fun _ => rfl) _).bind ?_
  rintro e _ rfl
  exact (caddAgree h rfl).bind fun _ _ h => (caddAgree h hl).bind fun _ _ h => ⟨h, rfl⟩

theorem isEmpty_congr {l l' : List Byte} (h : l.length = l'.length) : l.isEmpty = l'.isEmpty := by
  cases l <;> cases l' <;> simp_all

theorem constructAgree (nb : Nat → Nat) (d : Int) {name name' custom custom' : List Byte}
    (hn : name.length = name'.length) (hc : custom.length = custom'.length) :
    Agree SameC (CShake.construct nb R d name custom) (CShake.construct nb R d name' custom') := by
  unfold CShake.construct
  rw [isEmpty_congr hn, isEmpty_congr hc]
  have hk : ∀ P, Agree (SameKObj (R := R)) (newK R P d) (newK R P d) := fun P => Agree.self (fun k => ⟨rfl, rfl, rfl⟩) _
  by_cases he : (!(name'.isEmpty && custom'.isEmpty)) = false
  · simp only [he, if_true]
    exact (hk _).bind fun k k' h => ⟨rfl, h, trivial⟩
  · simp only [he]
    refine (hk _).bind fun k k' h => ?_
    refine (Agree.self (R := Eq) (fun _ => rfl) _).bind ?_
    rintro e _ rfl
    refine (caddAgree (show SameC ⟨_, none, some k⟩ ⟨_, none, some k'⟩ from ⟨rfl, trivial, h⟩) rfl).bind fun o o' ho => ?_
    refine (stringAgree nb ho hn _).bind ?_
    rintro ⟨o, n⟩ ⟨o', _⟩ ⟨ho, rfl⟩
    refine (stringAgree nb ho hc _).bind ?_
    rintro ⟨o, n⟩ ⟨o', _⟩ ⟨ho, rfl⟩
    exact zerosAgree _ ho

theorem spanTwin (hb : TwinBody bodyAct) (self : Nat) {o o' : CShake R} (h : SameC o o') (data : GSpan) :
    Twin SameC (addDataSpanAct bodyAct self o data) (addDataSpanAct bodyAct self o' data) := by
  obtain ⟨c, s, k⟩ := o
  obtain ⟨c', s', k'⟩ := o'
  obtain ⟨h1, h2, h3⟩ := h
  simp only at h1 h2 h3
  subst h1
  unfold addDataSpanAct
  refine Twin.ite Iff.rfl (fun _ => ?_) (fun _ => ?_)
  · cases s <;> cases s' <;> try exact h2.elim
    · exact Twin.fault _ _
    · exact (addDataTwin (sha3Twin hb) self h2.2 data).bind fun _ _ h => Twin.pure ⟨rfl, ⟨h2.1, h⟩, h3⟩
  · cases k <;> cases k' <;> try exact h3.elim
    · exact Twin.fault _ _
    · exact (addDataTwin (sha3Twin hb) self h3.2 data).bind fun _ _ h => Twin.pure ⟨rfl, h2, ⟨h3.1, h⟩⟩

theorem ccommandsTwin (hb : TwinBody bodyAct) (self : Nat) (cmds : List Cmd) : ∀ cmds' {o o' : CShake R},
    Cmd.SameBut cmds cmds' → SameC o o' → Twin SameC (commands bodyAct self o cmds) (commands bodyAct self o' cmds') := by
  induction cmds with
  | nil =>
    intro cmds' o o' hc hR
    cases cmds' with
    | nil => exact Twin.pure hR
    | cons c cs => cases c <;> exact hc.elim
  | cons c cs ih =>
    intro cmds' o o' hc hR
    cases cmds' with
    | nil => cases c <;> exact hc.elim
    | cons c' cs' =>
      cases c <;> cases c' <;> try exact hc.elim
      · obtain ⟨rfl, hc⟩ := hc
        exact Twin.write _ _ _ (ih _ hc hR)
      · obtain ⟨rfl, rfl, hc⟩ := hc
        simp only [commands]
        refine (Twin.liftSelf _).bind ?_
        rintro s _ rfl
        exact (spanTwin hb self hR s).bind fun o o' h => ih _ hc h
      · simp only [commands]
        exact (Twin.lift (cresetAgree hR)).bind fun o o' h => ih cs' hc h
      · simp only [commands]
        exact (Twin.lift (cfinAgree hR)).bind fun o o' h => ih cs' hc h

theorem cshakeSame (hb : Straight bodyAct) (hr : Reads bodyAct (SHA3.body (R := R))) (self : Nat)
    {start start' : Except Fault (CShake R)} (hs : Agree SameC start start') {cmds cmds' : List Cmd}
    (hc : Cmd.SameBut cmds cmds') :
    LookAlike (CShake.thread bodyAct self start cmds) (CShake.thread bodyAct self start' cmds') := by
  refine Twin.lookAlike (R := fun _ _ => True) ?_
  unfold CShake.thread
  refine (Twin.lift hs).bind fun o o' h => ?_
  exact (ccommandsTwin (twinBody hb hr) self cmds cmds' hc h).bind fun _ _ h => Twin.lift (coutAgree h)

/-- two TupleHash objects -/
def SameT (o o' : TupleHash R) : Prop := SameC o.cshake o'.cshake ∧ o.digestLength = o'.digestLength

theorem nextTwin (hb : TwinBody bodyAct) (nb : Nat → Nat) (self loc : Nat) {o o' : TupleHash R} (h : SameT o o')
    (data : GSpan) : Twin SameT (nextDataAct bodyAct nb self loc o data) (nextDataAct bodyAct nb self loc o' data) := by
  unfold nextDataAct
  refine (Twin.liftSelf _).bind ?_
  rintro e _ rfl
  refine (Twin.liftSelf _).bind ?_
  rintro s _ rfl
  refine ((spanTwin hb self h.1 s).within (fun _ => Iff.rfl)).bind fun c c' hc => ?_
  exact (spanTwin hb self hc data).bind fun c c' hc => Twin.pure ⟨hc, h.2⟩

theorem tfinAgree (nb : Nat → Nat) {o o' : TupleHash R} (h : SameT o o') :
    Agree SameT (tupleFinalize nb o) (tupleFinalize nb o') := by
  unfold tupleFinalize
  rw [h.2]
  by_cases hv : ¬(-2 ^ 31 ≤ o'.digestLength * 8 ∧ o'.digestLength * 8 < 2 ^ 31)
  · simp only [hv]; trivial
  · simp only [hv, if_false]
    refine (Agree.self (R := Eq) (fun _ => rfl) _).bind ?_
    rintro e _ rfl
    refine (caddAgree h.1 rfl).bind fun c c' hc => ?_
    exact (cfinAgree hc).bind fun _ _ hc => ⟨hc, rfl⟩

theorem tcommandsTwin (hb : TwinBody bodyAct) (nb : Nat → Nat) (self loc : Nat) (cmds : List Cmd) :
    ∀ cmds' {o o' : TupleHash R}, Cmd.SameBut cmds cmds' → SameT o o' →
      Twin SameT (tupleCommands bodyAct nb self loc o cmds) (tupleCommands bodyAct nb self loc o' cmds') := by
  induction cmds with
  | nil =>
    intro cmds' o o' hc hR
    cases cmds' with
    | nil => exact Twin.pure hR
    | cons c cs => cases c <;> exact hc.elim
  | cons c cs ih =>
    intro cmds' o o' hc hR
    cases cmds' with
    | nil => cases c <;> exact hc.elim
    | cons c' cs' =>
      cases c <;> cases c' <;> try exact hc.elim
      · obtain ⟨rfl, hc⟩ := hc
        exact Twin.write _ _ _ (ih _ hc hR)
      · obtain ⟨rfl, rfl, hc⟩ := hc
        simp only [tupleCommands]
        refine (Twin.liftSelf _).bind ?_
        rintro s _ rfl
        exact (nextTwin hb nb self loc hR s).bind fun o o' h => ih _ hc h
      · simp only [tupleCommands]
        refine (Twin.lift (R := SameT) ?_).bind fun o o' h => ih cs' hc h
        exact (cresetAgree hR.1).bind fun _ _ h => ⟨h, hR.2⟩
      · simp only [tupleCommands]
        exact (Twin.lift (tfinAgree nb hR)).bind fun o o' h => ih cs' hc h

theorem tupleSameAcc (hb : Straight bodyAct) (hr : Reads bodyAct (SHA3.body (R := R))) (nb : Nat → Nat) (self loc : Nat)
    {start start' : Except Fault (TupleHash R)} (hs : Agree SameT start start') {cmds cmds' : List Cmd}
    (hc : Cmd.SameBut cmds cmds') :
    LookAlike (tupleThread bodyAct nb self loc start cmds) (tupleThread bodyAct nb self loc start' cmds') := by
  refine Twin.lookAlike (R := fun _ _ => True) ?_
  unfold tupleThread
  refine (Twin.lift hs).bind fun o o' h => ?_
  exact (tcommandsTwin (twinBody hb hr) nb self loc cmds cmds' hc h).bind fun _ _ h => Twin.lift (coutAgree h.1)

theorem tupleConstructAgree (nb : Nat → Nat) (d : Int) {custom custom' : List Byte} (hc : custom.length = custom'.length) :
    Agree SameT (tupleConstruct nb R d custom) (tupleConstruct nb R d custom') := by
  unfold tupleConstruct
  exact (constructAgree nb d rfl hc).bind fun _ _ h => ⟨h, rfl⟩

end

/-! ## Ways to read a block -/

theorem readOnce_straight {S : Type} {B : Nat} (body : S → Block B → S) : Straight (readOnce body) := by
  intro s s' a
  refine Twin.lookAlike (R := fun _ _ => True) ?_
  unfold readOnce
  have key : ∀ js : List Nat, Twin (fun l l' => l.length = l'.length) (js.mapM fun i => Act.read (a + i) .ret)
      (js.mapM fun i => Act.read (a + i) .ret) := by
    intro js
    induction js with
    | nil => exact Twin.pure rfl
    | cons j js ih =>
      rw [List.mapM_cons]
      exact (Twin.read _).bind fun _ _ _ => ih.bind fun _ _ h => Twin.pure (by simp [h])
  refine (key _).bind fun l l' h => ?_
  by_cases hl : l.length = B
  · rw [dif_pos hl, dif_pos (h ▸ hl)]; exact Twin.pure trivial
  · rw [dif_neg hl, dif_neg (h ▸ hl)]; exact Twin.fault _ _

theorem md5_straight : Straight MD5.compressAct := by
  intro s s' a
  refine Twin.lookAlike (R := fun _ _ => True) ?_
  unfold MD5.compressAct
  have load : ∀ k, Twin (fun _ _ => True) (MD5.loadAct a k) (MD5.loadAct a k) := by
    intro k
    exact (Twin.read (a + 4 * k + 0)).bind fun _ _ _ => (Twin.read (a + 4 * k + 1)).bind fun _ _ _ =>
      (Twin.read (a + 4 * k + 2)).bind fun _ _ _ => (Twin.read (a + 4 * k + 3)).bind fun _ _ _ => Twin.pure trivial
  refine Twin.bind (R := fun _ _ => True) ?_ fun _ _ _ => Twin.pure trivial
  refine Twin.foldlM_self (R := fun _ _ => True) (fun r r' q _ => ?_) _ _ _ trivial
  exact (load q.k).bind fun _ _ _ => Twin.pure trivial

end Verif.Proof.Access
