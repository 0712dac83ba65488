import Verif.Model.Threads
import Verif.Proof.Spans

/-! Threads do not disturb one another. -/

namespace Verif.Proof.Threads
open Verif.Model

variable {α β : Type}

/-! ## Runs -/

/-- `p` ends after `n` reads with `r`, and all it reads is in `m` -/
inductive Quiet (m : Mem) : Act α → Nat → α → Prop
  | ret (a : α) : Quiet m (.ret a) 0 a
  | read {a x k n r} : m a = some x → Quiet m (k x) n r → Quiet m (.read a k) (n + 1) r

/-- `p` ends after `n` accesses with `r` and the memory `m'`, and it writes to `W` only -/
inductive Runs (W : Nat → Prop) : Mem → Act α → Nat → Except Fault α → Mem → Prop
  | ret (m : Mem) (a : α) : Runs W m (.ret a) 0 (.ok a) m
  | fault (m : Mem) (e : Fault) : Runs W m (.fault e) 0 (.error e) m
  | read {m a x k n r m'} : m a = some x → Runs W m (k x) n r m' → Runs W m (.read a k) (n + 1) r m'
  | write {m a x k n r m'} : W a → Runs W (fun b => if b = a then x else m b) k n r m' → Runs W m (.write a x k) (n + 1) r m'

theorem Quiet.runs {m : Mem} {p : Act α} {n r} (h : Quiet m p n r) (W : Nat → Prop) : Runs W m p n (.ok r) m := by
  induction h with
  | ret a => exact .ret _ _
  | read hx _ ih => exact .read hx ih

theorem Quiet.alone {m : Mem} {p : Act α} {n r} (h : Quiet m p n r) : p.alone m = .ok (r, m) := by
  induction h with
  | ret a => rfl
  | read hx _ ih => simp only [Act.alone, hx, ih]

theorem quiet_of_alone {m : Mem} {p : Act α} {r : α} (hr : p.ReadOnly) (h : p.alone m = .ok (r, m)) :
    ∃ n, Quiet m p n r := by
  induction p with
  | ret a => cases h; exact ⟨0, .ret _⟩
  | fault e => cases h
  | read a k ih =>
    simp only [Act.alone] at h
    split at h
    · next x hx =>
      obtain ⟨n, hn⟩ := ih x (hr x) h
      exact ⟨n + 1, .read hx hn⟩
    · cases h
  | write a x k ih => exact hr.elim

theorem Quiet.bind {m : Mem} {p : Act α} {q : α → Act β} {n k a r} (h : Quiet m p n a) (h2 : Quiet m (q a) k r) :
    ∃ n, Quiet m (p >>= q) n r := by
  induction h with
  | ret a => exact ⟨_, h2⟩
  | read hx _ ih => obtain ⟨n, hn⟩ := ih h2; exact ⟨n + 1, .read hx hn⟩

theorem Runs.bind {W : Nat → Prop} {m m' m'' : Mem} {p : Act α} {q : α → Act β} {n k a ra r} (h : Runs W m p n ra m')
    (ha : ra = .ok a) (h2 : Runs W m' (q a) k r m'') : ∃ n, Runs W m (p >>= q) n r m'' := by
  induction h with
  | ret m a => cases ha; exact ⟨_, h2⟩
  | fault m e => cases ha
  | read hx _ ih => obtain ⟨n, hn⟩ := ih ha h2; exact ⟨n + 1, .read hx hn⟩
  | write hw _ ih => obtain ⟨n, hn⟩ := ih ha h2; exact ⟨n + 1, .write hw hn⟩

theorem Runs.lift (W : Nat → Prop) (m : Mem) (e : Except Fault α) : Runs W m (Act.lift e) 0 e m := by
  cases e with
  | ok a => exact .ret _ _
  | error e => exact .fault _ _

/-! ## The machine -/

theorem machine {W own : Nat → Prop} {t : Nat} {m' : Mem} {d : Except Fault (List Byte)} (hW : ∀ a, W a → own a)
    (sched : List Nat) : ∀ (c : Machine) (m : Mem) (p : Act (List Byte)) (n : Nat), Runs W m p n d m' → c.threads t = p →
      (∀ a x, m a = some x → c.mem a = some x) → (∀ a, m a ≠ none → own a) → c.Leaves t own sched →
      (∀ a x k, (c.run sched).threads t = .write a x k → W a) ∧
      if sched.count t < n then ¬ ((c.run sched).threads t).Done else (c.run sched).threads t = .lift d := by
  induction sched with
  | nil =>
    intro c m p n h hp _ _ _
    simp only [Machine.run, List.count_nil, hp]
    cases h with
    | ret => exact ⟨(fun _ _ _ h => by cases h), by simp [Act.lift]⟩
    | fault => exact ⟨(fun _ _ _ h => by cases h), by simp [Act.lift]⟩
    | read _ _ => exact ⟨(fun _ _ _ h => by cases h), by simp [Act.Done]⟩
    | write hw _ => exact ⟨(fun _ _ _ h => by cases h; exact hw), by simp [Act.Done]⟩
  | cons u us ih =>
    intro c m p n h hp hm hd hl
    obtain ⟨hl1, hl2⟩ := hl
    simp only [Machine.run]
    by_cases hu : u = t
    · subst hu
      cases h with
      | ret =>
        have e : c.step u = c := by simp only [Machine.step, hp]
        rw [e] at hl2 ⊢
        have := ih c _ _ 0 (.ret _ _) hp hm hd hl2
        simpa using this
      | fault =>
        have e : c.step u = c := by simp only [Machine.step, hp]
        rw [e] at hl2 ⊢
        have := ih c _ _ 0 (.fault _ _) hp hm hd hl2
        simpa using this
      | @read _ a x k n _ _ hx h =>
        have e : c.step u = { c with threads := fun v => if v = u then k x else c.threads v } := by
          simp only [Machine.step, hp, hm a x hx]
        have := ih (c.step u) m (k x) n h (by rw [e]; simp) (by rw [e]; exact hm) hd hl2
        simpa [List.count_cons] using this
      | @write _ a x k n _ _ hw h =>
        have e : c.step u = ⟨fun b => if b = a then x else c.mem b, fun v => if v = u then k else c.threads v⟩ := by
          simp only [Machine.step, hp]
        have := ih (c.step u) _ k n h (by rw [e]; simp) (by
          rw [e]
          intro b y hb
          by_cases hba : b = a
          · simpa [hba] using hb
          · simp only [hba, if_false] at hb ⊢; exact hm b y hb) (by
          intro b hb
          by_cases hba : b = a
          · rw [hba]; exact hW a hw
          · simp only [hba, if_false] at hb; exact hd b hb) hl2
        simpa [List.count_cons] using this
    · have ht : (c.step u).threads t = c.threads t := by
        have : t ≠ u := fun h => hu h.symm
        unfold Machine.step
        split <;> simp [this]
      have hm2 : ∀ a x, m a = some x → (c.step u).mem a = some x := by
        intro a x hx
        unfold Machine.step
        split
        · exact hm a x hx
        · exact hm a x hx
        · exact hm a x hx
        · next b y k hb =>
          have : a ≠ b := by
            rintro rfl
            exact hl1 hu _ _ _ hb (hd a (by rw [hx]; simp))
          simp only [this, if_false]
          exact hm a x hx
      have := ih (c.step u) m p n h (ht.trans hp) hm2 hd hl2
      simpa [List.count_cons, hu] using this

theorem undisturbed {W : Nat → Prop} {m m' : Mem} {p : Act (List Byte)} {n : Nat} {d : Except Fault (List Byte)}
    (h : Runs W m p n d m') : Undisturbed p m W d :=
  ⟨n, fun c _ sched hp hm hl => machine (fun _ h => .inr h) sched c m p n h hp hm (fun _ h => .inl h) hl⟩

/-! ## Code that reads -/

/-- where `f` succeeds, `p` does the same access by access -/
def Sim (p : Act α) (f : Mem → Except Fault α) : Prop := ∀ m r, f m = .ok r → ∃ n, Quiet m p n r

theorem Sim.lift (e : Except Fault α) : Sim (Act.lift e) (fun _ => e) := by
  rintro m r rfl
  exact ⟨0, .ret _⟩

theorem Sim.pure (a : α) : Sim (Pure.pure a : Act α) (fun _ => Pure.pure a) := by
  intro m r h
  cases h
  exact ⟨0, .ret _⟩

theorem Sim.fault (e e' : Fault) : Sim (Act.fault e : Act α) (fun _ => .error e') := by
  intro m r h
  cases h

theorem Sim.bind {p : Act α} {f : Mem → Except Fault α} {q : α → Act β} {g : α → Mem → Except Fault β}
    (h : Sim p f) (h2 : ∀ a, Sim (q a) (g a)) : Sim (p >>= q) (fun m => f m >>= fun a => g a m) := by
  intro m r hr
  dsimp only at hr
  cases hf : f m with
  | error e => rw [hf] at hr; cases hr
  | ok a =>
    rw [hf] at hr
    obtain ⟨n, hn⟩ := h m a hf
    obtain ⟨k, hk⟩ := h2 a m r hr
    exact hn.bind hk

theorem Sim.ite {c : Prop} [Decidable c] {p q : Act α} {f g : Mem → Except Fault α} (h : Sim p f) (h2 : Sim q g) :
    Sim (if c then p else q) (fun m => if c then f m else g m) := by
  by_cases hc : c
  · simpa only [hc, if_true] using h
  · simpa only [hc, if_false] using h2

/-- `assert` at the start of a function -/
theorem Sim.guard {c : Prop} [Decidable c] {p : Act α} {f : Mem → Except Fault α} {e : Fault} (h : Sim p f) :
    Sim (if c then .fault e else p) (fun m => do
      if c then throw e
      f m) := by
  by_cases hc : c
  · simp only [hc, if_true]
    intro m r hr
    cases hr
  · simp only [hc, if_false]
    exact h

theorem Sim.within {p : Act α} {f : Mem → Except Fault α} (h : Sim p f) (m0 : Mem) :
    Sim (p.within m0) (fun _ => f m0) := by
  intro m r hr
  obtain ⟨n, hn⟩ := h m0 r hr
  refine ⟨0, ?_⟩
  simp only [Act.within, hn.alone]
  exact .ret _

theorem Sim.read (a : Nat) : Sim (Act.read a Act.ret) (fun m => m.read a) := by
  intro m r hr
  simp only [Mem.read] at hr
  split at hr
  · next x hx => cases hr; exact ⟨1, .read hx (.ret _)⟩
  · cases hr

theorem Sim.foldlM {S I : Type} {step : S → I → Act S} {stepAt : S → I → Mem → Except Fault S}
    (h : ∀ s i, Sim (step s i) (stepAt s i)) (l : List I) :
    ∀ s, Sim (l.foldlM step s) (fun m => l.foldlM (fun s i => stepAt s i m) s) := by
  induction l with
  | nil => intro s; exact Sim.pure s
  | cons i l ih =>
    intro s
    simp only [List.foldlM_cons]
    exact (h s i).bind ih

theorem simGet (s : GSpan) (i : Nat) : Sim (s.getAct i) (fun m => s.get m i) :=
  (Sim.lift _).bind fun _ => Sim.read _

theorem simDeref (it : Iter) : Sim it.derefAct (fun m => it.deref m) :=
  (Sim.lift _).bind fun _ => Sim.read _

theorem simIterLoop {S : Type} (body : S → Byte → Except Fault S) (fuel : Nat) :
    ∀ it last s, Sim (iterLoopAct body fuel it last s) (fun m => iterLoop m body fuel it last s) := by
  induction fuel with
  | zero => intro it last s; exact Sim.fault _ _
  | succ fuel ih =>
    intro it last s
    simp only [iterLoopAct, iterLoop]
    refine (Sim.lift (it.ne last)).bind fun b => ?_
    refine Sim.ite ?_ (Sim.pure s)
    refine (simDeref it).bind fun x => ?_
    refine (Sim.lift _).bind fun s => ?_
    exact (Sim.lift _).bind fun it => ih it last s

theorem simIterRange {S : Type} (body : S → Byte → Except Fault S) (first last : Iter) (s : S) :
    Sim (iterRangeAct body first last s) (fun m => iterRange m body first last s) := simIterLoop body _ _ _ _

theorem simPushBack {N : Nat} (b : Buffer N) (first last : Iter) :
    Sim (b.pushBackAct first last) (fun m => b.pushBackAt m first last) := simIterRange _ _ _ _

theorem simOfRange {N : Nat} (first last : Iter) :
    Sim (Buffer.ofRangeAct (N := N) first last) (fun m => Buffer.ofRangeAt m first last) := simPushBack _ _ _

theorem simForBlocks {S : Type} {B : Nat} {bodyAct : S → Nat → Act S} {body : S → Block B → S} (h : Reads bodyAct body)
    (data : GSpan) (s : S) : Sim (forBlocksAct B bodyAct data s) (fun m => forBlocksAt B body m data s) := by
  refine Sim.foldlM (stepAt := fun s i m => blockFrom B m (data.data + i * B) >>= fun blk => pure (body s blk)) ?_ _ s
  intro s i m r hr
  dsimp only at hr
  cases hb : blockFrom B m (data.data + i * B) with
  | error e => rw [hb] at hr; cases hr
  | ok blk =>
    rw [hb] at hr
    cases hr
    exact quiet_of_alone (h s _).1 ((h s _).2 m blk hb)

/-- the same for an `addDataImpl` -/
def SimImpl {S : Type} (impl : S → GSpan → Act S) (implAt : S → Mem → GSpan → Except Fault S) : Prop :=
  ∀ s data, Sim (impl s data) (fun m => implAt s m data)

theorem simTail {N : Nat} {S : Type} {B : Nat} {impl : S → GSpan → Act S} {implAt : S → Mem → GSpan → Except Fault S}
    (h : SimImpl impl implAt) (o : Obj N S) (data : GSpan) :
    Sim (addDataTailAct B impl o data) (fun m => addDataTailAt B implAt o m data) := by
  unfold addDataTailAct addDataTailAt
  refine Sim.ite ?_ ?_
  · refine (Sim.lift _).bind fun i => (Sim.lift _).bind fun j => (simOfRange i j).bind fun b => Sim.pure _
  · refine (Sim.lift _).bind fun f => (h _ f).bind fun c => ?_
    refine Sim.ite ?_ (Sim.pure _)
    exact (Sim.lift _).bind fun i => (Sim.lift _).bind fun j => (Sim.lift _).bind fun k => (simOfRange _ _).bind fun b => Sim.pure _

theorem simAddData {N : Nat} {S : Type} {B : Nat} {impl : S → GSpan → Act S} {implAt : S → Mem → GSpan → Except Fault S}
    (h : SimImpl impl implAt) (self : Nat) (o : Obj N S) (data : GSpan) :
    Sim (addDataAct B impl self o data) (fun m => addDataAt B implAt self o m data) := by
  unfold addDataAct addDataAt
  refine Sim.ite ?_ (simTail h o data)
  refine (Sim.lift _).bind fun i => (Sim.lift _).bind fun j => (Sim.lift _).bind fun k => (simPushBack _ _ _).bind fun b => ?_
  refine Sim.ite (Sim.pure _) ?_
  refine (Sim.lift _).bind fun f => ((h _ f).within _).bind fun c => (Sim.lift _).bind fun d => simTail h _ _

theorem simMd {C H : Type} {B : Nat} {cnt : Counter C} {compAct : H → Nat → Act H} {comp : H → Block B → H}
    (h : Reads compAct comp) : SimImpl (mdImplAct B cnt compAct) (mdImplAt B cnt comp) := by
  intro s data
  unfold mdImplAct mdImplAt
  refine Sim.guard ?_
  exact (simForBlocks h data s.h).bind fun _ => Sim.pure _

/-! ## From C47 to threads -/

theorem commandsRun {O : Type} {A : API O} {addAct : O → GSpan → Act O} {addAt : O → Mem → GSpan → Except Fault O}
    (h : ∀ o s, Sim (addAct o s) (fun m => addAt o m s)) (W : Nat → Prop) (cmds : List Cmd) :
    ∀ (o o' : O) (m : Mem), (∀ a x, Cmd.store a x ∈ cmds → W a) → A.runAt addAt o (Cmd.calls m cmds) = .ok o' →
      ∃ n m', Runs W m (A.commands addAct o cmds) n (.ok o') m' := by
  induction cmds with
  | nil =>
    intro o o' m _ hr
    cases hr
    exact ⟨0, m, .ret _ _⟩
  | cons c cs ih =>
    intro o o' m hW hr
    have hW2 : ∀ a x, Cmd.store a x ∈ cs → W a := fun a x h => hW a x (List.mem_cons_of_mem _ h)
    cases c with
    | store a x =>
      obtain ⟨n, m', hn⟩ := ih o o' _ hW2 hr
      exact ⟨n + 1, m', .write (hW a x (by simp)) hn⟩
    | add ptr length =>
      simp only [Cmd.calls, API.runAt, API.stepAt] at hr
      simp only [API.commands]
      cases hs : GSpan.make ptr length with
      | error e => rw [hs] at hr; cases hr
      | ok s =>
        rw [hs] at hr
        cases ha : addAt o m s with
        | error e => simp only [Memory.okb, ha] at hr; cases hr
        | ok o1 =>
          simp only [Memory.okb, ha] at hr
          obtain ⟨k, hk⟩ := h o s m o1 ha
          obtain ⟨n, m', hn⟩ := ih o1 o' m hW2 hr
          obtain ⟨j, hj⟩ := (hk.runs W).bind (q := fun o => A.commands addAct o cs) rfl hn
          exact ⟨j, m', hj⟩
    | reset => exact ih (A.reset o) o' m hW2 hr
    | finalize =>
      simp only [Cmd.calls, API.runAt, API.stepAt] at hr
      simp only [API.commands]
      cases hf : A.finalize o with
      | error e => rw [hf] at hr; cases hr
      | ok o1 =>
        rw [hf] at hr
        exact ih o1 o' m hW2 hr

theorem scheduleIndependent {O : Type} {A : API O} {addAct : O → GSpan → Act O}
    {addAt : O → Mem → GSpan → Except Fault O} (hs : A.MemorySafe addAt)
    (h : ∀ o s, Sim (addAct o s) (fun m => addAt o m s)) : A.ScheduleIndependent addAct := by
  intro cmds ops m hh
  obtain ⟨o, h1, h2⟩ := hs _ ops hh
  obtain ⟨n, m', hn⟩ := commandsRun h (Cmd.Stores cmds) cmds A.fresh o m (fun a x h => ⟨x, h⟩) h1
  obtain ⟨k, hk⟩ := hn.bind (q := fun o => Act.lift (A.toArray o)) rfl (Runs.lift _ _ _)
  have : A.digestAfter ops = A.toArray o := by unfold API.digestAfter; rw [h2]; rfl
  rw [this]
  exact undisturbed hk

/-! ## Ways to read a block -/

instance : LawfulMonad Act := LawfulMonad.mk'
  (id_map := by
    intro α p
    show p.bind (fun a => Act.ret (id a)) = p
    induction p with
    | ret a => rfl
    | fault e => rfl
    | read a k ih => simp only [Act.bind, ih]
    | write a x k ih => simp only [Act.bind, ih])
  (pure_bind := fun _ _ => rfl)
  (bind_assoc := by
    intro α β γ p f g
    show (p.bind f).bind g = p.bind fun a => (f a).bind g
    induction p with
    | ret a => rfl
    | fault e => rfl
    | read a k ih => simp only [Act.bind, ih]
    | write a x k ih => simp only [Act.bind, ih])

theorem readOnly_bind {p : Act α} {q : α → Act β} (hp : p.ReadOnly) (hq : ∀ a, (q a).ReadOnly) : (p >>= q).ReadOnly := by
  induction p with
  | ret a => exact hq a
  | fault e => trivial
  | read a k ih => exact fun x => ih x (hp x)
  | write a x k ih => exact hp.elim

theorem readOnly_foldlM {S I : Type} {step : S → I → Act S} (h : ∀ s i, (step s i).ReadOnly) (l : List I) :
    ∀ s, (l.foldlM step s).ReadOnly := by
  induction l with
  | nil => intro s; trivial
  | cons i l ih =>
    intro s
    rw [List.foldlM_cons]
    exact readOnly_bind (h s i) ih

theorem readOnly_mapM {I : Type} {f : I → Act α} (h : ∀ i, (f i).ReadOnly) (l : List I) : (l.mapM f).ReadOnly := by
  induction l with
  | nil => trivial
  | cons i l ih =>
    rw [List.mapM_cons]
    exact readOnly_bind (h i) fun _ => readOnly_bind ih fun _ => trivial

theorem alone_bind {p : Act α} {q : α → Act β} {m m' : Mem} {a : α} (h : p.alone m = .ok (a, m')) :
    (p >>= q).alone m = (q a).alone m' := by
  induction p generalizing m with
  | ret b => cases h; rfl
  | fault e => cases h
  | read b k ih =>
    show (Act.read b fun x => (k x).bind q).alone m = _
    simp only [Act.alone] at h ⊢
    split at h
    · next x hx => exact ih x h
    · cases h
  | write b x k ih => exact ih h

theorem alone_mapM {m : Mem} (a : Nat) (js : List Nat) : ∀ l, (js.mapM fun i => m.read (a + i)) = .ok l →
    (js.mapM fun i => Act.read (a + i) .ret).alone m = .ok (l, m) := by
  induction js with
  | nil => intro l h; cases h; rfl
  | cons j js ih =>
    intro l h
    rw [List.mapM_cons] at h ⊢
    cases e : m.read (a + j) with
    | error => rw [e] at h; cases h
    | ok x =>
      rw [e] at h
      simp only [Memory.okb] at h
      have hx : m (a + j) = some x := by
        unfold Mem.read at e
        split at e
        · next hy => cases e; exact hy
        · cases e
      cases e2 : (js.mapM fun i => m.read (a + i)) with
      | error => rw [e2] at h; cases h
      | ok l2 =>
        rw [e2] at h
        cases h
        have h1 : (Act.read (a + j) .ret : Act Byte).alone m = .ok (x, m) := by simp only [Act.alone, hx]
        rw [alone_bind h1, alone_bind (ih l2 e2)]
        rfl

theorem readOnce_reads {S : Type} {B : Nat} (body : S → Block B → S) : Reads (readOnce body) body := by
  intro s a
  constructor
  · refine readOnly_bind (readOnly_mapM (fun i => ?_) _) fun l => ?_
    · exact fun _ => trivial
    · split <;> trivial
  · intro m blk hb
    unfold blockFrom at hb
    unfold readOnce
    cases e : ((List.range B).mapM fun i => m.read (a + i)) with
    | error => rw [e] at hb; cases hb
    | ok l =>
      rw [e] at hb
      rw [alone_bind (alone_mapM a _ l e)]
      simp only [Memory.okb] at hb
      split at hb
      · next h =>
        simp only [h, dif_pos]
        cases hb
        rfl
      · cases hb

theorem blockFrom_get {B : Nat} {m : Mem} {a : Nat} {blk : Block B} (h : blockFrom B m a = .ok blk) (i : Nat) (hi : i < B) :
    m (a + i) = some blk[i] := by
  unfold blockFrom at h
  cases e : ((List.range B).mapM fun i => m.read (a + i)) with
  | error => rw [e] at h; cases h
  | ok l =>
    rw [e] at h
    simp only [Memory.okb] at h
    split at h
    · next hl =>
      cases h
      have key : ∀ (js : List Nat) (l : List Byte), (js.mapM fun i => m.read (a + i)) = .ok l →
          ∀ k (hk : k < js.length) (hk2 : k < l.length), m (a + js[k]) = some l[k] := by
        intro js
        induction js with
        | nil => intro l _ k hk; exact absurd hk (by simp)
        | cons j js ih =>
          intro l h k hk hk2
          rw [List.mapM_cons] at h
          cases e : m.read (a + j) with
          | error => rw [e] at h; cases h
          | ok x =>
            rw [e] at h
            simp only [Memory.okb] at h
            cases e2 : (js.mapM fun i => m.read (a + i)) with
            | error => rw [e2] at h; cases h
            | ok l2 =>
              rw [e2] at h
              cases h
              cases k with
              | zero =>
                unfold Mem.read at e
                split at e
                · next hy => cases e; exact hy
                · cases e
              | succ k => exact ih l2 e2 k (by simpa using hk) (by simpa using hk2)
      have := key _ l e i (by simpa using hi) (by omega)
      simpa using this
    · cases h

theorem md5_load {m : Mem} {a : Nat} {x : Block 64} (h : blockFrom 64 m a = .ok x) (k : Fin 16) :
    (MD5.loadAct a k).alone m = .ok (loadLE32 x k, m) := by
  have h0 := blockFrom_get h (4 * k + 0) (by omega)
  have h1 := blockFrom_get h (4 * k + 1) (by omega)
  have h2 := blockFrom_get h (4 * k + 2) (by omega)
  have h3 := blockFrom_get h (4 * k + 3) (by omega)
  simp only [← Nat.add_assoc] at h0 h1 h2 h3
  simp only [MD5.loadAct, Act.alone, h0, h1, h2, h3]
  rfl

theorem md5_reads : Reads MD5.compressAct MD5.compress := by
  intro s a
  constructor
  · refine readOnly_bind (readOnly_foldlM (fun r q => ?_) _ _) fun _ => trivial
    exact readOnly_bind (fun _ _ _ _ => trivial) fun _ => trivial
  · intro m x hx
    have key : ∀ (l : List MD5.Call) r, (l.foldlM (MD5.execAct a) r).alone m = .ok (l.foldl (MD5.exec x) r, m) := by
      intro l
      induction l with
      | nil => intro r; rfl
      | cons q l ih =>
        intro r
        have e : (MD5.execAct a r q).alone m = .ok (MD5.exec x r q, m) := alone_bind (md5_load hx q.k)
        rw [List.foldlM_cons, List.foldl_cons, alone_bind e]
        exact ih _
    exact alone_bind (key _ _)

/-! ## The classes -/

theorem simSha3 {R : Nat} [SHA3.RateOK R] {bodyAct : SHA3.State → Nat → Act SHA3.State}
    (h : Reads bodyAct (SHA3.body (R := R))) : SimImpl (SHA3.implAct R bodyAct) (SHA3.implAt R) := by
  intro s data
  unfold SHA3.implAct SHA3.implAt
  exact Sim.guard ((simForBlocks h data s.state).bind fun _ => Sim.pure _)

theorem simBlake {w B : Nat} {C : Type} {c : BLAKE.Cfg w B C} {n : Nat}
    {bodyAct : MDState C (Vector (BitVec w) 8) → Nat → Act (MDState C (Vector (BitVec w) 8))}
    (h : Reads bodyAct (BLAKE.body c n)) : SimImpl (blakeImplAct B bodyAct) (BLAKE.implAt c n) := by
  intro s data
  unfold blakeImplAct BLAKE.implAt
  exact Sim.guard (simForBlocks h data s)

theorem simBlake2 {w B : Nat} {C : Type} {c : BLAKE2.Cfg w B C} {f : Bool} {n : Nat}
    {bodyAct : BLAKE2.State w C → Nat → Act (BLAKE2.State w C)}
    (h : Reads bodyAct (BLAKE2.body c f n)) : SimImpl (blakeImplAct B bodyAct) (BLAKE2.implAt c f n) := by
  intro s data
  unfold blakeImplAct BLAKE2.implAt
  exact Sim.guard (simForBlocks h data s)

theorem simSip {C : Nat} {bodyAct : Vector W64 4 → Nat → Act (Vector W64 4)}
    (h : Reads bodyAct (SipHash.body C)) : SimImpl (SipHash.implAct bodyAct) (SipHash.implAt C) := by
  intro s data
  unfold SipHash.implAct SipHash.implAt
  exact Sim.guard ((simForBlocks h data s.state).bind fun _ => Sim.pure _)

theorem getReads {sp : GSpan} {m : Mem} (js : List Nat) : ∀ l, (js.mapM fun j => sp.get m j) = .ok l →
    (js.mapM fun j => m.read (sp.data + j)) = .ok l := by
  induction js with
  | nil => intro l h; exact h
  | cons j js ih =>
    intro l h
    simp only [List.mapM_cons] at h ⊢
    have hg : ∀ x, sp.get m j = .ok x → m.read (sp.data + j) = .ok x := by
      intro x hx
      unfold GSpan.get expects at hx
      split at hx
      · exact hx
      · cases hx
    cases e : sp.get m j with
    | error => rw [e] at h; cases h
    | ok x =>
      rw [e] at h
      rw [hg x e]
      simp only [Memory.okb] at h ⊢
      cases e2 : (js.mapM fun j => sp.get m j) with
      | error => rw [e2] at h; cases h
      | ok l2 =>
        rw [e2] at h
        rw [ih l2 e2]
        exact h

theorem simMd2 {bodyAct : MD2.St → Nat → Act MD2.St} (h : Reads bodyAct MD2.body) :
    SimImpl (MD2.implAct bodyAct) MD2.implAt := by
  intro s data
  unfold MD2.implAct MD2.implAt
  refine Sim.foldlM (fun s i => ?_) _ s
  refine (Sim.lift (GSpan.make (data.data + i * 16) 16)).bind fun sp => ?_
  intro m r hr
  dsimp only at hr
  cases hl : (List.range 16).mapM (fun j => sp.get m j) with
  | error => rw [hl] at hr; cases hr
  | ok l =>
    rw [hl] at hr
    simp only [Memory.okb] at hr
    split at hr
    · next h16 =>
      have hr := Except.ok.inj hr
      subst hr
      refine quiet_of_alone (h s _).1 ((h s _).2 m ⟨l.toArray, by simpa using h16⟩ ?_)
      unfold blockFrom
      rw [getReads _ l hl]
      simp only [Memory.okb, h16, dif_pos]
      rfl
    · cases hr

theorem simCrcTail (data : GSpan) (fuel : Nat) : ∀ processed h,
    Sim (CRC32.tailLoopAct data fuel processed h) (fun m => CRC32.tailLoopAt m data fuel processed h) := by
  induction fuel with
  | zero => intro processed h; exact Sim.ite (Sim.fault _ _) (Sim.pure _)
  | succ fuel ih =>
    intro processed h
    simp only [CRC32.tailLoopAct, CRC32.tailLoopAt]
    exact Sim.ite ((simGet _ _).bind fun x => ih _ _) (Sim.pure _)

theorem simCrc {bodyAct : W32 → Nat → Act W32} (h : Reads bodyAct CRC32.body) (s : W32) (data : GSpan) :
    Sim (CRC32.addDataAct bodyAct s data) (fun m => CRC32.addDataAt s m data) := by
  unfold CRC32.addDataAct CRC32.addDataAt
  exact (simForBlocks h data s).bind fun _ => simCrcTail _ _ _ _

theorem simFnv {w : Nat} (v : Nat) (h : BitVec w) (data : GSpan) :
    Sim (FNV.addDataAct v h data) (fun m => FNV.addDataAt v h m data) := by
  unfold FNV.addDataAct FNV.addDataAt
  exact (Sim.lift _).bind fun i => (Sim.lift _).bind fun j => simIterRange _ _ _ _

theorem simBlake2Tail {S : Type} {B : Nat} {impl : S → GSpan → Act S} {implAt : S → Mem → GSpan → Except Fault S}
    (h : SimImpl impl implAt) (o : Obj B S) (data : GSpan) :
    Sim (BLAKE2.addDataTailAct B impl o data) (fun m => BLAKE2.addDataTailAt B implAt o m data) := by
  unfold BLAKE2.addDataTailAct BLAKE2.addDataTailAt
  exact (Sim.lift _).bind fun f => (h _ f).bind fun c => (Sim.lift _).bind fun i => (Sim.lift _).bind fun j =>
    (Sim.lift _).bind fun k => (simOfRange _ _).bind fun b => Sim.pure _

theorem simBlake2Add {S : Type} {B : Nat} {impl : S → GSpan → Act S} {implAt : S → Mem → GSpan → Except Fault S}
    (h : SimImpl impl implAt) (self : Nat) (fuel : Nat) : ∀ (o : Obj B S) (data : GSpan),
    Sim (BLAKE2.addDataAct B impl self fuel o data) (fun m => BLAKE2.addDataAt B implAt self m fuel o data) := by
  induction fuel with
  | zero =>
    intro o data
    unfold BLAKE2.addDataAct BLAKE2.addDataAt
    refine Sim.ite (Sim.pure _) (Sim.ite ?_ (Sim.ite (Sim.fault _ _) (simBlake2Tail h _ _)))
    exact (Sim.lift _).bind fun f => ((h _ f).within _).bind fun c => simBlake2Tail h _ _
  | succ fuel ih =>
    intro o data
    unfold BLAKE2.addDataAct BLAKE2.addDataAt
    refine Sim.ite (Sim.pure _) (Sim.ite ?_ (Sim.ite ?_ (simBlake2Tail h _ _)))
    · exact (Sim.lift _).bind fun f => ((h _ f).within _).bind fun c => simBlake2Tail h _ _
    · exact (Sim.lift _).bind fun i => (Sim.lift _).bind fun j => (Sim.lift _).bind fun k =>
        (simPushBack _ _ _).bind fun b => (Sim.lift _).bind fun d => ih _ _

/-! ## cSHAKE and TupleHash -/

section
open CShake
variable {R : Nat} [SHA3.RateOK R] {bodyAct : SHA3.State → Nat → Act SHA3.State}

theorem simCshake (h : Reads bodyAct (SHA3.body (R := R))) (self : Nat) (o : CShake R) (data : GSpan) :
    Sim (addDataSpanAct bodyAct self o data) (fun m => addDataSpanAt self o m data) := by
  unfold addDataSpanAct addDataSpanAt onActive
  refine Sim.ite ?_ ?_
  · cases o.shake with
    | none => exact Sim.fault _ _
    | some k =>
      simp only [bind_assoc, pure_bind]
      exact (simAddData (simSha3 h) self k.obj data).bind fun _ => Sim.pure _
  · cases o.keccak with
    | none => exact Sim.fault _ _
    | some k =>
      simp only [bind_assoc, pure_bind]
      exact (simAddData (simSha3 h) self k.obj data).bind fun _ => Sim.pure _

theorem simTuple (h : Reads bodyAct (SHA3.body (R := R))) (nb : Nat → Nat) (self loc : Nat) (o : TupleHash R)
    (data : GSpan) :
    Sim (nextDataAct bodyAct nb self loc o data) (fun m => nextDataAt nb self loc o m data) := by
  unfold nextDataAct nextDataAt
  exact (Sim.lift _).bind fun e => (Sim.lift _).bind fun s => ((simCshake h self _ _).within _).bind fun c =>
    (simCshake h self _ _).bind fun c => Sim.pure _

theorem cshakeRun (h : Reads bodyAct (SHA3.body (R := R))) (self : Nat) (W : Nat → Prop) (cmds : List Cmd) :
    ∀ (o o' : CShake R) (m : Mem), (∀ a x, Cmd.store a x ∈ cmds → W a) →
      CShake.runAt self o (Cmd.calls m cmds) = .ok o' →
      ∃ n m', Runs W m (commands bodyAct self o cmds) n (.ok o') m' := by
  induction cmds with
  | nil =>
    intro o o' m _ hr
    cases hr
    exact ⟨0, m, .ret _ _⟩
  | cons c cs ih =>
    intro o o' m hW hr
    have hW2 : ∀ a x, Cmd.store a x ∈ cs → W a := fun a x h => hW a x (List.mem_cons_of_mem _ h)
    cases c with
    | store a x =>
      obtain ⟨n, m', hn⟩ := ih o o' _ hW2 hr
      exact ⟨n + 1, m', .write (hW a x (by simp)) hn⟩
    | add ptr length =>
      simp only [Cmd.calls, CShake.runAt, CShake.stepAt] at hr
      simp only [commands]
      cases hs : GSpan.make ptr length with
      | error e => rw [hs] at hr; cases hr
      | ok s =>
        rw [hs] at hr
        cases ha : addDataSpanAt self o m s with
        | error e => simp only [Memory.okb, ha] at hr; cases hr
        | ok o1 =>
          simp only [Memory.okb, ha] at hr
          obtain ⟨k, hk⟩ := simCshake h self o s m o1 ha
          obtain ⟨n, m', hn⟩ := ih o1 o' m hW2 hr
          obtain ⟨j, hj⟩ := (hk.runs W).bind (q := fun o => commands bodyAct self o cs) rfl hn
          exact ⟨j, m', hj⟩
    | reset =>
      simp only [Cmd.calls, CShake.runAt, CShake.stepAt] at hr
      simp only [commands]
      cases hf : reset o with
      | error e => rw [hf] at hr; cases hr
      | ok o1 => rw [hf] at hr; exact ih o1 o' m hW2 hr
    | finalize =>
      simp only [Cmd.calls, CShake.runAt, CShake.stepAt] at hr
      simp only [commands]
      cases hf : finalize o with
      | error e => rw [hf] at hr; cases hr
      | ok o1 => rw [hf] at hr; exact ih o1 o' m hW2 hr

theorem tupleRunA (h : Reads bodyAct (SHA3.body (R := R))) (nb : Nat → Nat) (self loc : Nat) (W : Nat → Prop)
    (cmds : List Cmd) :
    ∀ (o o' : TupleHash R) (m : Mem), (∀ a x, Cmd.store a x ∈ cmds → W a) →
      tupleRunAt nb self loc o (Cmd.calls m cmds) = .ok o' →
      ∃ n m', Runs W m (tupleCommands bodyAct nb self loc o cmds) n (.ok o') m' := by
  induction cmds with
  | nil =>
    intro o o' m _ hr
    cases hr
    exact ⟨0, m, .ret _ _⟩
  | cons c cs ih =>
    intro o o' m hW hr
    have hW2 : ∀ a x, Cmd.store a x ∈ cs → W a := fun a x h => hW a x (List.mem_cons_of_mem _ h)
    cases c with
    | store a x =>
      obtain ⟨n, m', hn⟩ := ih o o' _ hW2 hr
      exact ⟨n + 1, m', .write (hW a x (by simp)) hn⟩
    | add ptr length =>
      simp only [Cmd.calls, tupleRunAt, tupleStepAt] at hr
      simp only [tupleCommands]
      cases hs : GSpan.make ptr length with
      | error e => rw [hs] at hr; cases hr
      | ok s =>
        rw [hs] at hr
        cases ha : nextDataAt nb self loc o m s with
        | error e => simp only [Memory.okb, ha] at hr; cases hr
        | ok o1 =>
          simp only [Memory.okb, ha] at hr
          obtain ⟨k, hk⟩ := simTuple h nb self loc o s m o1 ha
          obtain ⟨n, m', hn⟩ := ih o1 o' m hW2 hr
          obtain ⟨j, hj⟩ := (hk.runs W).bind (q := fun o => tupleCommands bodyAct nb self loc o cs) rfl hn
          exact ⟨j, m', hj⟩
    | reset =>
      simp only [Cmd.calls, tupleRunAt, tupleStepAt] at hr
      simp only [tupleCommands]
      cases hf : tupleReset o with
      | error e => rw [hf] at hr; cases hr
      | ok o1 => rw [hf] at hr; exact ih o1 o' m hW2 hr
    | finalize =>
      simp only [Cmd.calls, tupleRunAt, tupleStepAt] at hr
      simp only [tupleCommands]
      cases hf : tupleFinalize nb o with
      | error e => rw [hf] at hr; cases hr
      | ok o1 => rw [hf] at hr; exact ih o1 o' m hW2 hr

theorem cshakeUndisturbed (h : Reads bodyAct (SHA3.body (R := R))) {self : Nat} {cmds : List Cmd} {m : Mem}
    {start : Except Fault (CShake R)} {o o' : CShake R} (hs : start = .ok o)
    (hr : CShake.runAt self o (Cmd.calls m cmds) = .ok o') :
    Undisturbed (CShake.thread bodyAct self start cmds) m (Cmd.Stores cmds) (CShake.toVector o') := by
  subst hs
  obtain ⟨n, m', hn⟩ := cshakeRun h self (Cmd.Stores cmds) cmds o o' m (fun a x h => ⟨x, h⟩) hr
  obtain ⟨k, hk⟩ := hn.bind (q := fun o => Act.lift (CShake.toVector o)) rfl (Runs.lift _ _ _)
  exact undisturbed hk

theorem tupleUndisturbed (h : Reads bodyAct (SHA3.body (R := R))) {nb : Nat → Nat} {self loc : Nat} {cmds : List Cmd}
    {m : Mem} {start : Except Fault (TupleHash R)} {o o' : TupleHash R} (hs : start = .ok o)
    (hr : tupleRunAt nb self loc o (Cmd.calls m cmds) = .ok o') :
    Undisturbed (tupleThread bodyAct nb self loc start cmds) m (Cmd.Stores cmds) (tupleToVector o') := by
  subst hs
  obtain ⟨n, m', hn⟩ := tupleRunA h nb self loc (Cmd.Stores cmds) cmds o o' m (fun a x h => ⟨x, h⟩) hr
  obtain ⟨k, hk⟩ := hn.bind (q := fun o => Act.lift (tupleToVector o)) rfl (Runs.lift _ _ _)
  exact undisturbed hk

end

/-! ## Many threads -/

theorem run_append (c : Machine) (l l' : List Nat) : c.run (l ++ l') = (c.run l).run l' := by
  induction l generalizing c with
  | nil => rfl
  | cons t l ih => exact ih _

theorem leaves_snoc {t : Nat} {own : Nat → Prop} (u : Nat) (l : List Nat) : ∀ (c : Machine), c.Leaves t own l →
    (u ≠ t → ∀ a x k, (c.run l).threads u = .write a x k → ¬ own a) → c.Leaves t own (l ++ [u]) := by
  induction l with
  | nil => intro c _ h; exact ⟨h, trivial⟩
  | cons v l ih => intro c h h2; exact ⟨h.1, ih _ h.2 h2⟩

theorem leaves_prefix {t : Nat} {own : Nat → Prop} (l l' : List Nat) : ∀ (c : Machine), c.Leaves t own (l ++ l') →
    c.Leaves t own l := by
  induction l with
  | nil => intro c _; trivial
  | cons v l ih => intro c h; exact ⟨h.1, ih _ h.2⟩

theorem list_snoc_induction {P : List Nat → Prop} (h0 : P []) (h1 : ∀ l u, P l → P (l ++ [u])) (l : List Nat) : P l := by
  have : ∀ l : List Nat, P l.reverse := by
    intro l
    induction l with
    | nil => exact h0
    | cons u l ih => rw [List.reverse_cons]; exact h1 _ _ ih
  simpa using this l.reverse

/-- When no thread stores to what another needs or stores to, then in no run does any disturb another. -/
theorem nobody {p : Nat → Act (List Byte)} {m : Nat → Mem} {stores : Nat → Nat → Prop}
    {d : Nat → Except Fault (List Byte)} (h : ∀ t, Undisturbed (p t) (m t) (stores t) (d t))
    (apart : ∀ t u a, t ≠ u → stores u a → m t a = none ∧ ¬ stores t a) (c : Machine) (hp : ∀ t, c.threads t = p t)
    (hm : ∀ t a x, m t a = some x → c.mem a = some x) (sched : List Nat) :
    ∀ t, c.Leaves t (fun a => m t a ≠ none ∨ stores t a) sched := by
  induction sched using list_snoc_induction with
  | h0 => intro t; trivial
  | h1 l u ih =>
    intro t
    refine leaves_snoc u l c (ih t) fun hut a x k hk => ?_
    obtain ⟨n, hn⟩ := h u
    have hs := (hn c u l (hp u) (hm u) (ih u)).1 a x k hk
    obtain ⟨h1, h2⟩ := apart t u a (Ne.symm hut) hs
    rintro (h3 | h3)
    · exact h3 h1
    · exact h2 h3

end Verif.Proof.Threads
