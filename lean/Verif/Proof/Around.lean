import Verif.Model.Around
import Verif.Proof.OpsMore

/-! The events around the block functions do not depend on the data. -/

namespace Verif.Proof.Around
open Verif Verif.Model Proof.Ops Proof.Work

/-! ## Values -/

section
variable {α β : Type}

/-- the same value or failure as code without events -/
def Val (x : Traced α) (y : Except Fault α) : Prop := ∀ l, (x l).map Prod.fst = y

theorem val_pure (a : α) : Val (pure a) (.ok a) := fun _ => rfl

theorem val_throw (e : Fault) : Val (throw e : Traced α) (.error e) := fun _ => rfl

theorem val_lift (x : Except Fault α) : Val (liftM x : Traced α) x := by
  intro l; cases x <;> rfl

theorem val_bind {x : Traced α} {y : Except Fault α} {f : α → Traced β} {g : α → Except Fault β} (h : Val x y)
    (hf : ∀ a, Val (f a) (g a)) : Val (x >>= f) (y >>= g) := by
  intro l
  rw [← h l]
  show (x l >>= fun p => f p.1 p.2).map Prod.fst = _
  cases hx : x l with
  | error e => rfl
  | ok p => exact hf p.1 p.2

theorem val_ev {e : Ev} {f : Unit → Traced β} {y : Except Fault β} (h : Val (f ()) y) : Val (ev e >>= f) y :=
  fun l => h (l ++ [e])

theorem val_ite {p : Prop} [Decidable p] {x x' : Traced α} {y y' : Except Fault α} (h : Val x y) (h' : Val x' y') :
    Val (if p then x else x') (if p then y else y') := by split <;> assumption

end

/-! ## Two runs -/

section
variable {α α' β β' : Type} {R : α → α' → Prop} {Q : β → β' → Prop}

/-- related results and the same events -/
def SameT (R : α → α' → Prop) (x : Traced α) (y : Traced α') : Prop :=
  ∀ l, Both (fun p q => R p.1 q.1 ∧ p.2 = q.2) (x l) (y l)

theorem same_pure {a : α} {a' : α'} (h : R a a') : SameT R (pure a) (pure a') := fun _ => ⟨h, rfl⟩

theorem same_throw (e : Fault) : SameT R (throw e : Traced α) (throw e : Traced α') := fun _ => rfl

theorem same_lift {x : Except Fault α} {y : Except Fault α'} (h : Both R x y) :
    SameT R (liftM x : Traced α) (liftM y : Traced α') := by
  intro l
  cases x with
  | error e => cases y with
    | error e' => exact h
    | ok b => exact h.elim
  | ok a => cases y with
    | error e' => exact h.elim
    | ok b => exact ⟨h, rfl⟩

theorem same_bind {x : Traced α} {y : Traced α'} {f : α → Traced β} {g : α' → Traced β'} (h : SameT R x y)
    (hf : ∀ a b, R a b → SameT Q (f a) (g b)) : SameT Q (x >>= f) (y >>= g) := by
  intro l
  show Both _ (x l >>= fun p => f p.1 p.2) (y l >>= fun p => g p.1 p.2)
  refine both_bind (h l) fun p q hp => ?_
  rw [hp.2]
  exact hf _ _ hp.1 _

theorem same_ev {e : Ev} {f : Unit → Traced β} {g : Unit → Traced β'} (h : SameT Q (f ()) (g ())) :
    SameT Q (ev e >>= f) (ev e >>= g) := fun l => h (l ++ [e])

end

/-! ## The buffer -/

section
variable {N : Nat}

theorem fillLoop_val (x : Byte) : ∀ (n : Nat) (b : Buffer N), Val (Around.fillLoop x n b) (.ok (Buffer.fillLoop x n b)) := by
  intro n
  induction n with
  | zero => intro b; exact val_pure b
  | succ n ih => intro b; exact val_ev (ih _)

theorem fill_val (b : Buffer N) (x : Byte) (n : Nat) : Val (Around.fill b x n) (b.fill x n) :=
  val_ite (fillLoop_val x n b) (val_throw _)

theorem pushBack_val (xs : List Byte) : ∀ (b : Buffer N) (i : Nat), Val (Around.pushBack b i xs) (b.pushBack xs) := by
  induction xs with
  | nil => intro b i; exact val_pure b
  | cons x xs ih => intro b i; exact val_ev (val_bind (fill_val b x 1) fun b => ih b (i + 1))

theorem ofRange_val (i : Nat) (xs : List Byte) : Val (Around.ofRange i xs : Traced (Buffer N)) (Buffer.ofRange xs) :=
  val_ev (pushBack_val xs _ i)

theorem setAt_val (b : Buffer N) (pos : Nat) (x : Byte) : Val (Around.setAt b pos x) (b.setAt pos x) := val_ev (val_lift _)

theorem getAt_val (b : Buffer N) (pos : Nat) : Val (Around.getAt b pos) (b.getAt pos) := val_ev (val_lift _)

theorem writeLoop_val (ws : List (Nat × Byte)) : ∀ b : Buffer N, Val (Around.writeLoop b ws) (Verif.writeLoop b ws) := by
  induction ws with
  | nil => intro b; exact val_pure b
  | cons w ws ih => intro b; exact val_bind (setAt_val b w.1 w.2) ih

theorem val_clear {α : Type} {b : Buffer N} {f : Buffer N → Traced α} {y : Except Fault α} (h : Val (f b.clear) y) :
    Val (Around.clear b >>= f) y := fun l => h (l ++ [Ev.clear])

theorem same_clear {α α' : Type} {Q : α → α' → Prop} {b b' : Buffer N} {f : Buffer N → Traced α} {g : Buffer N → Traced α'}
    (h : SameT Q (f b.clear) (g b'.clear)) : SameT Q (Around.clear b >>= f) (Around.clear b' >>= g) :=
  fun l => h (l ++ [Ev.clear])

/-- equally many bytes in the buffers: the same events -/
theorem fillLoop_same (x x' : Byte) : ∀ (n : Nat) {b b' : Buffer N}, SameSize b b' →
    SameT SameSize (Around.fillLoop x n b) (Around.fillLoop x' n b') := by
  intro n
  induction n with
  | zero => intro b b' h; exact same_pure h
  | succ n ih =>
    intro b b' h
    have h' : b.endIdx = b'.endIdx := h
    unfold Around.fillLoop
    rw [h']
    exact same_ev (ih rfl)

theorem fill_same' {b b' : Buffer N} (h : SameSize b b') (x x' : Byte) (n : Nat) :
    SameT SameSize (Around.fill b x n) (Around.fill b' x' n) := by
  have h' : b.endIdx = b'.endIdx := h
  unfold Around.fill
  rw [h']
  split
  · exact fillLoop_same x x' n h
  · exact same_throw _

theorem pushBack_same' (l l' : List Byte) (hl : l.length = l'.length) : ∀ {b b' : Buffer N} (i : Nat), SameSize b b' →
    SameT SameSize (Around.pushBack b i l) (Around.pushBack b' i l') := by
  induction l generalizing l' with
  | nil =>
    intro b b' i h
    cases l' with
    | nil => exact same_pure h
    | cons => cases hl
  | cons x l ih =>
    intro b b' i h
    cases l' with
    | nil => cases hl
    | cons x' l' =>
      exact same_ev (same_bind (fill_same' h x x' 1) fun _ _ h => ih l' (by simpa using hl) (i + 1) h)

theorem ofRange_same' (i : Nat) {l l' : List Byte} (hl : l.length = l'.length) :
    SameT SameSize (Around.ofRange i l : Traced (Buffer N)) (Around.ofRange i l') := same_ev (pushBack_same' l l' hl i rfl)

theorem setAt_same' {b b' : Buffer N} (h : SameSize b b') (pos : Nat) (x x' : Byte) :
    SameT SameSize (Around.setAt b pos x) (Around.setAt b' pos x') := same_ev (same_lift (setAt_same h pos x x'))

theorem getAt_same' (b b' : Buffer N) (pos : Nat) : SameT (fun _ _ => True) (Around.getAt b pos) (Around.getAt b' pos) :=
  same_ev (same_lift (getAt_same b b' pos))

theorem writeLoop_same' (ws : List (Nat × Byte)) : ∀ {b b' : Buffer N}, SameSize b b' →
    SameT SameSize (Around.writeLoop b ws) (Around.writeLoop b' ws) := by
  induction ws with
  | nil => intro b b' h; exact same_pure h
  | cons w ws ih => intro b b' h; exact same_bind (setAt_same' h _ _ _) fun _ _ h => ih h

end

/-! ## `addData` -/

section
variable {N B : Nat} {S S' : Type} {RS : S → S' → Prop} {impl : S → List Byte → Except Fault S}
  {impl' : S' → List Byte → Except Fault S'}

theorem tail_val (o : Obj N S) (i : Nat) (d : List Byte) : Val (Around.addDataTail B impl o i d) (Verif.addDataTail B impl o d) := by
  unfold Around.addDataTail Verif.addDataTail
  refine val_ev (val_ite (val_bind (ofRange_val i d) fun b => val_pure _) ?_)
  refine val_bind (val_lift _) fun x => val_ev (val_bind (val_lift _) fun c => val_ev (val_ite ?_ (val_pure _)))
  exact val_bind (ofRange_val _ _) fun b => val_pure _

theorem add_val (o : Obj N S) (d : List Byte) : Val (Around.addData B impl o d) (Verif.addData B impl o d) := by
  unfold Around.addData Verif.addData
  refine val_ev (val_ite ?_ (tail_val o 0 d))
  refine val_bind (pushBack_val _ _ _) fun b => val_ev (val_ite (val_pure _) (val_ev ?_))
  refine val_bind (val_lift _) fun c => val_clear ?_
  exact val_bind (val_lift _) fun x => tail_val _ _ _

theorem tail2_val (o : Obj B S) (i : Nat) (d : List Byte) :
    Val (Around.addDataTail2 B impl o i d) (BLAKE2.addDataTail B impl o d) := by
  unfold Around.addDataTail2 BLAKE2.addDataTail
  refine val_ev (val_bind (val_lift _) fun x => val_ev (val_bind (val_lift _) fun c => ?_))
  exact val_bind (ofRange_val _ _) fun b => val_pure _

theorem add2_val (n : Nat) : ∀ (o : Obj B S) (i : Nat) (d : List Byte), d.length = n →
    Val (Around.addData2 B impl o i d) (BLAKE2.addData B impl o d) := by
  induction n using Nat.strongRecOn with
  | ind n ih =>
    intro o i d hn
    rw [Around.addData2, BLAKE2.addData]
    refine val_ev (val_ite (val_pure _) (val_ev (val_ite ?_ (val_ev (val_ite ?_ (tail2_val o i d))))))
    · exact val_ev (val_bind (val_lift _) fun s => val_clear (tail2_val _ _ _))
    · dsimp only
      by_cases h : min (B - o.buffer.size) d.length = 0
      · rw [dif_pos h, if_pos h]; exact val_throw _
      · rw [dif_neg h, if_neg h]
        have := val_bind (pushBack_val (d.take (min (B - o.buffer.size) d.length)) o.buffer i)
          (f := fun b => Around.addData2 B impl ⟨b, o.chain⟩ (i + min (B - o.buffer.size) d.length)
            (d.drop (min (B - o.buffer.size) d.length)))
          fun b => ih _ (by rw [List.length_drop]; omega) _ _ _ rfl
        intro l
        refine (this l).trans ?_
        cases o.buffer.pushBack (d.take (min (B - o.buffer.size) d.length)) <;> rfl

theorem tail_same (h : SameImpl RS impl impl') {o : Obj N S} {o' : Obj N S'} (ho : SameObj RS o o') (i : Nat)
    {d d' : List Byte} (hd : d.length = d'.length) :
    SameT (SameObj RS) (Around.addDataTail B impl o i d) (Around.addDataTail B impl' o' i d') := by
  unfold Around.addDataTail
  dsimp only
  rw [hd]
  refine same_ev ?_
  split
  · exact same_bind (ofRange_same' i hd) fun b b' hb => same_pure ⟨hb, ho.chain⟩
  · refine same_bind (same_lift (spanFirst_same hd _)) fun x x' hx => ?_
    rw [hx]
    refine same_ev (same_bind (same_lift (h _ _ _ _ hx ho.chain)) fun c c' hc => same_ev ?_)
    split
    · exact same_bind (ofRange_same' _ (by simp [hd])) fun b b' hb => same_pure ⟨hb, hc⟩
    · exact same_pure ⟨ho.buffer, hc⟩

theorem add_same (h : SameImpl RS impl impl') {o : Obj N S} {o' : Obj N S'} (ho : SameObj RS o o')
    {d d' : List Byte} (hd : d.length = d'.length) :
    SameT (SameObj RS) (Around.addData B impl o d) (Around.addData B impl' o' d') := by
  unfold Around.addData
  have e1 : o.buffer.size = o'.buffer.size := ho.buffer
  have e2 : o.buffer.empty = o'.buffer.empty := by
    have : o.buffer.endIdx = o'.buffer.endIdx := e1
    unfold Buffer.empty
    rw [this]
  dsimp only
  rw [e1, e2, hd]
  refine same_ev ?_
  split
  · refine same_bind (pushBack_same' _ _ (by simp [hd]) 0 ho.buffer) fun b b' hb => ?_
    have e3 : b.size = b'.size := hb
    rw [e3]
    refine same_ev ?_
    split
    · exact same_pure ⟨hb, ho.chain⟩
    · refine same_ev (same_bind (same_lift (h _ _ _ _ (contents_same hb) ho.chain)) fun c c' hc => same_clear ?_)
      refine same_bind (same_lift (spanSub_same hd _)) fun x x' hx => ?_
      exact tail_same h (o := ⟨b.clear, c⟩) (o' := ⟨b'.clear, c'⟩) ⟨rfl, hc⟩ _ hx
  · exact tail_same h ho 0 hd

theorem tail2_same (h : SameImpl RS impl impl') {o : Obj B S} {o' : Obj B S'} (ho : SameObj RS o o') (i : Nat)
    {d d' : List Byte} (hd : d.length = d'.length) :
    SameT (SameObj RS) (Around.addDataTail2 B impl o i d) (Around.addDataTail2 B impl' o' i d') := by
  unfold Around.addDataTail2
  dsimp only
  rw [hd]
  refine same_ev (same_bind (same_lift (spanFirst_same hd _)) fun x x' hx => ?_)
  rw [hx]
  refine same_ev (same_bind (same_lift (h _ _ _ _ hx ho.chain)) fun c c' hc => ?_)
  exact same_bind (ofRange_same' _ (by simp [hd])) fun b b' hb => same_pure ⟨hb, hc⟩

theorem add2_same (h : SameImpl RS impl impl') (n : Nat) : ∀ {o : Obj B S} {o' : Obj B S'}, SameObj RS o o' → ∀ (i : Nat)
    {d d' : List Byte}, d.length = d'.length → d.length = n →
      SameT (SameObj RS) (Around.addData2 B impl o i d) (Around.addData2 B impl' o' i d') := by
  induction n using Nat.strongRecOn with
  | ind n ih =>
    intro o o' ho i d d' hd hn
    rw [Around.addData2, Around.addData2]
    have e1 : o.buffer.size = o'.buffer.size := ho.buffer
    have e2 : o.buffer.empty = o'.buffer.empty := by
      have : o.buffer.endIdx = o'.buffer.endIdx := e1
      unfold Buffer.empty
      rw [this]
    have e0 : d.isEmpty = d'.isEmpty := by
      cases d with
      | nil => cases d' with
        | nil => rfl
        | cons => cases hd
      | cons => cases d' with
        | nil => cases hd
        | cons => rfl
    rw [e0, e2]
    refine same_ev ?_
    split
    · exact same_pure ho
    · simp only [e1, hd]
      refine same_ev ?_
      split
      · refine same_ev (same_bind (same_lift (h _ _ _ _ (contents_same ho.buffer) ho.chain)) fun c c' hc => same_clear ?_)
        exact tail2_same h (o := ⟨o.buffer.clear, c⟩) (o' := ⟨o'.buffer.clear, c'⟩) ⟨rfl, hc⟩ i hd
      · refine same_ev ?_
        split
        · split
          · exact same_throw _
          · rename_i h3
            refine same_bind (pushBack_same' _ _ (by simp [hd]) i ho.buffer) fun b b' hb => ?_
            exact ih _ (by rw [List.length_drop]; omega) (o := ⟨b, o.chain⟩) (o' := ⟨b', o'.chain⟩) ⟨hb, ho.chain⟩ _
              (by simp [hd]) rfl
        · exact tail2_same h ho i hd

end

/-! ## Classes -/

theorem natural {O : Type} {A : API O} {add : O → List Byte → Traced O} {fin : O → Traced O}
    (ha : ∀ o d, Val (add o d) (A.addData o d)) (hf : ∀ o, Val (fin o) (A.finalize o)) :
    A.SameBut (A.traced add fin) Prod.fst :=
  Natural.same ⟨rfl, fun _ => rfl, fun o d => (ha o.1 d o.2).symm, fun o => (hf o.1 o.2).symm⟩

theorem blind {O : Type} {A A' : API O} {add add' : O → List Byte → Traced O} {fin fin' : O → Traced O} {R : O → O → Prop}
    (ha : ∀ o d, Val (add o d) (A.addData o d)) (hf : ∀ o, Val (fin o) (A.finalize o))
    (ha' : ∀ o d, Val (add' o d) (A'.addData o d)) (hf' : ∀ o, Val (fin' o) (A'.finalize o))
    (h0 : R A.fresh A'.fresh) (hr : ∀ o o', R o o' → R (A.reset o) (A'.reset o'))
    (hs : ∀ o o' d d', d.length = d'.length → R o o' → SameT R (add o d) (add' o' d'))
    (ht : ∀ o o', R o o' → SameT R (fin o) (fin' o')) : A.Blind A' (A.traced add fin) (A'.traced add' fin') := by
  refine ⟨natural ha hf, natural ha' hf', ?_⟩
  intro ops ops' hops
  refine both_imp (R := fun p p' => R p.1 p'.1 ∧ p.2 = p'.2) (fun _ _ h => h.2) ?_
  refine Parallel.run (A := A.traced add fin) (A' := A'.traced add' fin') ⟨⟨h0, rfl⟩,
    fun o o' h => ⟨hr _ _ h.1, congrArg (· ++ [Ev.clear]) h.2⟩, fun o o' d d' hd h => ?_, fun o o' h => ?_⟩ hops
  · have := hs _ _ _ _ hd h.1 o.2
    rw [h.2] at this
    show Both _ (add o.1 d o.2) (add' o'.1 d' o'.2)
    rw [h.2]
    exact this
  · have := ht _ _ h.1 o.2
    rw [h.2] at this
    show Both _ (fin o.1 o.2) (fin' o'.1 o'.2)
    rw [h.2]
    exact this

theorem md {C H : Type} {B L : Nat} (padByte : Byte) (cnt : Counter C) (comp : H → Block B → H) (iv : H)
    (out : H → Except Fault (List Byte)) :
    (mdApi B L padByte cnt comp iv out).Blind (mdApi B L padByte cnt comp iv out)
      (Around.mdApi B L padByte cnt comp iv out) (Around.mdApi B L padByte cnt comp iv out) := by
  have hi : SameImpl (fun s s' : MDState C H => s.sizeCounter = s'.sizeCounter) (mdImpl B cnt comp) (mdImpl B cnt comp) := by
    intro s s' d d' hd hs
    unfold mdImpl
    dsimp only
    rw [hd, hs]
    split
    · rfl
    · refine both_bind (forBlocks_same (RS := fun _ _ => True) (fun _ _ _ _ _ => trivial) hd trivial) fun _ _ _ => ?_
      exact rfl
  have hf : ∀ o : Obj (2 * B) (MDState C H), Val
      (Around.mdFinalize B L padByte cnt.add cnt.post cnt.writes (mdImpl B cnt comp) o)
      (mdFinalize B L padByte cnt.add cnt.post cnt.writes (mdImpl B cnt comp) o) := by
    intro o
    unfold Around.mdFinalize mdFinalize
    refine val_bind (fill_val _ _ _) fun b => val_bind (fill_val _ _ _) fun b => val_bind (writeLoop_val _ _) fun b => ?_
    exact val_ev (val_bind (val_lift _) fun c => val_clear (val_pure _))
  refine blind (R := SameObj fun s s' => s.sizeCounter = s'.sizeCounter) (fun o d => add_val o d) hf (fun o d => add_val o d) hf
    ⟨rfl, rfl⟩ (fun o o' h => ⟨rfl, rfl⟩) (fun o o' d d' hd h => add_same hi h hd) fun o o' h => ?_
  unfold Around.mdFinalize
  dsimp only
  have e1 : o.buffer.size = o'.buffer.size := h.buffer
  have e0 : o.chain.sizeCounter = o'.chain.sizeCounter := h.chain
  rw [e1, e0]
  refine same_bind (fill_same' h.buffer _ _ _) fun b b' hb => ?_
  have e2 : b.size = b'.size := hb
  rw [e2]
  refine same_bind (fill_same' hb _ _ _) fun b b' hb => ?_
  have e3 : b.size = b'.size := hb
  rw [e3]
  refine same_bind (writeLoop_same' _ hb) fun b b' hb => ?_
  have e4 : b.size = b'.size := hb
  rw [e4]
  refine same_ev (same_bind (same_lift (hi _ _ _ _ (contents_same hb) rfl)) fun c c' hc => same_clear (same_pure ⟨rfl, hc⟩))

theorem md2 : MD2.MD2.Blind MD2.MD2 Around.MD2 Around.MD2 := by
  have hi : SameImpl (fun _ _ : MD2.St => True) MD2.impl MD2.impl := by
    intro s s' d d' hd _
    exact forBlocks_same (fun _ _ _ _ _ => trivial) hd trivial
  have hf : ∀ o, Val (Around.finalizeMD2 o) (MD2.finalize o) := by
    intro o
    unfold Around.finalizeMD2 MD2.finalize
    refine val_bind (fill_val _ _ _) fun b => val_ev (val_bind (val_lift _) fun c => val_ev (val_bind (val_lift _) fun c => ?_))
    exact val_clear (val_pure _)
  refine blind (R := SameObj fun _ _ => True) (fun o d => add_val o d) hf (fun o d => add_val o d) hf
    ⟨rfl, trivial⟩ (fun o o' h => ⟨rfl, trivial⟩) (fun o o' d d' hd h => add_same hi h hd) fun o o' h => ?_
  unfold Around.finalizeMD2
  dsimp only
  have e1 : o.buffer.size = o'.buffer.size := h.buffer
  rw [e1]
  refine same_bind (fill_same' h.buffer _ _ _) fun b b' hb => ?_
  have e2 : b.size = b'.size := hb
  rw [e2]
  refine same_ev (same_bind (same_lift (hi _ _ _ _ (contents_same hb) trivial)) fun c c' _ => same_ev ?_)
  refine same_bind (same_lift (hi _ _ _ _ (by simp) trivial)) fun c c' _ => same_clear (same_pure ⟨rfl, trivial⟩)

section
open Model.BLAKE
variable {w B : Nat} {C : Type}

theorem markLast_val {N : Nat} (L : Nat) (marker : Bool) (b : Buffer N) :
    Val (Around.markLast L marker b) (markLast L marker b) :=
  val_ite (val_bind (getAt_val _ _) fun _ => setAt_val _ _ _) (val_pure _)

theorem markLast_same' {N : Nat} (L : Nat) (marker : Bool) {b b' : Buffer N} (h : SameSize b b') :
    SameT SameSize (Around.markLast L marker b) (Around.markLast L marker b') := by
  have e : b.size = b'.size := h
  unfold Around.markLast
  rw [e]
  split
  · exact same_bind (getAt_same' _ _ _) fun _ _ _ => setAt_same' h _ _ _
  · exact same_pure h

/-- equal counters -/
def RelB (s s' : MDState C (Vector (BitVec w) 8)) : Prop := s.sizeCounter = s'.sizeCounter

theorem blake_impl (c : Cfg w B C) (p : Nat) : SameImpl RelB (impl c p) (impl c p) := by
  intro s s' d d' hd hs
  unfold impl
  dsimp only
  rw [hd]
  split
  · rfl
  · refine forBlocks_same (fun s s' m m' h => ?_) hd hs
    show c.addBits s.sizeCounter _ = c.addBits s'.sizeCounter _
    rw [show s.sizeCounter = s'.sizeCounter from h]

theorem blake_fin_val (c : Cfg w B C) (L : Nat) (marker : Bool) (total : C → Nat → C) (writes : Nat → C → List (Nat × Byte))
    (o : Obj (2 * B) (MDState C (Vector (BitVec w) 8))) :
    Val (Around.finalizeBLAKE c L marker total writes o) (finalize c L marker total writes o) := by
  unfold Around.finalizeBLAKE finalize
  refine val_bind (fill_val _ _ _) fun b => val_bind (fill_val _ _ _) fun b => val_bind (markLast_val _ _ _) fun b => ?_
  refine val_bind (writeLoop_val _ _) fun b => val_ev (val_bind (val_lift _) fun c => val_clear (val_pure _))

theorem blake_fin_same (c : Cfg w B C) (L : Nat) (marker : Bool) (total : C → Nat → C) (writes : Nat → C → List (Nat × Byte))
    (o o' : Obj (2 * B) (MDState C (Vector (BitVec w) 8))) (h : SameObj RelB o o') :
    SameT (SameObj RelB) (Around.finalizeBLAKE c L marker total writes o) (Around.finalizeBLAKE c L marker total writes o') := by
  unfold Around.finalizeBLAKE
  dsimp only
  have e1 : o.buffer.size = o'.buffer.size := h.buffer
  have e0 : o.chain.sizeCounter = o'.chain.sizeCounter := h.chain
  rw [e1, e0]
  refine same_bind (fill_same' h.buffer _ _ _) fun b b' hb => ?_
  have e2 : b.size = b'.size := hb
  rw [e2]
  refine same_bind (fill_same' hb _ _ _) fun b b' hb => ?_
  refine same_bind (markLast_same' L marker hb) fun b b' hb => ?_
  have e3 : b.size = b'.size := hb
  rw [e3]
  refine same_bind (writeLoop_same' _ hb) fun b b' hb => ?_
  have e4 : b.size = b'.size := hb
  rw [e4]
  refine same_ev (same_bind (same_lift (blake_impl c _ _ _ _ _ (contents_same hb) h.chain)) fun c c' hc => ?_)
  exact same_clear (same_pure ⟨rfl, hc⟩)

theorem blake32 (c : Cfg 32 64 W64) (marker : Bool) (iv : Vector W32 8) (words size : Nat) :
    (api32 c marker iv words size).Blind (api32 c marker iv words size)
      (Around.blake32 c marker iv words size) (Around.blake32 c marker iv words size) :=
  blind (R := SameObj RelB) (fun o d => add_val o d) (blake_fin_val _ _ _ _ _) (fun o d => add_val o d) (blake_fin_val _ _ _ _ _)
    ⟨rfl, rfl⟩ (fun _ _ _ => ⟨rfl, rfl⟩) (fun _ _ _ _ hd h => add_same (blake_impl c 0) h hd) (blake_fin_same _ _ _ _ _)

theorem blake64 (c : Cfg 64 128 Uint128) (marker : Bool) (iv : Vector W64 8) (words size : Nat) :
    (api64 c marker iv words size).Blind (api64 c marker iv words size)
      (Around.blake64 c marker iv words size) (Around.blake64 c marker iv words size) :=
  blind (R := SameObj RelB) (fun o d => add_val o d) (blake_fin_val _ _ _ _ _) (fun o d => add_val o d) (blake_fin_val _ _ _ _ _)
    ⟨rfl, rfl⟩ (fun _ _ _ => ⟨rfl, rfl⟩) (fun _ _ _ _ hd h => add_same (blake_impl c 0) h hd) (blake_fin_same _ _ _ _ _)

end

section
open Model.BLAKE2
variable {w B : Nat} {C : Type}

theorem blake2_impl (c : Cfg w B C) (f : Bool) (p : Nat) : SameImpl (fun _ _ => True) (impl c f p) (impl c f p) := by
  intro s s' d d' hd hs
  unfold impl
  dsimp only
  rw [hd]
  split
  · rfl
  · exact forBlocks_same (fun _ _ _ _ _ => trivial) hd hs

theorem blake2 (c : Cfg w B C) (bytesPerWord size : Nat) :
    (api c bytesPerWord size).Blind (api c bytesPerWord size) (Around.blake2 c bytesPerWord size)
      (Around.blake2 c bytesPerWord size) := by
  have hf : ∀ o, Val (Around.finalizeBLAKE2 c o) (finalize c o) := by
    intro o
    unfold Around.finalizeBLAKE2 finalize
    exact val_bind (fill_val _ _ _) fun b => val_ev (val_bind (val_lift _) fun s => val_clear (val_pure _))
  refine blind (R := SameObj fun _ _ => True) (fun o d => add2_val _ o 0 d rfl) hf (fun o d => add2_val _ o 0 d rfl) hf
    ⟨rfl, trivial⟩ (fun _ _ _ => ⟨rfl, trivial⟩)
    (fun _ _ _ _ hd h => add2_same (blake2_impl c false 0) _ h 0 hd rfl) fun o o' h => ?_
  unfold Around.finalizeBLAKE2
  dsimp only
  have e1 : o.buffer.size = o'.buffer.size := h.buffer
  rw [e1]
  refine same_bind (fill_same' h.buffer _ _ _) fun b b' hb => ?_
  have e2 : b.size = b'.size := hb
  rw [e2]
  refine same_ev (same_bind (same_lift (blake2_impl c _ _ _ _ _ _ (contents_same hb) trivial)) fun c c' hc => ?_)
  exact same_clear (same_pure ⟨rfl, trivial⟩)

end

section
open Model.SHA3
variable {R : Nat} [hR : RateOK R]

/-- equally many bytes of output -/
def RelK (s s' : KState) : Prop := s.final.length = s'.final.length

theorem absorb_both (s s' : SHA3.State) (d d' : List Byte) (hd : d.length = d'.length) :
    Both (fun _ _ => True) (absorb R s d) (absorb R s' d') := by
  unfold absorb
  dsimp only
  rw [hd]
  split
  · rfl
  · exact forBlocks_same (fun _ _ _ _ _ => trivial) hd trivial

theorem keccak_impl : SameImpl RelK (impl R) (impl R) := by
  intro s s' d d' hd hs
  exact both_bind (absorb_both _ _ _ _ hd) fun _ _ _ => hs

theorem squeeze_val (dl n : Nat) : ∀ s : KState, dl - s.final.length = n → Val (Around.squeeze R dl s) (squeeze R dl s) := by
  induction n using Nat.strongRecOn with
  | ind n ih =>
    intro s hn
    rw [squeeze, Around.squeeze]
    have e := stateToVector_length s.state
    have hp := hR.pos
    by_cases h : R ≤ (stateToVector s.state).length
    · rw [dif_pos h, dif_pos h]
      refine val_ev ?_
      dsimp only
      by_cases hf : (s.final ++ (stateToVector s.state).take R).length ≥ dl
      · rw [dif_pos hf, dif_pos hf]; exact val_pure _
      · rw [dif_neg hf, dif_neg hf]
        refine val_ev ?_
        have := val_bind (val_lift (absorb R s.state (List.replicate R 0)))
          (f := fun st => Around.squeeze R dl ⟨st, s.final ++ (stateToVector s.state).take R⟩)
          fun st => ih _ (by simp only [List.length_append, List.length_take] at *; omega) _ rfl
        intro l
        refine (this l).trans ?_
        cases absorb R s.state (List.replicate R 0) <;> rfl
    · rw [dif_neg h, dif_neg h]; exact val_throw _

theorem squeeze_same' (dl n : Nat) : ∀ s s' : KState, RelK s s' → dl - s.final.length = n →
    SameT RelK (Around.squeeze R dl s) (Around.squeeze R dl s') := by
  induction n using Nat.strongRecOn with
  | ind n ih =>
    intro s s' hs hn
    have hs' : s.final.length = s'.final.length := hs
    rw [Around.squeeze, Around.squeeze]
    have e1 := stateToVector_length s.state
    have e2 := stateToVector_length s'.state
    have hp := hR.pos
    by_cases h : R ≤ 200
    · have h1 : R ≤ (stateToVector s.state).length := by omega
      have h2 : R ≤ (stateToVector s'.state).length := by omega
      rw [dif_pos h1, dif_pos h2]
      have e3 : (s.final ++ (stateToVector s.state).take R).length = (s'.final ++ (stateToVector s'.state).take R).length := by
        simp [e1, e2, hs']
      simp only [e3]
      refine same_ev ?_
      by_cases hf : (s'.final ++ (stateToVector s'.state).take R).length ≥ dl
      · rw [dif_pos hf, dif_pos hf]; exact same_pure e3
      · rw [dif_neg hf, dif_neg hf]
        refine same_ev (same_bind (same_lift (absorb_both _ _ _ _ rfl)) fun st st' _ => ih _ ?_ _ _ e3 rfl)
        simp only [List.length_append, List.length_take] at *
        omega
    · have h1 : ¬R ≤ (stateToVector s.state).length := by omega
      have h2 : ¬R ≤ (stateToVector s'.state).length := by omega
      rw [dif_neg h1, dif_neg h2]; exact same_throw _

/-- also for different padding bytes -/
theorem keccak (P P' : Byte) (dl : Nat) :
    (Keccak R P dl).Blind (Keccak R P' dl) (Around.keccak R P dl) (Around.keccak R P' dl) := by
  have hf : ∀ (P : Byte) (o : Obj R KState), Val (Around.finalizeKeccak R P dl o) (finalize R P dl o) := by
    intro P o
    unfold Around.finalizeKeccak finalize
    refine val_bind (fill_val _ _ _) fun b => val_bind (fill_val _ _ _) fun b => val_bind (getAt_val _ _) fun x => ?_
    refine val_bind (setAt_val _ _ _) fun b => val_ev (val_bind (val_lift _) fun c => val_clear ?_)
    exact val_bind (squeeze_val dl _ _ rfl) fun c => val_pure _
  refine blind (R := SameObj RelK) (fun o d => add_val o d) (hf P) (fun o d => add_val o d) (hf P')
    ⟨rfl, rfl⟩ (fun _ _ _ => ⟨rfl, rfl⟩) (fun _ _ _ _ hd h => add_same keccak_impl h hd) fun o o' h => ?_
  unfold Around.finalizeKeccak
  dsimp only
  refine same_bind (fill_same' h.buffer _ _ _) fun b b' hb => ?_
  have e2 : b.size = b'.size := hb
  rw [e2]
  refine same_bind (fill_same' hb _ _ _) fun b b' hb => ?_
  have e3 : b.size = b'.size := hb
  rw [e3]
  refine same_bind (getAt_same' _ _ _) fun x x' _ => ?_
  refine same_bind (setAt_same' hb _ _ _) fun b b' hb => ?_
  have e4 : b.size = b'.size := hb
  rw [e4]
  refine same_ev (same_bind (same_lift (keccak_impl _ _ _ _ (contents_same hb) h.chain)) fun c c' hc => same_clear ?_)
  refine same_bind (squeeze_same' dl _ _ _ hc rfl) fun c c' hc => same_pure ⟨rfl, ?_⟩
  have hc' : c.final.length = c'.final.length := hc
  show (c.final.take dl ++ _).length = (c'.final.take dl ++ _).length
  simp [hc']

end

section
open Model.SipHash

theorem sip_impl (C : Nat) : SameImpl (fun _ _ : State => True) (impl C) (impl C) := by
  intro s s' d d' hd hs
  unfold impl
  dsimp only
  rw [hd]
  split
  · rfl
  · exact both_bind (forBlocks_same (RS := fun _ _ => True) (fun _ _ _ _ _ => trivial) hd trivial) fun _ _ _ => trivial

/-- also for different keys -/
theorem sip (C D : Nat) (key key' : Block 16) :
    (SipHashCD C D key).Blind (SipHashCD C D key') (Around.sipHash C D key) (Around.sipHash C D key') := by
  have hf : ∀ o : O, Val (Around.finalizeSip C D o) (finalize C D o) := by
    intro o
    unfold Around.finalizeSip finalize
    refine val_bind (fill_val _ _ _) fun b => val_bind (fill_val _ _ _) fun b => ?_
    exact val_ev (val_bind (val_lift _) fun c => val_clear (val_pure _))
  refine blind (R := SameObj fun _ _ => True) (fun o d => add_val o d) hf (fun o d => add_val o d) hf
    ⟨rfl, trivial⟩ (fun _ _ _ => ⟨rfl, trivial⟩) (fun _ _ _ _ hd h => add_same (sip_impl C) h hd) fun o o' h => ?_
  unfold Around.finalizeSip
  dsimp only
  have e1 : o.buffer.size = o'.buffer.size := h.buffer
  rw [e1]
  refine same_bind (fill_same' h.buffer _ _ _) fun b b' hb => ?_
  refine same_bind (fill_same' hb _ _ _) fun b b' hb => ?_
  have e4 : b.size = b'.size := hb
  rw [e4]
  refine same_ev (same_bind (same_lift (sip_impl C _ _ _ _ (contents_same hb) trivial)) fun c c' hc => ?_)
  exact same_clear (same_pure ⟨rfl, trivial⟩)

end

/-! ## Digests -/

theorem int_val (k : Nat) (d : List Byte) : ∀ (n i : Nat) (r : BitVec (8 * k)),
    Val (Around.intLoop k d n i r) (Verif.intLoop k d n i r) := by
  intro n
  induction n with
  | zero => intro i r; exact val_pure _
  | succ n ih =>
    intro i r
    unfold Around.intLoop Verif.intLoop
    refine val_ev ?_
    cases d[i]? with
    | none => exact val_throw _
    | some b => exact ih _ _

theorem int_same (k : Nat) {d d' : List Byte} (h : d.length = d'.length) : ∀ (n i : Nat) (r r' : BitVec (8 * k)),
    SameT (fun _ _ => True) (Around.intLoop k d n i r) (Around.intLoop k d' n i r') := by
  intro n
  induction n with
  | zero => intro i r r'; exact same_pure trivial
  | succ n ih =>
    intro i r r'
    unfold Around.intLoop
    refine same_ev ?_
    by_cases hi : i < d.length
    · rw [List.getElem?_eq_getElem hi, List.getElem?_eq_getElem (h ▸ hi)]
      exact ih _ _ _
    · rw [List.getElem?_eq_none (by omega), List.getElem?_eq_none (by omega)]
      exact same_throw _

theorem hexChar_val (x : Byte) : Val (Around.hexChar x) (.ok (Verif.hexChar x)) := val_ev (val_pure _)

theorem hexLoop_val (d : List Byte) : ∀ (r : List Char) (p : Nat), Val (Around.hexLoop d r p) (Verif.hexLoop d r p) := by
  induction d with
  | nil => intro r p; exact val_pure _
  | cons c d ih =>
    intro r p
    unfold Around.hexLoop Verif.hexLoop
    have hw : ∀ (r : List Char) (p : Nat) (c : Char), Val (Around.writeChar r p c) (Verif.writeChar r p c) :=
      fun r p c => val_ev (val_lift _)
    exact val_bind (hexChar_val _) fun _ => val_bind (hw _ _ _) fun r => val_bind (hexChar_val _) fun _ =>
      val_bind (hw _ _ _) fun r => ih _ _

theorem hex_val (d : List Byte) : Val (Around.renderHex d) (Verif.renderHex d) := by
  unfold Around.renderHex Verif.renderHex
  exact val_ite (val_throw _) (hexLoop_val _ _ _)

/-- the events of `toString` -/
def hexEvents : List Byte → Nat → List Ev
  | [], _ => []
  | c :: cs, p => [.test (decide ((ror 8 c 4 : Byte) < 10)), .store p, .test (decide (c &&& 0xf < 10)), .store (p + 1)] ++
      hexEvents cs (p + 2)

theorem hexLoop_log (d : List Byte) : ∀ (r : List Char) (p : Nat) (l : List Ev), 2 * d.length + p ≤ r.length →
    ∃ s, Around.hexLoop d r p l = .ok (s, l ++ hexEvents d p) := by
  induction d with
  | nil => intro r p l h; exact ⟨r, by rw [hexEvents, List.append_nil]; rfl⟩
  | cons c d ih =>
    intro r p l h
    rw [List.length_cons] at h
    have w : ∀ (r : List Char) (p : Nat) (c : Char) (l : List Ev), p < r.length →
        Around.writeChar r p c l = .ok (r.set p c, l ++ [.store p]) := by
      intro r p c l h
      show (liftM (Verif.writeChar r p c) : Traced _) (l ++ [.store p]) = _
      rw [Verif.writeChar, if_pos h]; rfl
    unfold Around.hexLoop
    obtain ⟨s, hs⟩ := ih ((r.set p (Verif.hexChar (ror 8 c 4))).set (p + 1) (Verif.hexChar (c &&& 0xf))) (p + 2)
      (l ++ [.test (decide ((ror 8 c 4 : Byte) < 10))] ++ [.store p] ++ [.test (decide (c &&& 0xf < 10))] ++ [.store (p + 1)])
      (by simp only [List.length_set]; omega)
    refine ⟨s, ?_⟩
    show (Around.writeChar r p (Verif.hexChar (ror 8 c 4)) (l ++ [.test (decide ((ror 8 c 4 : Byte) < 10))]) >>= _) = _
    rw [w _ _ _ _ (by omega)]
    show (Around.writeChar (r.set p (Verif.hexChar (ror 8 c 4))) (p + 1) (Verif.hexChar (c &&& 0xf))
      (l ++ [.test (decide ((ror 8 c 4 : Byte) < 10))] ++ [.store p] ++ [.test (decide (c &&& 0xf < 10))]) >>= _) = _
    rw [w _ _ _ _ (by simp only [List.length_set]; omega)]
    show Around.hexLoop d _ (p + 2) _ = _
    rw [hs, hexEvents]
    simp

theorem hex_log (d : List Byte) (h : d ≠ []) : ∃ s, Around.renderHex d [] = .ok (s, hexEvents d 0) := by
  unfold Around.renderHex
  have : d.length ≠ 0 := by simpa using h
  rw [if_neg (by rw [List.length_replicate]; omega)]
  obtain ⟨s, hs⟩ := hexLoop_log d (List.replicate (2 * d.length) (Char.ofNat 0)) 0 [] (by simp)
  exact ⟨s, hs⟩

theorem hexEvents_eq (d : List Byte) : ∀ (d' : List Byte) (p : Nat), d.length = d'.length →
    (hexEvents d p = hexEvents d' p ↔
      d.map (fun c => (decide ((ror 8 c 4 : Byte) < 10), decide (c &&& 0xf < 10))) =
        d'.map (fun c => (decide ((ror 8 c 4 : Byte) < 10), decide (c &&& 0xf < 10)))) := by
  induction d with
  | nil => intro d' p h; cases d' with
    | nil => simp
    | cons => cases h
  | cons c d ih => intro d' p h; cases d' with
    | nil => cases h
    | cons c' d' =>
      have := ih d' (p + 2) (by simpa using h)
      simp only [hexEvents, List.map_cons, List.cons_append, List.nil_append, List.cons.injEq, Ev.test.injEq, true_and,
        Prod.mk.injEq, this, and_assoc]

theorem equal_val {w : Nat} (xs : List (BitVec w)) : ∀ (ys : List (BitVec w)) (i : Nat), xs.length = ys.length →
    Val (Around.equal i xs ys) (.ok (xs == ys)) := by
  induction xs with
  | nil => intro ys i h; cases ys with
    | nil => exact val_pure _
    | cons => cases h
  | cons x xs ih => intro ys i h; cases ys with
    | nil => cases h
    | cons y ys =>
      unfold Around.equal
      refine val_ev (val_ev ?_)
      by_cases e : x = y
      · subst e
        have := ih ys (i + 1) (by simpa using h)
        intro l
        have h2 := this l
        simp only [ne_eq, not_true_eq_false, if_false]
        refine h2.trans ?_
        simp
      · intro l
        simp only [ne_eq, e, not_false_eq_true, if_true]
        show Except.ok false = _
        simp [e]

theorem equal_same {w : Nat} (xs : List (BitVec w)) : ∀ (i : Nat) (l : List Ev),
    ∃ es, Around.equal i xs xs l = .ok (true, l ++ es) ∧ es.length = 2 * xs.length := by
  induction xs with
  | nil => intro i l; exact ⟨[], by rw [List.append_nil]; rfl, rfl⟩
  | cons x xs ih =>
    intro i l
    obtain ⟨es, h1, h2⟩ := ih (i + 1) (l ++ [.read i] ++ [.test (decide (x ≠ x))])
    refine ⟨[.read i, .test (decide (x ≠ x))] ++ es, ?_, by simp [h2]; omega⟩
    unfold Around.equal
    show (if x ≠ x then _ else _ : Traced Bool) (l ++ [.read i] ++ [.test (decide (x ≠ x))]) = _
    rw [if_neg (by simp)]
    refine Eq.trans h1 ?_
    simp

theorem equal_differ {w : Nat} (ps : List (BitVec w)) (x y : BitVec w) (h : x ≠ y) (xs ys : List (BitVec w)) :
    ∀ (i : Nat) (l : List Ev), ∃ es, Around.equal i (ps ++ x :: xs) (ps ++ y :: ys) l = .ok (false, l ++ es) ∧
      es.length = 2 * (ps.length + 1) := by
  induction ps with
  | nil =>
    intro i l
    refine ⟨[.read i, .test (decide (x ≠ y))], ?_, rfl⟩
    show (if x ≠ y then _ else _ : Traced Bool) (l ++ [.read i] ++ [.test (decide (x ≠ y))]) = _
    rw [if_pos h]
    show Except.ok (false, l ++ [.read i] ++ [.test (decide (x ≠ y))]) = _
    simp
  | cons p ps ih =>
    intro i l
    obtain ⟨es, h1, h2⟩ := ih (i + 1) (l ++ [.read i] ++ [.test (decide (p ≠ p))])
    refine ⟨[.read i, .test (decide (p ≠ p))] ++ es, ?_, by simp [h2]; omega⟩
    show (if p ≠ p then _ else _ : Traced Bool) (l ++ [.read i] ++ [.test (decide (p ≠ p))]) = _
    rw [if_neg (by simp)]
    refine Eq.trans h1 ?_
    simp

end Verif.Proof.Around
