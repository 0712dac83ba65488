import Verif.Model.OpsCShake
import Verif.Proof.OpsMore

/-! The operations of cSHAKE and TupleHash objects do not depend on the data, the name or the customization. -/

namespace Verif.Proof.OpsCShake
open Verif Verif.Ops Model Model.CShake Proof.Work Proof.Ops

variable {R : Nat} [hR : SHA3.RateOK R]

/-! ## Without the logs it is the class -/

theorem keccak_step (P : Byte) (dl : Nat) (o : Obj R (SHA3.KState × List Instr)) (op : Op) :
    (SHA3.Keccak R P dl).step o.unlogged op = ((SHA3.KeccakO R P dl).step o op).map Obj.unlogged := by
  have h := SHA3.natural (R := R) P dl
  cases op with
  | add d => exact h.add o d
  | reset => show Except.ok _ = _; rw [h.reset]; rfl
  | finalize => exact h.fin o

theorem callK_nat (op : Op) (P : Byte) (k : KObjO R) : callK op P k.unlogged = (callKO op P k).map KObjO.unlogged := by
  unfold callK callKO
  show (SHA3.Keccak R P k.digestLength).step k.obj.unlogged op >>= _ = _
  rw [keccak_step]
  cases (SHA3.KeccakO R P k.digestLength).step k.obj op <;> rfl

theorem step_nat (o : CShakeO R) (op : Op) : CShake.step o.unlogged op = (stepO o op).map CShakeO.unlogged := by
  have e : CShake.step o.unlogged op = onActive o.unlogged (callK op) := by cases op <;> rfl
  rw [e]
  rcases o with ⟨c, s, k⟩
  cases c
  · cases s with
    | none => rfl
    | some s =>
      show (callK op 0x1F s.unlogged >>= fun x => Except.ok (CShake.mk false (some x) _)) =
        (callKO op 0x1F s >>= fun x => Except.ok (CShakeO.mk false (some x) k)).map _
      rw [callK_nat]
      cases callKO op 0x1F s <;> rfl
  · cases k with
    | none => rfl
    | some k =>
      show (callK op 0x04 k.unlogged >>= fun x => Except.ok (CShake.mk true _ (some x))) =
        (callKO op 0x04 k >>= fun x => Except.ok (CShakeO.mk true s (some x))).map _
      rw [callK_nat]
      cases callKO op 0x04 k <;> rfl

theorem run_nat (ops : List Op) : ∀ o : CShakeO R, CShake.run o.unlogged ops = (runO o ops).map CShakeO.unlogged := by
  induction ops with
  | nil => intro o; rfl
  | cons op ops ih =>
    intro o
    show CShake.step o.unlogged op >>= _ = (stepO o op >>= _).map _
    rw [step_nat]
    cases stepO o op with
    | error e => rfl
    | ok o => exact ih o

theorem processString_nat (nb : Nat → Nat) (o : CShakeO R) (str : List Byte) (length : Nat) :
    CShake.processString nb o.unlogged str length = (processStringO nb o str length).map fun p => (p.1.unlogged, p.2) := by
  unfold CShake.processString processStringO
  rw [map_bind]
  refine Work.bind_congr fun enc => ?_
  show CShake.step o.unlogged (.add _) >>= _ = _
  rw [step_nat]
  cases stepO o (.add enc.contents) with
  | error e => rfl
  | ok o =>
    show CShake.step o.unlogged (.add _) >>= _ = (stepO o (.add str) >>= _).map _
    rw [step_nat]
    cases stepO o (.add str) <;> rfl

theorem addZeros_nat (n : Nat) : ∀ o : CShakeO R, CShake.addZeros n o.unlogged = (addZerosO n o).map CShakeO.unlogged := by
  induction n with
  | zero => intro o; rfl
  | succ n ih =>
    intro o
    show CShake.step o.unlogged (.add [0]) >>= _ = (stepO o (.add [0]) >>= _).map _
    rw [step_nat]
    cases stepO o (.add [0]) with
    | error e => rfl
    | ok o => exact ih o

theorem newK_nat (P : Byte) (dl : Int) : newK R P dl = (newKO R P dl).map KObjO.unlogged := by
  unfold newK newKO SHA3.construct
  split <;> rfl

theorem construct_nat (nb : Nat → Nat) (dl : Int) (name customize : List Byte) :
    CShake.construct nb R dl name customize = (constructO nb R dl name customize).map CShakeO.unlogged := by
  unfold CShake.construct constructO
  dsimp only
  split
  · rw [newK_nat]
    cases newKO R 0x1F dl <;> rfl
  · rw [newK_nat]
    cases newKO R 0x04 dl with
    | error e => rfl
    | ok k =>
      show (leftEncode nb R >>= _) = (leftEncode nb R >>= _).map _
      rw [map_bind]
      refine Work.bind_congr fun enc => ?_
      generalize (!(name.isEmpty && customize.isEmpty)) = b
      show CShake.step (CShakeO.unlogged ⟨b, none, some k⟩) (.add _) >>= _ = _
      rw [step_nat]
      cases stepO ⟨b, none, some k⟩ (.add enc.contents) with
      | error e => rfl
      | ok o =>
        show CShake.processString nb o.unlogged name _ >>= _ = (processStringO nb o name _ >>= _).map _
        rw [processString_nat]
        cases processStringO nb o name enc.size with
        | error e => rfl
        | ok p =>
          show CShake.processString nb p.1.unlogged customize _ >>= _ = (processStringO nb p.1 customize _ >>= _).map _
          rw [processString_nat]
          cases processStringO nb p.1 customize p.2 with
          | error e => rfl
          | ok p => exact addZeros_nat _ p.1

theorem tupleStep_nat (nb : Nat → Nat) (o : TupleHashO R) (op : Op) :
    tupleStep nb o.unlogged op = (tupleStepO nb o op).map TupleHashO.unlogged := by
  cases op with
  | add d =>
    show (leftEncode nb _ >>= _) = (leftEncode nb _ >>= _).map _
    rw [map_bind]
    refine Work.bind_congr fun enc => ?_
    show CShake.step o.cshake.unlogged (.add _) >>= _ = (stepO o.cshake (.add _) >>= _).map _
    rw [step_nat]
    cases stepO o.cshake (.add enc.contents) with
    | error e => rfl
    | ok c =>
      show CShake.step c.unlogged (.add _) >>= _ = (stepO c (.add _) >>= _).map _
      rw [step_nat]
      cases stepO c (.add d) <;> rfl
  | reset =>
    show CShake.step o.cshake.unlogged .reset >>= _ = (stepO o.cshake .reset >>= _).map _
    rw [step_nat]
    cases stepO o.cshake .reset <;> rfl
  | finalize =>
    show tupleFinalize nb o.unlogged = _
    unfold tupleFinalize tupleStepO
    show (if ¬(-2 ^ 31 ≤ o.digestLength * 8 ∧ o.digestLength * 8 < 2 ^ 31) then _ else _) =
      Except.map TupleHashO.unlogged (if ¬(-2 ^ 31 ≤ o.digestLength * 8 ∧ o.digestLength * 8 < 2 ^ 31) then _ else _)
    split
    · rfl
    · show (rightEncode nb _ >>= _) = (rightEncode nb _ >>= _).map _
      rw [map_bind]
      refine Work.bind_congr fun enc => ?_
      show CShake.step o.cshake.unlogged (.add _) >>= _ = (stepO o.cshake (.add _) >>= _).map _
      rw [step_nat]
      cases stepO o.cshake (.add enc.contents) with
      | error e => rfl
      | ok c =>
        show CShake.step c.unlogged .finalize >>= _ = (stepO c .finalize >>= _).map _
        rw [step_nat]
        cases stepO c .finalize <;> rfl

theorem tupleRun_nat (nb : Nat → Nat) (ops : List Op) : ∀ o : TupleHashO R,
    tupleRun nb o.unlogged ops = (tupleRunO nb o ops).map TupleHashO.unlogged := by
  induction ops with
  | nil => intro o; rfl
  | cons op ops ih =>
    intro o
    show tupleStep nb o.unlogged op >>= _ = (tupleStepO nb o op >>= _).map _
    rw [tupleStep_nat]
    cases tupleStepO nb o op with
    | error e => rfl
    | ok o => exact ih o

/-! ## Two runs side by side -/

structure KRel (k k' : KObjO R) : Prop where
  length : k.digestLength = k'.digestLength
  obj : SameObj SHA3.Rel k.obj k'.obj

def PRel : Option (KObjO R) → Option (KObjO R) → Prop
  | none, none => True
  | some k, some k' => KRel k k'
  | _, _ => False

structure CRel (o o' : CShakeO R) : Prop where
  customized : o.customized = o'.customized
  shake : PRel o.shake o'.shake
  keccak : PRel o.keccak o'.keccak

omit hR in
theorem CRel.log {o o' : CShakeO R} (h : CRel o o') : o.log = o'.log := by
  have e : ∀ k k' : Option (KObjO R), PRel k k' → logOf k = logOf k' := by
    intro k k' h
    cases k with
    | none => cases k' with
      | none => rfl
      | some _ => exact h.elim
    | some k => cases k' with
      | none => exact h.elim
      | some k' => exact h.obj.chain.2
  unfold CShakeO.log
  rw [e _ _ h.shake, e _ _ h.keccak]

theorem call_same {op op' : Op} (hop : op.shape = op'.shape) (P : Byte) {k k' : KObjO R} (h : KRel k k') :
    Both KRel (callKO op P k) (callKO op' P k') := by
  have hp := SHA3.parallel (R := R) P P k.digestLength
  refine both_bind (R := SameObj SHA3.Rel) ?_ fun o o' ho => ⟨h.length, ho⟩
  rw [← h.length]
  cases op with
  | add d => cases op' with
    | add d' => exact hp.add _ _ d d' (Shape.add.inj hop) h.obj
    | reset => cases hop
    | finalize => cases hop
  | reset => cases op' with
    | add d' => cases hop
    | reset => exact hp.reset _ _ h.obj
    | finalize => cases hop
  | finalize => cases op' with
    | add d' => cases hop
    | reset => cases hop
    | finalize => exact hp.fin _ _ h.obj

theorem step_same {op op' : Op} (hop : op.shape = op'.shape) {o o' : CShakeO R} (h : CRel o o') :
    Both CRel (stepO o op) (stepO o' op') := by
  rcases o with ⟨c, s, k⟩
  rcases o' with ⟨c', s', k'⟩
  obtain ⟨h1, h2, h3⟩ := h
  obtain rfl : c = c' := h1
  unfold stepO onActiveO
  cases c
  · cases s with
    | none => cases s' with
      | none => rfl
      | some _ => exact h2.elim
    | some s => cases s' with
      | none => exact h2.elim
      | some s' => exact both_bind (call_same hop 0x1F h2) fun a b hab => ⟨rfl, hab, h3⟩
  · cases k with
    | none => cases k' with
      | none => rfl
      | some _ => exact h3.elim
    | some k => cases k' with
      | none => exact h3.elim
      | some k' => exact both_bind (call_same hop 0x04 h3) fun a b hab => ⟨rfl, h2, hab⟩

theorem run_same (ops : List Op) : ∀ ops', ops.map Op.shape = ops'.map Op.shape → ∀ {o o' : CShakeO R}, CRel o o' →
    Both CRel (runO o ops) (runO o' ops') := by
  induction ops with
  | nil =>
    intro ops' hs o o' ho
    cases ops' with
    | nil => exact ho
    | cons => cases hs
  | cons op ops ih =>
    intro ops' hs o o' ho
    cases ops' with
    | nil => cases hs
    | cons op' ops' => exact both_bind (step_same (List.cons.inj hs).1 ho) fun _ _ h => ih ops' (List.cons.inj hs).2 h

theorem both_refl {α : Type} (x : Except Fault α) : Both Eq x x := by cases x <;> rfl

theorem processString_same (nb : Nat → Nat) {o o' : CShakeO R} (h : CRel o o') {str str' : List Byte}
    (hs : str.length = str'.length) (length : Nat) :
    Both (fun p p' => CRel p.1 p'.1 ∧ p.2 = p'.2) (processStringO nb o str length) (processStringO nb o' str' length) := by
  unfold processStringO
  rw [hs]
  refine both_bind (both_refl _) fun enc enc' he => ?_
  subst he
  refine both_bind (step_same rfl h) fun o o' h => ?_
  refine both_bind (step_same (op := .add str) (op' := .add str') (congrArg Shape.add hs) h) fun o o' h => ?_
  exact ⟨h, rfl⟩

theorem addZeros_same (n : Nat) : ∀ {o o' : CShakeO R}, CRel o o' → Both CRel (addZerosO n o) (addZerosO n o') := by
  induction n with
  | zero => intro o o' h; exact h
  | succ n ih => intro o o' h; exact both_bind (step_same rfl h) fun _ _ h => ih h

theorem newK_same (P : Byte) (dl : Int) : Both KRel (newKO R P dl) (newKO R P dl) := by
  unfold newKO
  split
  · rfl
  · exact ⟨rfl, (SHA3.parallel (R := R) P P dl.toNat).fresh⟩

omit hR in
theorem isEmpty_same {s s' : List Byte} (h : s.length = s'.length) : s.isEmpty = s'.isEmpty := by
  cases s with
  | nil => cases s' with
    | nil => rfl
    | cons => cases h
  | cons => cases s' with
    | nil => cases h
    | cons => rfl

theorem construct_same (nb : Nat → Nat) (dl : Int) {name name' customize customize' : List Byte}
    (hn : name.length = name'.length) (hc : customize.length = customize'.length) :
    Both CRel (constructO nb R dl name customize) (constructO nb R dl name' customize') := by
  unfold constructO
  dsimp only
  rw [isEmpty_same hn, isEmpty_same hc]
  split
  · exact both_bind (newK_same 0x1F dl) fun k k' h => ⟨rfl, h, trivial⟩
  · refine both_bind (newK_same 0x04 dl) fun k k' h => ?_
    refine both_bind (both_refl _) fun enc enc' he => ?_
    subst he
    refine both_bind (step_same rfl ⟨rfl, trivial, h⟩) fun o o' h => ?_
    refine both_bind (processString_same nb h hn _) fun p p' h => ?_
    rcases p with ⟨o, l⟩
    rcases p' with ⟨o', l'⟩
    obtain ⟨h, hl⟩ := h
    obtain rfl : l = l' := hl
    refine both_bind (processString_same nb h hc _) fun p p' h => ?_
    rcases p with ⟨o, l⟩
    rcases p' with ⟨o', l'⟩
    obtain ⟨h, hl⟩ := h
    obtain rfl : l = l' := hl
    exact addZeros_same _ h

structure TRel (o o' : TupleHashO R) : Prop where
  cshake : CRel o.cshake o'.cshake
  length : o.digestLength = o'.digestLength

theorem tupleStep_same (nb : Nat → Nat) {op op' : Op} (hop : op.shape = op'.shape) {o o' : TupleHashO R} (h : TRel o o') :
    Both TRel (tupleStepO nb o op) (tupleStepO nb o' op') := by
  cases op with
  | add d => cases op' with
    | add d' =>
      unfold tupleStepO
      dsimp only
      rw [Shape.add.inj hop]
      refine both_bind (both_refl _) fun enc enc' he => ?_
      subst he
      refine both_bind (step_same rfl h.cshake) fun c c' hc => ?_
      exact both_bind (step_same hop hc) fun c c' hc => ⟨hc, h.length⟩
    | reset => cases hop
    | finalize => cases hop
  | reset => cases op' with
    | add d' => cases hop
    | reset => exact both_bind (step_same rfl h.cshake) fun c c' hc => ⟨hc, h.length⟩
    | finalize => cases hop
  | finalize => cases op' with
    | add d' => cases hop
    | reset => cases hop
    | finalize =>
      unfold tupleStepO
      dsimp only
      rw [h.length]
      split
      · rfl
      · refine both_bind (both_refl _) fun enc enc' he => ?_
        subst he
        refine both_bind (step_same rfl h.cshake) fun c c' hc => ?_
        exact both_bind (step_same rfl hc) fun c c' hc => ⟨hc, rfl⟩

theorem tupleRun_same (nb : Nat → Nat) (ops : List Op) : ∀ ops', ops.map Op.shape = ops'.map Op.shape →
    ∀ {o o' : TupleHashO R}, TRel o o' → Both TRel (tupleRunO nb o ops) (tupleRunO nb o' ops') := by
  induction ops with
  | nil =>
    intro ops' hs o o' ho
    cases ops' with
    | nil => exact ho
    | cons => cases hs
  | cons op ops ih =>
    intro ops' hs o o' ho
    cases ops' with
    | nil => cases hs
    | cons op' ops' => exact both_bind (tupleStep_same nb (List.cons.inj hs).1 ho) fun _ _ h => ih ops' (List.cons.inj hs).2 h

end Verif.Proof.OpsCShake
