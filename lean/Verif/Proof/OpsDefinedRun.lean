import Verif.Proof.OpsDefined
import Verif.Proof.OpsCShake

/-! What an object has executed consists of steps of its block function: nothing undefined is in the log. -/

namespace Verif.Proof.OpsDefined
open Verif Verif.Ops Model

/-- what holds if it succeeds -/
def Good {α : Type} (I : α → Prop) (x : Except Fault α) : Prop := ∀ a, x = .ok a → I a

section
variable {α β S : Type} {I : α → Prop} {J : β → Prop}

theorem good_ok {a : α} (h : I a) : Good I (.ok a) := by
  intro b hb
  cases hb
  exact h

theorem good_error (e : Fault) : Good I (.error e) := by
  intro b hb
  cases hb

theorem good_bind {x : Except Fault α} {f : α → Except Fault β} (h : Good I x) (hf : ∀ a, I a → Good J (f a)) : Good J (x >>= f) := by
  cases x with
  | error e => exact good_error e
  | ok a => exact hf a (h a rfl)

/-- nothing is asked of the first part -/
theorem good_then {x : Except Fault α} {f : α → Except Fault β} (hf : ∀ a, Good J (f a)) : Good J (x >>= f) :=
  good_bind (I := fun _ => True) (fun _ _ => trivial) fun a _ => hf a

theorem good_foldlM {I : S → Prop} {f : S → α → Except Fault S} (h : ∀ s a, I s → Good I (f s a)) (l : List α) :
    ∀ s, I s → Good I (l.foldlM f s) := by
  induction l with
  | nil => intro s hs; exact good_ok hs
  | cons a l ih =>
    intro s hs
    rw [List.foldlM_cons]
    exact good_bind (h s a hs) ih

theorem good_forBlocks {B : Nat} {I : S → Prop} {body : S → Block B → S} (h : ∀ s m, I s → I (body s m)) (d : List Byte) (s : S)
    (hs : I s) : Good I (forBlocks B body d s) :=
  good_foldlM (fun s _ hs => good_then fun m => good_ok (h s m hs)) _ s hs

/-- the invariant of `addDataImpl` -/
def Keeps (I : S → Prop) (impl : S → List Byte → Except Fault S) : Prop := ∀ s d, I s → Good I (impl s d)

variable {B N : Nat} {K : S → Prop} {impl : S → List Byte → Except Fault S}

theorem good_addDataTail (h : Keeps K impl) (o : Obj N S) (d : List Byte) (ho : K o.chain) :
    Good (fun o => K o.chain) (addDataTail B impl o d) := by
  unfold addDataTail
  dsimp only
  split
  · exact good_then fun b => good_ok ho
  · refine good_then fun x => good_bind (h _ _ ho) fun c hc => ?_
    split
    · exact good_then fun b => good_ok hc
    · exact good_ok hc

theorem good_addData (h : Keeps K impl) (o : Obj N S) (d : List Byte) (ho : K o.chain) :
    Good (fun o => K o.chain) (addData B impl o d) := by
  unfold addData
  dsimp only
  split
  · refine good_then fun b => ?_
    split
    · exact good_ok ho
    · exact good_bind (h _ _ ho) fun c hc => good_then fun x => good_addDataTail h _ _ hc
  · exact good_addDataTail h o d ho

theorem good_addDataTail2 (h : Keeps K impl) (o : Obj B S) (d : List Byte) (ho : K o.chain) :
    Good (fun o => K o.chain) (BLAKE2.addDataTail B impl o d) := by
  unfold BLAKE2.addDataTail
  dsimp only
  exact good_then fun x => good_bind (h _ _ ho) fun c hc => good_then fun b => good_ok hc

theorem good_addData2 (h : Keeps K impl) (n : Nat) : ∀ (o : Obj B S) (d : List Byte), K o.chain → d.length = n →
    Good (fun o => K o.chain) (BLAKE2.addData B impl o d) := by
  induction n using Nat.strongRecOn with
  | ind n ih =>
    intro o d ho hn
    rw [BLAKE2.addData]
    split
    · exact good_ok ho
    · split
      · exact good_bind (h _ _ ho) fun c hc => good_addDataTail2 h _ _ hc
      · split
        · by_cases h3 : min (B - o.buffer.size) d.length = 0
          · simp only [h3, if_true]; exact good_error _
          · simp only [h3, if_false]
            cases o.buffer.pushBack (d.take (min (B - o.buffer.size) d.length)) with
            | error e => exact good_error e
            | ok b => exact ih _ (by rw [List.length_drop]; omega) { o with buffer := b } _ ho rfl
        · exact good_addDataTail2 h o d ho

end

/-- the invariant of a class -/
structure Invariant {O : Type} (A : API O) (I : O → Prop) : Prop where
  fresh : I A.fresh
  reset : ∀ o, I o → I (A.reset o)
  add : ∀ o d, I o → Good I (A.addData o d)
  fin : ∀ o, I o → Good I (A.finalize o)

theorem Invariant.run {O : Type} {A : API O} {I : O → Prop} (h : Invariant A I) (ops : List Op) : ∀ o, I o → Good I (A.run o ops) := by
  induction ops with
  | nil => intro o ho; exact good_ok ho
  | cons op ops ih =>
    intro o ho
    refine good_bind (I := I) ?_ ih
    cases op with
    | add d => exact h.add o d ho
    | reset => exact good_ok (h.reset o ho)
    | finalize => exact h.fin o ho

/-- nothing undefined is in the log -/
def LogFine (l : List Instr) : Prop := ∀ i ∈ l, i.Defined

theorem Invariant.defined {O : Type} {A : API O} {log : O → List Instr} (h : Invariant A fun o => LogFine (log o)) : A.Defined log :=
  fun ops o ho => h.run ops A.fresh h.fresh o ho

theorem nothing : LogFine [] := fun _ h => by cases h

theorem logged_fine {S M : Type} {g : S → M → Ops S} (h : DefinedSteps g) (s : S × List Instr) (m : M) (hs : LogFine s.2) :
    LogFine (logged g s m).2 := fine_append hs (h s.1 m)

/-! ## The classes -/

theorem md {C H : Type} {B L : Nat} (cnt : Counter C) {g : H → Block B → Ops H} (h : DefinedSteps g) (pb : Byte) (iv : H)
    (out : H → Except Fault (List Byte)) : (mdApiO B L pb cnt g iv out).Defined (fun o => o.chain.h.2) := by
  have hi : Keeps (fun s : MDState C (H × List Instr) => LogFine s.h.2) (mdImpl B cnt (logged g)) := by
    intro s d hs
    unfold mdImpl
    dsimp only
    split
    · exact good_error _
    · exact good_bind (good_forBlocks (I := fun s => LogFine s.2) (logged_fine h) d s.h hs) fun c hc => good_ok hc
  refine Invariant.defined ⟨nothing, fun o ho => ho, fun o d ho => good_addData hi o d ho, fun o ho => ?_⟩
  show Good _ (mdFinalize _ _ _ _ _ _ _ o)
  unfold mdFinalize
  dsimp only
  iterate 3 refine good_then fun _ => ?_
  exact good_bind (hi _ _ ho) fun c hc => good_ok hc

section
open Model.BLAKE
variable {w B : Nat} {C : Type} {c : Cfg w B C} {k : CfgO c}

theorem blakeClass (h : ∀ p, DefinedSteps (bodyO k p)) (L : Nat) (marker : Bool) (total : C → Nat → C)
    (writes : Nat → C → List (Nat × Byte)) (init : MDState C (Vector (BitVec w) 8)) (b words size : Nat) :
    (apiO k L marker total writes init b words size).Defined (fun o => o.chain.2) := by
  have hi : ∀ p, Keeps (fun s : MDState C (Vector (BitVec w) 8) × List Instr => LogFine s.2) (implO k p) := by
    intro p s d hs
    unfold implO
    dsimp only
    split
    · exact good_error _
    · exact good_forBlocks (logged_fine (h p)) d s hs
  refine Invariant.defined ⟨nothing, fun o ho => ho, fun o d ho => good_addData (hi 0) o d ho, fun o ho => ?_⟩
  show Good _ (finalizeO _ _ _ _ _ o)
  unfold finalizeO
  dsimp only
  iterate 4 refine good_then fun _ => ?_
  exact good_bind (hi _ _ _ ho) fun c hc => good_ok hc

end

section
open Model.BLAKE2
variable {w B : Nat} {C : Type} {c : Cfg w B C} {k : CfgO c}

theorem blake2Class (h : ∀ f p, DefinedSteps (bodyO k f p)) (b size : Nat) : (apiO k b size).Defined (fun o => o.chain.2) := by
  have hi : ∀ f p, Keeps (fun s : State w C × List Instr => LogFine s.2) (implO k f p) := by
    intro f p s d hs
    unfold implO
    dsimp only
    split
    · exact good_error _
    · exact good_forBlocks (logged_fine (h f p)) d s hs
  refine Invariant.defined ⟨nothing, fun o ho => ho, fun o d ho => good_addData2 (hi false 0) _ o d ho rfl, fun o ho => ?_⟩
  show Good _ (finalizeO _ o)
  unfold finalizeO
  dsimp only
  refine good_then fun _ => ?_
  exact good_bind (hi _ _ _ _ ho) fun c hc => good_ok hc

end

section
open Model.SHA3
variable {R : Nat} [RateOK R]

theorem absorb_keeps : Keeps (fun s : State × List Instr => LogFine s.2) (absorbO R) := by
  intro s d hs
  unfold absorbO
  dsimp only
  split
  · exact good_error _
  · exact good_forBlocks (logged_fine sha3) d s hs

theorem keccak_keeps : Keeps (fun s : KState × List Instr => LogFine s.2) (implO R) := by
  intro s d hs
  unfold implO
  exact good_bind (absorb_keeps _ _ hs) fun c hc => good_ok hc

theorem squeeze_good (dl n : Nat) : ∀ s : KState × List Instr, LogFine s.2 → dl - s.1.final.length = n →
    Good (fun s => LogFine s.2) (squeezeO R dl s) := by
  induction n using Nat.strongRecOn with
  | ind n ih =>
    intro s hs hn
    rw [squeezeO]
    by_cases h : R ≤ (stateToVector s.1.state).length
    · rw [dif_pos h]
      dsimp only
      by_cases hf : (s.1.final ++ (stateToVector s.1.state).take R).length ≥ dl
      · rw [dif_pos hf]; exact good_ok hs
      · rw [dif_neg hf]
        have ha := absorb_keeps (R := R) (s.1.state, s.2) (List.replicate R 0) hs
        cases hx : absorbO R (s.1.state, s.2) (List.replicate R 0) with
        | error e => exact good_error _
        | ok st =>
          refine ih _ ?_ (⟨st.1, s.1.final ++ (stateToVector s.1.state).take R⟩, st.2) (ha st hx) rfl
          have := RateOK.pos (R := R)
          simp only [ge_iff_le, Nat.not_le, List.length_append, List.length_take] at *
          omega
    · rw [dif_neg h]; exact good_error _

theorem keccakInvariant (P : Byte) (dl : Nat) : Invariant (KeccakO R P dl) fun o => LogFine o.chain.2 := by
  refine ⟨nothing, fun o ho => ho, fun o d ho => good_addData keccak_keeps o d ho, fun o ho => ?_⟩
  show Good _ (finalizeO _ _ _ o)
  unfold finalizeO
  dsimp only
  iterate 4 refine good_then fun _ => ?_
  refine good_bind (keccak_keeps _ _ ho) fun c hc => ?_
  exact good_bind (squeeze_good dl _ c hc rfl) fun c hc => good_ok hc

theorem keccakClass (P : Byte) (dl : Nat) : (KeccakO R P dl).Defined (fun o => o.chain.2) := (keccakInvariant P dl).defined

end

theorem sipClass (C D : Nat) (key : Block 16) : (SipHash.SipHashCDO C D key).Defined (fun o => o.chain.2) := by
  have hi : Keeps (fun s : SipHash.State × List Instr => LogFine s.2) (SipHash.implO C) := by
    intro s d hs
    unfold SipHash.implO
    dsimp only
    split
    · exact good_error _
    · exact good_bind (good_forBlocks (I := fun s => LogFine s.2) (logged_fine (sip C)) d (s.1.state, s.2) hs) fun c hc => good_ok hc
  refine Invariant.defined ⟨fine_append (sipLoadKey key) (sipKeyed _), fun o ho => fine_append ho (sipKeyed _),
    fun o d ho => good_addData hi o d ho, fun o ho => ?_⟩
  show Good _ (SipHash.finalizeO _ _ o)
  unfold SipHash.finalizeO
  dsimp only
  iterate 2 refine good_then fun _ => ?_
  exact good_bind (hi _ _ ho) fun c hc => good_ok (fine_append hc (sipLast _ _))

theorem fnvClass (w v : Nat) : (FNV.FNVHashO w v).Defined Prod.snd := by
  refine Invariant.defined ⟨nothing, fun o ho => ho, fun o d ho => good_ok ?_, fun o ho => good_ok ho⟩
  show LogFine (List.foldl _ o d).2
  induction d generalizing o with
  | nil => exact ho
  | cons x d ih => exact ih _ (logged_fine (fnv w v) o x ho)

theorem crc32Loop (d : List Byte) : ∀ (fuel p : Nat) (h : W32 × List Instr), LogFine h.2 →
    Good (fun h => LogFine h.2) (CRC32.tailLoopO d fuel p h) := by
  intro fuel
  induction fuel with
  | zero =>
    intro p h hh
    unfold CRC32.tailLoopO
    split
    · exact good_error _
    · exact good_ok hh
  | succ fuel ih =>
    intro p h hh
    unfold CRC32.tailLoopO
    split
    · cases d[p]? with
      | none => exact good_error _
      | some x => exact ih _ _ (logged_fine crc32Tail h x hh)
    · exact good_ok hh

theorem crc32Class : CRC32.CRC_32O.Defined Prod.snd := by
  refine Invariant.defined ⟨nothing, fun o ho => ho, fun o d ho => ?_, fun o ho => good_ok ho⟩
  show Good _ (CRC32.addDataO o d)
  unfold CRC32.addDataO
  exact good_bind (good_forBlocks (I := fun s => LogFine s.2) (logged_fine crc32) d o ho) fun c hc => crc32Loop d _ _ c hc

theorem md2Class : MD2.MD2O.Defined (fun o => o.chain.2) := by
  have hi : Keeps (fun s : MD2.St × List Instr => LogFine s.2) MD2.implO := fun s d hs =>
    good_forBlocks (I := fun s => LogFine s.2) (logged_fine md2) d s hs
  refine Invariant.defined ⟨nothing, fun o ho => ho, fun o d ho => good_addData hi o d ho, fun o ho => ?_⟩
  show Good _ (MD2.finalizeO o)
  unfold MD2.finalizeO
  dsimp only
  refine good_then fun _ => good_bind (hi _ _ ho) fun c hc => ?_
  exact good_bind (hi _ _ hc) fun c hc => good_ok hc

/-! ## cSHAKE and TupleHash -/

section
open Model.CShake
variable {R : Nat} [hR : SHA3.RateOK R]

/-- nothing undefined is in the logs of the two objects that a cSHAKE object may own -/
def CFine (o : CShakeO R) : Prop := LogFine o.log.1 ∧ LogFine o.log.2

theorem callK_fine (op : Op) (P : Byte) (k : KObjO R) (h : LogFine k.obj.chain.2) :
    Good (fun k => LogFine k.obj.chain.2) (callKO op P k) := by
  have hi := keccakInvariant (R := R) P k.digestLength
  refine good_bind (I := fun o => LogFine o.chain.2) ?_ fun o ho => good_ok ho
  cases op with
  | add d => exact hi.add _ d h
  | reset => exact good_ok (hi.reset _ h)
  | finalize => exact hi.fin _ h

theorem cstep_fine (o : CShakeO R) (op : Op) (h : CFine o) : Good CFine (stepO o op) := by
  rcases o with ⟨c, s, k⟩
  unfold stepO onActiveO
  cases c
  · cases s with
    | none => exact good_error _
    | some s => exact good_bind (callK_fine op 0x1F s h.1) fun a ha => good_ok ⟨ha, h.2⟩
  · cases k with
    | none => exact good_error _
    | some k => exact good_bind (callK_fine op 0x04 k h.2) fun a ha => good_ok ⟨h.1, ha⟩

theorem crun_fine (ops : List Op) : ∀ o : CShakeO R, CFine o → Good CFine (runO o ops) := by
  induction ops with
  | nil => intro o h; exact good_ok h
  | cons op ops ih => intro o h; exact good_bind (cstep_fine o op h) ih

theorem processString_fine (nb : Nat → Nat) (o : CShakeO R) (h : CFine o) (str : List Byte) (length : Nat) :
    Good (fun p => CFine p.1) (processStringO nb o str length) := by
  unfold processStringO
  refine good_then fun enc => good_bind (cstep_fine o _ h) fun o h => ?_
  exact good_bind (cstep_fine o _ h) fun o h => good_ok h

theorem addZeros_fine (n : Nat) : ∀ o : CShakeO R, CFine o → Good CFine (addZerosO n o) := by
  induction n with
  | zero => intro o h; exact good_ok h
  | succ n ih => intro o h; exact good_bind (cstep_fine o _ h) ih

theorem newK_fine (P : Byte) (dl : Int) : Good (fun k => LogFine k.obj.chain.2) (newKO R P dl) := by
  unfold newKO
  split
  · exact good_error _
  · exact good_ok nothing

theorem construct_fine (nb : Nat → Nat) (dl : Int) (name customize : List Byte) : Good CFine (constructO nb R dl name customize) := by
  unfold constructO
  dsimp only
  split
  · exact good_bind (newK_fine 0x1F dl) fun k h => good_ok ⟨h, nothing⟩
  · refine good_bind (newK_fine 0x04 dl) fun k h => good_then fun enc => ?_
    refine good_bind (cstep_fine _ _ ⟨nothing, h⟩) fun o h => ?_
    refine good_bind (processString_fine nb o h _ _) fun p h => ?_
    refine good_bind (processString_fine nb p.1 h _ _) fun p h => ?_
    exact addZeros_fine _ _ h

theorem tupleStep_fine (nb : Nat → Nat) (o : TupleHashO R) (op : Op) (h : CFine o.cshake) :
    Good (fun o => CFine o.cshake) (tupleStepO nb o op) := by
  cases op with
  | add d =>
    refine good_then fun enc => good_bind (cstep_fine _ _ h) fun c h => ?_
    exact good_bind (cstep_fine _ _ h) fun c h => good_ok h
  | reset => exact good_bind (cstep_fine _ _ h) fun c h => good_ok h
  | finalize =>
    unfold tupleStepO
    dsimp only
    split
    · exact good_error _
    · refine good_then fun enc => good_bind (cstep_fine _ _ h) fun c h => ?_
      exact good_bind (cstep_fine _ _ h) fun c h => good_ok h

theorem tupleRun_fine (nb : Nat → Nat) (ops : List Op) : ∀ o : TupleHashO R, CFine o.cshake →
    Good (fun o => CFine o.cshake) (tupleRunO nb o ops) := by
  induction ops with
  | nil => intro o h; exact good_ok h
  | cons op ops ih => intro o h; exact good_bind (tupleStep_fine nb o op h) ih

end

end Verif.Proof.OpsDefined
