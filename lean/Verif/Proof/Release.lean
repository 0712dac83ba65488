import Verif.Model.Release
import Verif.Proof.Misuse

/-! # What the debug build computes the release build computes too -/

namespace Verif.Proof.Release
open Verif Verif.Model Verif.Proof.Misuse

/-- `y` gives whatever `x` gives -/
def Le {α : Type} (x y : Except Fault α) : Prop := ∀ v, x = .ok v → y = .ok v

infix:50 " ≼ " => Le

variable {α β : Type}

theorem le_refl (x : Except Fault α) : x ≼ x := fun _ h => h

theorem le_error (e : Fault) (y : Except Fault α) : (.error e : Except Fault α) ≼ y := fun _ h => by cases h

theorem le_bind {x y : Except Fault α} {f g : α → Except Fault β} (h : x ≼ y) (hf : ∀ a, f a ≼ g a) :
    (x >>= f) ≼ (y >>= g) := by
  intro v e
  cases x with
  | error => cases e
  | ok a => rw [h a rfl]; exact hf a v e

theorem le_ite {c : Prop} [Decidable c] {x y x' y' : Except Fault α} (h : x ≼ x') (h' : y ≼ y') :
    (if c then x else y) ≼ (if c then x' else y') := by
  split
  · exact h
  · exact h'

theorem fill {N : Nat} (b : Buffer N) (x : Byte) (n : Nat) : b.fill x n ≼ b.fillR x n := by
  unfold Buffer.fill Buffer.fillR
  split
  · rename_i h
    rw [if_pos (Or.inr h.2)]
    exact le_refl _
  · exact le_error _ _

theorem pushBack {N : Nat} (l : List Byte) : ∀ b : Buffer N, b.pushBack l ≼ b.pushBackR l := by
  induction l with
  | nil => intro b; exact le_refl _
  | cons x xs ih => intro b; exact le_bind (fill b x 1) ih

theorem ofRange {N : Nat} (l : List Byte) : (Buffer.ofRange l : Except Fault (Buffer N)) ≼ Buffer.ofRangeR l :=
  pushBack l {}

section
variable {N : Nat} {S : Type} {B : Nat} {impl implR : S → List Byte → Except Fault S}

theorem addDataTail (hi : ∀ s d, impl s d ≼ implR s d) (o : Obj N S) (data : List Byte) :
    Verif.addDataTail B impl o data ≼ addDataTailR B implR o data := by
  unfold Verif.addDataTail addDataTailR
  refine le_ite (le_bind (ofRange _) fun _ => le_refl _) ?_
  refine le_bind (le_refl _) fun f => le_bind (hi _ _) fun c => ?_
  exact le_ite (le_bind (ofRange _) fun _ => le_refl _) (le_refl _)

theorem addData (hi : ∀ s d, impl s d ≼ implR s d) (o : Obj N S) (data : List Byte) :
    Verif.addData B impl o data ≼ addDataR B implR o data := by
  unfold Verif.addData addDataR
  refine le_ite ?_ (addDataTail hi _ _)
  refine le_bind (pushBack _ _) fun b => le_ite (le_refl _) ?_
  exact le_bind (hi _ _) fun c => le_bind (le_refl _) fun s => addDataTail hi _ _

end

/-- The calls of the release build give what those of the debug build give. -/
structure Twin {O : Type} (A R : API O) : Prop where
  fresh : R.fresh = A.fresh
  reset : ∀ o, R.reset o = A.reset o
  add : ∀ o d, A.addData o d ≼ R.addData o d
  fin : ∀ o, A.finalize o ≼ R.finalize o
  out : ∀ o, R.toArray o = A.toArray o

section
variable {O : Type} {A R : API O}

theorem step (t : Twin A R) (o : O) (op : Op) : A.step o op ≼ R.step o op := by
  cases op with
  | add d => exact t.add o d
  | finalize => exact t.fin o
  | reset =>
    show (.ok (A.reset o) : Except Fault O) ≼ .ok (R.reset o)
    rw [t.reset]
    exact le_refl _

theorem run (t : Twin A R) (ops : List Op) : ∀ o, A.run o ops ≼ R.run o ops := by
  induction ops with
  | nil => intro o; exact le_refl _
  | cons op ops ih => intro o; exact le_bind (step t o op) ih

theorem same (t : Twin A R) (h : Total A) : A.SameBuild R := by
  intro ops ho
  obtain ⟨o, e, _⟩ := h.run ops A.fresh ho h.fresh
  exact ⟨o, e, by rw [t.fresh]; exact run t ops _ _ e, t.out o⟩

end

/-! ### the classes -/

theorem mdImpl {C H : Type} (B : Nat) (cnt : Counter C) (comp : H → Block B → H) (s : MDState C H) (d : List Byte) :
    Verif.mdImpl B cnt comp s d ≼ mdImplR B cnt comp s d := by
  unfold Verif.mdImpl mdImplR
  split
  · exact le_error _ _
  · exact le_refl _

theorem md {C H : Type} (B L : Nat) (padByte : Byte) (cnt : Counter C) (comp : H → Block B → H) (iv : H)
    (out : H → Except Fault (List Byte)) :
    Twin (mdApi B L padByte cnt comp iv out) (mdApiR B L padByte cnt comp iv out) where
  fresh := rfl
  reset := fun _ => rfl
  add := fun o d => addData (mdImpl B cnt comp) o d
  fin := fun o => by
    refine le_bind (fill _ _ _) fun b => le_bind (fill _ _ _) fun b => le_bind (le_refl _) fun b => ?_
    exact le_bind (mdImpl B cnt comp _ _) fun _ => le_refl _
  out := fun _ => rfl

theorem block {N : Nat} {S : Type} {B : Nat} {impl implR : S → List Byte → Except Fault S}
    (hi : ∀ s d, impl s d ≼ implR s d) {init : S} {fin finR : Obj N S → Except Fault (Obj N S)}
    (hf : ∀ o, fin o ≼ finR o) {out : Obj N S → Except Fault (List Byte)} :
    Twin (blockApi B impl init fin out) (blockApiR B implR init finR out) where
  fresh := rfl
  reset := fun _ => rfl
  add := fun o d => addData hi o d
  fin := hf
  out := fun _ => rfl

theorem absorb (R : Nat) [SHA3.RateOK R] (s : SHA3.State) (d : List Byte) :
    SHA3.absorb R s d ≼ forBlocks R SHA3.body d s := by
  unfold SHA3.absorb
  split
  · exact le_error _ _
  · exact le_refl _

theorem sha3Impl (R : Nat) [SHA3.RateOK R] (s : SHA3.KState) (d : List Byte) : SHA3.impl R s d ≼ SHA3.implR R s d :=
  le_bind (absorb R s.state d) fun _ => le_refl _

theorem squeeze (R : Nat) [hR : SHA3.RateOK R] (dl : Nat) :
    ∀ fuel (s : SHA3.KState), dl - s.final.length ≤ fuel → SHA3.squeeze R dl s ≼ SHA3.squeezeR R dl fuel s := by
  have hp := hR.pos
  intro fuel
  induction fuel with
  | zero =>
    intro s h
    rw [SHA3.squeeze, SHA3.squeezeR]
    simp only []
    by_cases hl : R ≤ (SHA3.stateToVector s.state).length
    · have : (s.final ++ (SHA3.stateToVector s.state).take R).length ≥ dl := by
        rw [List.length_append]; omega
      rw [dif_pos hl, dif_pos this, if_pos hl, if_pos this]
      exact le_refl _
    · rw [dif_neg hl]
      exact le_error _ _
  | succ fuel ih =>
    intro s h
    rw [SHA3.squeeze, SHA3.squeezeR]
    simp only []
    by_cases hl : R ≤ (SHA3.stateToVector s.state).length
    · rw [dif_pos hl, if_pos hl]
      by_cases hf : (s.final ++ (SHA3.stateToVector s.state).take R).length ≥ dl
      · rw [dif_pos hf, if_pos hf]
        exact le_refl _
      · rw [dif_neg hf, if_neg hf]
        intro v e
        cases ea : SHA3.absorb R s.state (List.replicate R 0) with
        | error => rw [ea] at e; cases e
        | ok st =>
          rw [ea] at e
          unfold SHA3.implR
          rw [absorb R _ _ _ ea]
          refine ih ⟨st, _⟩ ?_ v e
          rw [List.length_append, List.length_take] at *
          omega
    · rw [dif_neg hl]
      exact le_error _ _

theorem sha3 (R : Nat) [SHA3.RateOK R] (P : Byte) (dl : Nat) : Twin (SHA3.Keccak R P dl) (SHA3.KeccakR R P dl) :=
  block (sha3Impl R) fun o => by
    refine le_bind (fill _ _ _) fun b => le_bind (fill _ _ _) fun b => ?_
    refine le_bind (le_refl _) fun _ => le_bind (le_refl _) fun b => ?_
    exact le_bind (sha3Impl R _ _) fun c => le_bind (squeeze R dl dl c (Nat.sub_le _ _)) fun _ => le_refl _

theorem md2 : Twin MD2.MD2 MD2.MD2R :=
  block (fun _ _ => le_refl _) fun _ => le_bind (fill _ _ _) fun _ => le_refl _

section
variable {w B : Nat} {C : Type}

theorem blakeImpl (c : BLAKE.Cfg w B C) (p : Nat) (s : MDState C (Vector (BitVec w) 8)) (d : List Byte) :
    BLAKE.impl c p s d ≼ BLAKE.implR c p s d := by
  unfold BLAKE.impl BLAKE.implR
  split
  · exact le_error _ _
  · exact le_refl _

theorem blakeFin (c : BLAKE.Cfg w B C) (L : Nat) (marker : Bool) (total : C → Nat → C)
    (writes : Nat → C → List (Nat × Byte)) (o : Obj (2 * B) (MDState C (Vector (BitVec w) 8))) :
    BLAKE.finalize c L marker total writes o ≼ BLAKE.finalizeR c L marker total writes o := by
  refine le_bind (fill _ _ _) fun b => le_bind (fill _ _ _) fun b => ?_
  refine le_bind (le_refl _) fun _ => le_bind (le_refl _) fun b => ?_
  exact le_bind (blakeImpl c _ _ _) fun _ => le_refl _

theorem blake32 (c : BLAKE.Cfg 32 64 W64) (marker : Bool) (iv : Vector W32 8) (words size : Nat) :
    Twin (BLAKE.api32 c marker iv words size) (BLAKE.api32R c marker iv words size) :=
  block (blakeImpl c 0) (blakeFin c _ _ _ _)

theorem blake64 (c : BLAKE.Cfg 64 128 Uint128) (marker : Bool) (iv : Vector W64 8) (words size : Nat) :
    Twin (BLAKE.api64 c marker iv words size) (BLAKE.api64R c marker iv words size) :=
  block (blakeImpl c 0) (blakeFin c _ _ _ _)

theorem blake2Impl (c : BLAKE2.Cfg w B C) (f : Bool) (p : Nat) (s : BLAKE2.State w C) (d : List Byte) :
    BLAKE2.impl c f p s d ≼ BLAKE2.implR c f p s d := by
  unfold BLAKE2.impl BLAKE2.implR
  split
  · exact le_error _ _
  · exact le_refl _

theorem blake2Tail {S : Type} {impl implR : S → List Byte → Except Fault S} (hi : ∀ s d, impl s d ≼ implR s d)
    (o : Obj B S) (d : List Byte) : BLAKE2.addDataTail B impl o d ≼ BLAKE2.addDataTailR B implR o d := by
  refine le_bind (le_refl _) fun f => le_bind (hi _ _) fun s => le_bind (ofRange _) fun b => le_refl _

theorem blake2Add {S : Type} {impl implR : S → List Byte → Except Fault S} (hi : ∀ s d, impl s d ≼ implR s d) :
    ∀ fuel (o : Obj B S) (d : List Byte), d.length ≤ fuel →
      BLAKE2.addData B impl o d ≼ BLAKE2.addDataR B implR fuel o d := by
  intro fuel
  induction fuel with
  | zero =>
    intro o d h
    have : d = [] := List.eq_nil_of_length_eq_zero (by omega)
    subst this
    rw [BLAKE2.addData, BLAKE2.addDataR]
    exact le_refl _
  | succ fuel ih =>
    intro o d h
    rw [BLAKE2.addData, BLAKE2.addDataR]
    refine le_ite (le_refl _) (le_ite ?_ (le_ite ?_ (blake2Tail hi _ _)))
    · exact le_bind (hi _ _) fun s => blake2Tail hi _ _
    · simp only []
      split
      · exact le_error _ _
      · rename_i h0
        intro v e
        cases eb : o.buffer.pushBack (d.take (min (B - o.buffer.size) d.length)) with
        | error => rw [eb] at e; cases e
        | ok b =>
          rw [eb] at e
          rw [pushBack _ _ _ eb]
          show (spanSub _ _ >>= _) = _
          unfold spanSub
          rw [if_pos (Nat.min_le_right _ _)]
          exact ih _ _ (by rw [List.length_drop]; omega) v e

theorem blake2 (c : BLAKE2.Cfg w B C) (bytesPerWord size : Nat) :
    Twin (BLAKE2.api c bytesPerWord size) (BLAKE2.apiR c bytesPerWord size) where
  fresh := rfl
  reset := fun _ => rfl
  add := fun o d => blake2Add (blake2Impl c false 0) d.length o d (Nat.le_refl _)
  fin := fun o => le_bind (fill _ _ _) fun _ => le_bind (blake2Impl c _ _ _ _) fun _ => le_refl _
  out := fun _ => rfl

end

theorem sipImpl (C : Nat) (s : SipHash.State) (d : List Byte) : SipHash.impl C s d ≼ SipHash.implR C s d := by
  unfold SipHash.impl SipHash.implR
  split
  · exact le_error _ _
  · exact le_refl _

theorem sip (C D : Nat) (key : Block 16) : Twin (SipHash.SipHashCD C D key) (SipHash.SipHashCDR C D key) where
  fresh := rfl
  reset := fun _ => rfl
  add := fun o d => addData (sipImpl C) o d
  fin := fun o => le_bind (fill _ _ _) fun _ => le_bind (fill _ _ _) fun _ => le_bind (sipImpl C _ _) fun _ => le_refl _
  out := fun _ => rfl

/-! ### cSHAKE and TupleHash -/

section
variable {R : Nat} [SHA3.RateOK R]
open CShake

theorem fillBytes (value : Nat) : ∀ n b, CShake.fillBytes value n b ≼ fillBytesR value n b := by
  intro n
  induction n with
  | zero => intro b; exact le_refl _
  | succ n ih => intro b; exact le_bind (fill _ _ _) fun b => ih b

theorem leftEncode (nb : Nat → Nat) (v : Nat) : CShake.leftEncode nb v ≼ leftEncodeR nb v :=
  le_bind (fill _ _ _) fun b => fillBytes _ _ b

theorem rightEncode (nb : Nat → Nat) (v : Nat) : CShake.rightEncode nb v ≼ rightEncodeR nb v :=
  le_bind (fillBytes _ _ _) fun b => fill _ _ _

theorem callK (op : Op) (P : Byte) (k : KObj R) : CShake.callK op P k ≼ callKR op P k :=
  le_bind (step (sha3 R P k.digestLength) k.obj op) fun _ => le_refl _

omit [SHA3.RateOK R] in
theorem onActive (o : CShake R) {f g : Byte → KObj R → Except Fault (KObj R)} (h : ∀ P k, f P k ≼ g P k) :
    CShake.onActive o f ≼ CShake.onActive o g := by
  unfold CShake.onActive
  refine le_ite ?_ ?_
  · split
    · exact le_refl _
    · exact le_bind (h _ _) fun _ => le_refl _
  · split
    · exact le_refl _
    · exact le_bind (h _ _) fun _ => le_refl _

theorem cstep (o : CShake R) (op : Op) : CShake.step o op ≼ stepR o op := by
  cases op <;> exact onActive o fun P k => callK _ P k

theorem crun (ops : List Op) : ∀ o : CShake R, CShake.run o ops ≼ runR o ops := by
  induction ops with
  | nil => intro o; exact le_refl _
  | cons op ops ih => intro o; exact le_bind (cstep o op) ih

theorem cadd (o : CShake R) (d : List Byte) : CShake.addData o d ≼ stepR o (.add d) := cstep o (.add d)

theorem processString (nb : Nat → Nat) (o : CShake R) (str : List Byte) (n : Nat) :
    CShake.processString nb o str n ≼ processStringR nb o str n :=
  le_bind (leftEncode nb _) fun _ => le_bind (cadd _ _) fun _ => le_bind (cadd _ _) fun _ => le_refl _

theorem addZeros (n : Nat) : ∀ o : CShake R, CShake.addZeros n o ≼ addZerosR n o := by
  induction n with
  | zero => intro o; exact le_refl _
  | succ n ih => intro o; exact le_bind (cadd o _) ih

theorem construct (nb : Nat → Nat) (d : Int) (name custom : List Byte) :
    CShake.construct nb R d name custom ≼ constructR nb R d name custom := by
  unfold CShake.construct constructR
  simp only []
  refine le_ite (le_refl _) ?_
  refine le_bind (le_refl _) fun k => le_bind (leftEncode nb _) fun w => le_bind (cadd _ _) fun o => ?_
  refine le_bind (processString nb _ _ _) fun (o, n) => le_bind (processString nb _ _ _) fun (o, n) => ?_
  exact addZeros _ _

theorem tconstruct (nb : Nat → Nat) (d : Int) (custom : List Byte) :
    CShake.tupleConstruct nb R d custom ≼ tupleConstructR nb R d custom :=
  le_bind (construct nb d _ custom) fun _ => le_refl _

theorem tstep (nb : Nat → Nat) (o : TupleHash R) (op : Op) : CShake.tupleStep nb o op ≼ tupleStepR nb o op := by
  cases op with
  | add d =>
    exact le_bind (leftEncode nb _) fun _ => le_bind (cadd _ _) fun _ => le_bind (cadd _ _) fun _ => le_refl _
  | reset => exact le_bind (cstep _ .reset) fun _ => le_refl _
  | finalize =>
    show CShake.tupleFinalize nb o ≼ _
    unfold CShake.tupleFinalize tupleStepR
    simp only []
    split
    · exact le_error _ _
    · exact le_bind (rightEncode nb _) fun _ => le_bind (cadd _ _) fun _ => le_bind (cstep _ .finalize) fun _ => le_refl _

theorem trun (nb : Nat → Nat) (ops : List Op) : ∀ o : TupleHash R, CShake.tupleRun nb o ops ≼ tupleRunR nb o ops := by
  induction ops with
  | nil => intro o; exact le_refl _
  | cons op ops ih => intro o; exact le_bind (tstep nb o op) ih

end
end Verif.Proof.Release
