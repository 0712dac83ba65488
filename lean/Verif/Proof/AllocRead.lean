import Verif.Model.AllocRead
import Verif.Proof.Alloc
import Verif.Proof.CShakeAny

namespace Verif.Proof.AllocRead
open Model Model.SHA3 Model.CShake Proof.SHA3 Proof.Misuse Proof.CShake Proof.Alloc

variable {R : Nat} [hR : RateOK R]

/-- what a call on the object in use leaves -/
def wrap (c : Bool) (dl : Nat) : Outcome (Obj R KState) → Outcome (CShake R)
  | .done x => .done (mk c ⟨dl, x⟩)
  | .threw x => .threw (mk c ⟨dl, x⟩)

theorem stepA_mk (c : Bool) (dl : Nat) (x : Obj R KState) (p : Op × Supply) :
    CShake.stepA (mk c ⟨dl, x⟩) p = (do return wrap c dl (← (KeccakA R (padOf c) dl).stepA x p)) := by
  cases c
  · simp only [CShake.stepA, onActiveA, callA, mk, padOf, Bool.false_eq_true, if_false, if_true]
    generalize (KeccakA R 0x1F dl).stepA x _ = e
    rcases e with _ | ⟨_ | _⟩ <;> rfl
  · simp only [CShake.stepA, onActiveA, callA, mk, padOf, Bool.true_eq_false, if_false, if_true]
    generalize (KeccakA R 0x04 dl).stepA x _ = e
    rcases e with _ | ⟨_ | _⟩ <;> rfl

omit hR in
theorem wrap_left (c : Bool) (dl : Nat) (r : Outcome (Obj R KState)) : (wrap c dl r).left = mk c ⟨dl, r.left⟩ := by
  cases r <;> rfl

theorem runA_mk (c : Bool) (dl : Nat) : ∀ (cs : List (Op × Supply)) (x : Obj R KState),
    CShake.runA (mk c ⟨dl, x⟩) cs = (do return mk c ⟨dl, ← (KeccakA R (padOf c) dl).runA x cs⟩)
  | [], _ => rfl
  | p :: cs, x => by
    show (CShake.stepA (mk c ⟨dl, x⟩) p >>= fun r => CShake.runA r.left cs) = _
    rw [stepA_mk]
    show _ = (((KeccakA R (padOf c) dl).stepA x p >>= fun r => (KeccakA R (padOf c) dl).runA r.left cs) >>= _)
    cases (KeccakA R (padOf c) dl).stepA x p with
    | error _ => rfl
    | ok r =>
      simp only [bind, Except.bind, pure, Except.pure]
      rw [wrap_left]
      exact runA_mk c dl cs r.left

omit hR in
theorem readActive_mk {α : Type} (c : Bool) (k : KObj R) (g : Obj R KState → Except Fault α) :
    readActive (mk c k) g = g k.obj := by cases c <;> rfl

/-- an object on which every call works -/
def Usable (c : Bool) (dl : Nat) (o : CShake R) : Prop := ∃ x, o = mk c ⟨dl, x⟩ ∧ Room R (fun _ => True) x

theorem usable_stepA {c : Bool} {dl : Nat} {o : CShake R} (h : Usable c dl o) (p : Op × Supply)
    (hd : ∀ d, p.1 = .add d → d.length < 2 ^ 64) : ∃ r, CShake.stepA o p = .ok r ∧ Usable c dl r.left := by
  obtain ⟨x, rfl, h⟩ := h
  obtain ⟨r, e, h'⟩ := stepA_room (padOf c) dl p x h hd
  refine ⟨wrap c dl r, by rw [stepA_mk, e]; rfl, ?_⟩
  rw [wrap_left]
  exact ⟨_, rfl, h'⟩

theorem usable_step {c : Bool} {dl : Nat} {o : CShake R} (h : Usable c dl o) (op : Op)
    (hd : ∀ d, op = .add d → d.length < 2 ^ 64) : ∃ o', CShake.step o op = .ok o' ∧ Usable c dl o' := by
  obtain ⟨x, rfl, h⟩ := h
  rw [step_mk]
  obtain ⟨y, e, h'⟩ : ∃ y, (Keccak R (padOf c) dl).step x op = .ok y ∧ Room R (fun _ => True) y := by
    cases op with
    | add d => exact (sha3Total R (padOf c) dl).add x d h (hd d rfl)
    | reset => exact ⟨_, rfl, (sha3Total R (padOf c) dl).reset x h⟩
    | finalize => exact (sha3Total R (padOf c) dl).fin x h
  rw [e]
  exact ⟨_, rfl, y, rfl, h'⟩

theorem usable_runA {c : Bool} {dl : Nat} : ∀ (cs : List (Op × Supply)) {o : CShake R}, Usable c dl o →
    AnyOrder (cs.map (·.1)) → ∃ o', CShake.runA o cs = .ok o' ∧ Usable c dl o'
  | [], o, h, _ => ⟨o, rfl, h⟩
  | p :: cs, o, h, ha => by
    obtain ⟨r, e, h'⟩ := usable_stepA h p (fun d hd => ha d (by simp [hd]))
    obtain ⟨o', e', h''⟩ := usable_runA cs h' (fun d hd => ha d (by simp at hd ⊢; exact .inr hd))
    refine ⟨o', ?_, h''⟩
    show (CShake.stepA o p >>= fun r => CShake.runA r.left cs) = _
    rw [e]; exact e'

theorem runA_append (xs ys : List (Op × Supply)) (o : CShake R) :
    CShake.runA o (xs ++ ys) = (do CShake.runA (← CShake.runA o xs) ys) := by
  induction xs generalizing o with
  | nil => rfl
  | cons x xs ih =>
    show (CShake.stepA o x >>= fun r => CShake.runA r.left (xs ++ ys)) = ((CShake.stepA o x >>= fun r => CShake.runA r.left xs) >>= _)
    cases CShake.stepA o x with
    | error e => rfl
    | ok r => exact ih r.left

theorem tupleRunA_append (nb : Nat → Nat) (xs ys : List (Op × Supply)) (o : TupleHash R) :
    tupleRunA nb o (xs ++ ys) = (do tupleRunA nb (← tupleRunA nb o xs) ys) := by
  induction xs generalizing o with
  | nil => rfl
  | cons x xs ih =>
    show (tupleStepA nb o x >>= fun r => tupleRunA nb r.left (xs ++ ys)) =
      ((tupleStepA nb o x >>= fun r => tupleRunA nb r.left xs) >>= _)
    cases tupleStepA nb o x with
    | error e => rfl
    | ok r => exact ih r.left

/-- a step that returns normally is the ordinary step; with enough memory it does -/
theorem stepA_step (o : CShake R) (f : Supply) (op : Op) :
    (∀ o', CShake.stepA o (op, f) = .ok (.done o') → CShake.step o op = .ok o') ∧
      (f.Plenty → ∀ o', CShake.step o op = .ok o' → CShake.stepA o (op, f) = .ok (.done o')) := by
  have hs : CShake.step o op = onActive o (callK op) := by cases op <;> rfl
  rw [hs]
  unfold CShake.stepA onActiveA onActive
  have key : ∀ (P : Byte) (k : KObj R), (∀ k', callA f op P k = .ok (.done k') → callK op P k = .ok k') ∧
      (f.Plenty → ∀ k', callK op P k = .ok k' → callA f op P k = .ok (.done k')) := by
    intro P k
    refine ⟨fun k' h => callA_done f op P k k' h, fun hp k' h => ?_⟩
    unfold callK at h
    cases e : (Keccak R P k.digestLength).step k.obj op with
    | error _ => rw [e] at h; cases h
    | ok x =>
      rw [e] at h
      have h := Except.ok.inj h
      subst h
      have e' : (KeccakA R P k.digestLength).stepA k.obj (op, f) = .ok (.done x) := by
        cases op with
        | finalize => exact (throwsOrWorks P k.digestLength f k.obj).2 hp x e
        | reset => exact congrArg (fun x => Except.ok (Outcome.done x)) (Except.ok.inj e)
        | add d =>
          show ((Keccak R P k.digestLength).addData k.obj d >>= fun x => Except.ok (Outcome.done x)) = _
          have e : (Keccak R P k.digestLength).addData k.obj d = .ok x := e
          rw [e]; rfl
      unfold callA
      rw [e']; rfl
  by_cases hc : o.customized = false
  · rw [if_pos hc, if_pos hc]
    cases o.shake with
    | none => exact ⟨fun _ h => (by cases h), fun _ _ h => by cases h⟩
    | some k =>
      simp only []
      obtain ⟨k1, k2⟩ := key 0x1F k
      constructor
      · intro o' h
        cases e : callA f op 0x1F k with
        | error _ => rw [e] at h; cases h
        | ok r =>
          rw [e] at h
          cases r with
          | threw _ => cases h
          | done k' => cases h; rw [k1 k' e]; rfl
      · intro hp o' h
        cases e : callK op 0x1F k with
        | error _ => rw [e] at h; cases h
        | ok k' => rw [e] at h; cases h; rw [k2 hp k' e]; rfl
  · rw [if_neg hc, if_neg hc]
    cases o.keccak with
    | none => exact ⟨fun _ h => (by cases h), fun _ _ h => by cases h⟩
    | some k =>
      simp only []
      obtain ⟨k1, k2⟩ := key 0x04 k
      constructor
      · intro o' h
        cases e : callA f op 0x04 k with
        | error _ => rw [e] at h; cases h
        | ok r =>
          rw [e] at h
          cases r with
          | threw _ => cases h
          | done k' => cases h; rw [k1 k' e]; rfl
      · intro hp o' h
        cases e : callK op 0x04 k with
        | error _ => rw [e] at h; cases h
        | ok k' => rw [e] at h; cases h; rw [k2 hp k' e]; rfl

theorem tupleStepA_step (nb : Nat → Nat) (o : TupleHash R) (f : Supply) (op : Op) :
    (∀ o', tupleStepA nb o (op, f) = .ok (.done o') → tupleStep nb o op = .ok o') ∧
      (f.Plenty → ∀ o', tupleStep nb o op = .ok o' → tupleStepA nb o (op, f) = .ok (.done o')) := by
  have same : ∀ e : Except Fault (TupleHash R), (∀ o', (e >>= fun x => Except.ok (Outcome.done x)) = .ok (.done o') → e = .ok o') ∧
      (f.Plenty → ∀ o', e = .ok o' → (e >>= fun x => Except.ok (Outcome.done x)) = .ok (.done o')) := by
    intro e
    cases e with
    | error _ => exact ⟨fun _ h => (by cases h), fun _ _ h => by cases h⟩
    | ok x => exact ⟨fun _ h => (by cases h; rfl), fun _ _ h => by cases h; rfl⟩
  cases op with
  | add d => exact same _
  | reset => exact same _
  | finalize =>
    show (∀ o', tupleFinalizeA nb f o = .ok (.done o') → tupleFinalize nb o = .ok o') ∧
      (f.Plenty → ∀ o', tupleFinalize nb o = .ok o' → tupleFinalizeA nb f o = .ok (.done o'))
    unfold tupleFinalizeA tupleFinalize
    dsimp only
    by_cases hv : ¬(-2 ^ 31 ≤ o.digestLength * 8 ∧ o.digestLength * 8 < 2 ^ 31)
    · rw [if_pos hv, if_pos hv]
      exact ⟨fun _ h => (by cases h), fun _ _ h => by cases h⟩
    rw [if_neg hv, if_neg hv]
    cases rightEncode nb (BitVec.ofInt 64 (o.digestLength * 8)).toNat with
    | error _ => exact ⟨fun _ h => (by cases h), fun _ _ h => by cases h⟩
    | ok b =>
      simp only [bind, Except.bind, pure, Except.pure]
      cases Model.CShake.addData o.cshake b.contents with
      | error _ => exact ⟨fun _ h => (by cases h), fun _ _ h => by cases h⟩
      | ok c =>
        simp only []
        obtain ⟨k1, k2⟩ := stepA_step c f .finalize
        constructor
        · intro o' h
          cases e : CShake.stepA c (.finalize, f) with
          | error _ => rw [e] at h; cases h
          | ok r =>
            rw [e] at h
            cases r with
            | threw _ => cases h
            | done c' =>
              cases h
              have k : CShake.finalize c = .ok c' := k1 c' e
              rw [k]
        · intro hp o' h
          cases e : CShake.finalize c with
          | error _ => rw [e] at h; cases h
          | ok c' => rw [e] at h; cases h; rw [k2 hp c' e]

/-- a TupleHash object on which every call works -/
theorem tuple_usable (nb : Nat → Nat) (hnb : Spec.SP800185.ExactLog nb) (dl : Nat) (hd : dl < 2 ^ 28) {c : Bool} {o : CShake R}
    (h : Usable c dl o) (p : Op × Supply) (hs : ∀ d, p.1 = .add d → d.length < 2 ^ 53 - 256) :
    ∃ r, tupleStepA nb ⟨o, dl⟩ p = .ok r ∧ r.left.digestLength = dl ∧ Usable c dl r.left.cshake := by
  obtain ⟨op, f⟩ := p
  cases op with
  | add d =>
    have hlen := hs d rfl
    obtain ⟨b, e, hb⟩ := leftEncode_holds nb hnb (8 * d.length) (by omega) (by omega)
    obtain ⟨o1, e1, h1⟩ := usable_step h (.add (Spec.SP800185.leftEncode (8 * d.length)))
      (fun d' h => by cases h; exact leftEncode_short _ (by omega))
    obtain ⟨o2, e2, h2⟩ := usable_step h1 (.add d) (fun d' h => by cases h; omega)
    have e1 : Model.CShake.addData o (Spec.SP800185.leftEncode (8 * d.length)) = .ok o1 := e1
    have e2 : Model.CShake.addData o1 d = .ok o2 := e2
    refine ⟨.done ⟨o2, dl⟩, ?_, rfl, h2⟩
    simp only [tupleStepA, tupleStep, nextData]
    rw [Nat.mod_eq_of_lt (by omega), Nat.mul_comm, e]
    simp only [bind, Except.bind, hb.2, e1, e2, pure, Except.pure]
  | reset =>
    obtain ⟨o1, e1, h1⟩ := usable_step h .reset (fun d' h => by cases h)
    have e1 : Model.CShake.reset o = .ok o1 := e1
    refine ⟨.done ⟨o1, dl⟩, ?_, rfl, h1⟩
    simp only [tupleStepA, tupleStep, tupleReset, bind, Except.bind, e1, pure, Except.pure]
  | finalize =>
    obtain ⟨b, e, hb⟩ := rightEncode_holds nb hnb (8 * dl) (by omega) (by omega)
    obtain ⟨o1, e1, h1⟩ := usable_step h (.add (Spec.SP800185.rightEncode (8 * dl)))
      (fun d' h => by cases h; exact rightEncode_short _ (by omega))
    have e1 : Model.CShake.addData o (Spec.SP800185.rightEncode (8 * dl)) = .ok o1 := e1
    obtain ⟨r, e2, h2⟩ := usable_stepA h1 (.finalize, f) (fun d h => by cases h)
    have hv : (BitVec.ofInt 64 ((dl : Int) * 8)).toNat = 8 * dl := by
      rw [show ((dl : Int) * 8) = ((8 * dl : Nat) : Int) by omega, BitVec.ofInt_natCast, BitVec.toNat_ofNat,
        Nat.mod_eq_of_lt (by omega)]
    have : ∀ r', tupleFinalizeA nb f ⟨o, dl⟩ = .ok r' ↔
        r' = (match r with | .done c => .done ⟨c, dl⟩ | .threw c => .threw ⟨c, dl⟩) := by
      intro r'
      unfold tupleFinalizeA
      dsimp only
      rw [if_neg (by omega), hv, e]
      simp only [bind, Except.bind, hb.2, e1, e2, pure, Except.pure]
      cases r <;> simp only [Except.ok.injEq] <;> exact eq_comm
    refine ⟨_, (this _).2 rfl, ?_, ?_⟩
    · cases r <;> rfl
    · cases r <;> exact h2

theorem tuple_runA (nb : Nat → Nat) (hnb : Spec.SP800185.ExactLog nb) (dl : Nat) (hd : dl < 2 ^ 28) {c : Bool} :
    ∀ (cs : List (Op × Supply)) {o : CShake R}, Usable c dl o →
      (∀ d, Op.add d ∈ cs.map (·.1) → d.length < 2 ^ 53 - 256) →
      ∃ o', tupleRunA nb ⟨o, dl⟩ cs = .ok ⟨o', dl⟩ ∧ Usable c dl o'
  | [], o, h, _ => ⟨o, rfl, h⟩
  | p :: cs, o, h, ha => by
    obtain ⟨r, e, hl, h'⟩ := tuple_usable nb hnb dl hd h p (fun d hd => ha d (by simp [hd]))
    obtain ⟨o', e', h''⟩ := tuple_runA nb hnb dl hd cs h' (fun d hd => ha d (by simp at hd ⊢; exact .inr hd))
    refine ⟨o', ?_, h''⟩
    show (tupleStepA nb ⟨o, dl⟩ p >>= fun r => tupleRunA nb r.left cs) = _
    rw [e]
    have hr : r.left = ⟨r.left.cshake, dl⟩ := by
      rw [← hl]
    show tupleRunA nb r.left cs = _
    rw [hr]
    exact e'

/-! ### What a failed `finalize()` leaves -/

theorem retry_mk (h8 : R % 8 = 0) (c : Bool) (dl : Nat) (x : Obj R KState) (m : List Byte) (h : Rel R (den R) x m) (f : Supply) :
    (f.fails 0 = true → ∃ o', CShake.stepA (mk c ⟨dl, x⟩) (.finalize, f) = .ok (.threw o')) ∧
    ∀ o', CShake.stepA (mk c ⟨dl, x⟩) (.finalize, f) = .ok (.threw o') → ∃ x', o' = mk c ⟨dl, x'⟩ ∧
      ∃ k, (k = 0 ∨ k * R < dl) ∧ ∀ pieces : List (List Byte), (∀ p ∈ pieces, p.length < 2 ^ 64) →
      ∃ z, (Keccak R (padOf c) dl).run x' (pieces.map .add ++ [.finalize]) = .ok z ∧ z.chain.final =
        Spec.Keccak.bytes (Spec.Keccak.sponge (8 * R) (Spec.Keccak.bits m ++ CShakeAny.sufOf c) (8 * (k * R))) ++
        Spec.Keccak.bytes (Spec.Keccak.sponge (8 * R) (Spec.Keccak.bits (m ++ padBytes R (padOf c) m.length ++
          List.replicate (k * R) 0 ++ pieces.flatten) ++ CShakeAny.sufOf c) (8 * (dl - k * R))) := by
  rw [stepA_mk]
  show (_ → ∃ o', (finalizeA R (padOf c) dl f x >>= fun r => Except.ok (wrap c dl r)) = _) ∧
    ∀ o', (finalizeA R (padOf c) dl f x >>= fun r => Except.ok (wrap c dl r)) = _ → _
  constructor
  · intro hf
    obtain ⟨x', e⟩ := can_throw (padOf c) dl f hf x (rel_room h)
    rw [e]
    exact ⟨_, rfl⟩
  · intro o' ht
    cases e : finalizeA R (padOf c) dl f x with
    | error _ => rw [e] at ht; cases ht
    | ok r =>
      rw [e] at ht
      cases r with
      | done _ => cases ht
      | threw x' =>
        cases ht
        obtain ⟨k, hk, hx⟩ := retry h8 (padOf c) _ (CShakeAny.isSuffix c) dl f x x' m h e
        exact ⟨x', rfl, k, hk, hx⟩

/-- the calls that a tuple makes on the cSHAKE object, as pieces -/
theorem tuple_pieces (dl : Nat) (hd : dl < 2 ^ 28) (Y : List (List Byte)) (hY : ∀ s ∈ Y, s.length < 2 ^ 53 - 256) :
    ∃ pieces : List (List Byte), (∀ p ∈ pieces, p.length < 2 ^ 64) ∧
      calls dl (Y.map .add ++ [.finalize]) = pieces.map .add ++ [.finalize] ∧
      pieces.flatten = Spec.SP800185.tupleInput Y dl := by
  refine ⟨Y.flatMap (fun d => [Spec.SP800185.leftEncode (8 * d.length), d]) ++ [Spec.SP800185.rightEncode (8 * dl)], ?_, ?_, ?_⟩
  · intro p hp
    rcases List.mem_append.mp hp with hp | hp
    · obtain ⟨s, hs, hp⟩ := List.mem_flatMap.mp hp
      have := hY s hs
      simp only [List.mem_cons, List.not_mem_nil, or_false] at hp
      rcases hp with rfl | rfl
      · exact leftEncode_short _ (by omega)
      · omega
    · simp only [List.mem_cons, List.not_mem_nil, or_false] at hp
      subst hp
      exact rightEncode_short _ (by omega)
  · rw [calls_adds, List.map_append, List.map_flatMap]
    rfl
  · rw [List.flatten_append]
    unfold Spec.SP800185.tupleInput
    congr 1
    · induction Y with
      | nil => rfl
      | cons d Y ih =>
        rw [List.flatMap_cons, List.flatten_append, ih (fun s hs => hY s (by simp [hs])), List.flatMap_cons]
        simp [Spec.SP800185.encodeString]
    · simp

theorem tuple_adds (nb : Nat → Nat) (hnb : Spec.SP800185.ExactLog nb) (h8 : R % 8 = 0) (dl : Nat) (hd : dl < 2 ^ 28) :
    ∀ (X : List (List Byte)), (∀ s ∈ X, s.length < 2 ^ 53 - 256) → ∀ (x : Obj R KState) (m : List Byte),
      (Proof.SHA3.refines R h8 0x04 _ Proof.SHA3.suffix_cshake dl).R x m →
      ∃ y, tupleRun nb ⟨mk true ⟨dl, x⟩, dl⟩ (X.map .add) = .ok ⟨mk true ⟨dl, y⟩, dl⟩ ∧
        (Proof.SHA3.refines R h8 0x04 _ Proof.SHA3.suffix_cshake dl).R y (m ++ X.flatMap Spec.SP800185.encodeString)
  | [], _, x, m, h => ⟨x, rfl, by simpa using h⟩
  | s :: X, hX, x, m, h => by
    have hlen := hX s (by simp)
    obtain ⟨b, e, hb⟩ := leftEncode_holds nb hnb (8 * s.length) (by omega) (by omega)
    obtain ⟨x1, e1, h1⟩ := addData_mk true dl _ x m (Spec.SP800185.leftEncode (8 * s.length)) h (leftEncode_short _ (by omega))
    obtain ⟨x2, e2, h2⟩ := addData_mk true dl _ x1 _ s h1 (by omega)
    obtain ⟨y, ey, hy⟩ := tuple_adds nb hnb h8 dl hd X (fun t ht => hX t (by simp [ht])) x2 _ h2
    refine ⟨y, ?_, ?_⟩
    · rw [← ey]
      simp only [List.map_cons, tupleRun, tupleStep, nextData]
      rw [Nat.mod_eq_of_lt (by omega), Nat.mul_comm, e]
      simp only [bind, Except.bind, hb.2, e1, e2, pure, Except.pure]
    · simpa [Spec.SP800185.encodeString] using hy

theorem tuple_fin (nb : Nat → Nat) (hnb : Spec.SP800185.ExactLog nb) (h8 : R % 8 = 0) (dl : Nat) (hd : dl < 2 ^ 28)
    (x : Obj R KState) (m : List Byte) (h : Rel R (den R) x m) :
    ∃ y, Rel R (den R) y (m ++ Spec.SP800185.rightEncode (8 * dl)) ∧ ∀ f,
      tupleFinalizeA nb f ⟨mk true ⟨dl, x⟩, dl⟩ = (do
        match ← CShake.stepA (mk true ⟨dl, y⟩) (.finalize, f) with
        | .done c => return .done ⟨c, dl⟩
        | .threw c => return .threw ⟨c, dl⟩) := by
  obtain ⟨b, e, hb⟩ := rightEncode_holds nb hnb (8 * dl) (by omega) (by omega)
  obtain ⟨y, e1, h1⟩ := addData_mk true dl (Proof.SHA3.refines R h8 0x04 _ Proof.SHA3.suffix_cshake dl) x m
    (Spec.SP800185.rightEncode (8 * dl)) h (rightEncode_short _ (by omega))
  refine ⟨y, h1, fun f => ?_⟩
  have hv : (BitVec.ofInt 64 ((dl : Int) * 8)).toNat = 8 * dl := by
    rw [show ((dl : Int) * 8) = ((8 * dl : Nat) : Int) by omega, BitVec.ofInt_natCast, BitVec.toNat_ofNat,
      Nat.mod_eq_of_lt (by omega)]
  unfold tupleFinalizeA
  dsimp only
  rw [if_neg (by omega), hv, e]
  simp only [bind, Except.bind, hb.2, e1]
  rfl

end Verif.Proof.AllocRead
