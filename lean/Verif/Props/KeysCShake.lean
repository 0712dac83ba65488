import Verif.Props.CShakeReadout

/-!
# C43 for cSHAKE and TupleHash

`==` of these classes follows a pointer, so it can fault; the theorems say that it does not for the objects that a
constructor has made, whatever was called on them since, and that it is an equivalence among them.
-/

namespace Verif.Props
open Model Model.CShake Spec SP800185
variable {R : Nat} [SHA3.RateOK R]

/-- an object that a constructor call has made and on which any calls have been made since, in any order -/
def CShakeObject (o : CShake R) : Prop :=
  ∃ nb d name custom o0 ops, construct nb R d name custom = .ok o0 ∧ CShake.run o0 ops = .ok o

/-- the same for TupleHash -/
def TupleObject (o : TupleHash R) : Prop :=
  ∃ nb d custom o0 ops, tupleConstruct nb R d custom = .ok o0 ∧ tupleRun nb o0 ops = .ok o

namespace KeysCShake

/-- the pointer in use is not null, the other one is -/
def Live (o : CShake R) : Prop :=
  (o.customized = false ∧ (∃ k, o.shake = some k) ∧ o.keccak = none) ∨
    (o.customized = true ∧ (∃ k, o.keccak = some k) ∧ o.shake = none)

theorem bindOk {α β : Type} {x : Except Fault α} {f : α → Except Fault β} {b : β} (h : x >>= f = .ok b) :
    ∃ a, x = .ok a ∧ f a = .ok b := by
  cases x with
  | error e => cases h
  | ok a => exact ⟨a, rfl, h⟩

theorem onActive_live {o o' : CShake R} (hl : Live o) {f : Byte → KObj R → Except Fault (KObj R)}
    (h : onActive o f = .ok o') : Live o' := by
  obtain ⟨c, sh, ke⟩ := o
  rcases hl with ⟨hc, ⟨k, hk⟩, hn⟩ | ⟨hc, ⟨k, hk⟩, hn⟩ <;> simp only at hc hk hn <;> subst hc hk hn
  · obtain ⟨a, _, h⟩ := bindOk h
    cases h
    exact .inl ⟨rfl, ⟨_, rfl⟩, rfl⟩
  · obtain ⟨a, _, h⟩ := bindOk h
    cases h
    exact .inr ⟨rfl, ⟨_, rfl⟩, rfl⟩

theorem step_live {o o' : CShake R} (hl : Live o) (op : Op) (h : CShake.step o op = .ok o') : Live o' := by
  cases op <;> exact onActive_live hl h

theorem run_live (ops : List Op) : ∀ (o o' : CShake R), Live o → CShake.run o ops = .ok o' → Live o' := by
  induction ops with
  | nil => intro o o' hl h; cases h; exact hl
  | cons op ops ih =>
    intro o o' hl h
    obtain ⟨a, h1, h2⟩ := bindOk h
    exact ih a o' (step_live hl op h1) h2

theorem zeros_live (n : Nat) : ∀ (o o' : CShake R), Live o → addZeros n o = .ok o' → Live o' := by
  induction n with
  | zero => intro o o' hl h; cases h; exact hl
  | succ n ih =>
    intro o o' hl h
    obtain ⟨a, h1, h2⟩ := bindOk h
    exact ih a o' (onActive_live hl h1) h2

theorem process_live {nb : Nat → Nat} {o : CShake R} (hl : Live o) {s : List Byte} {n : Nat} {r : CShake R × Nat}
    (h : processString nb o s n = .ok r) : Live r.1 := by
  obtain ⟨_, _, h⟩ := bindOk h
  obtain ⟨_, h1, h⟩ := bindOk h
  obtain ⟨a, h2, h⟩ := bindOk h
  cases h
  exact onActive_live (onActive_live hl h1) h2

theorem construct_live {nb : Nat → Nat} {d : Int} {name custom : List Byte} {o : CShake R}
    (h : construct nb R d name custom = .ok o) : Live o := by
  unfold construct at h
  dsimp only at h
  split at h
  · next hc =>
    obtain ⟨k, _, h⟩ := bindOk h
    cases h
    exact .inl ⟨hc, ⟨_, rfl⟩, rfl⟩
  · next hc =>
    obtain ⟨k, _, h⟩ := bindOk h
    have h0 : Live (⟨!(name.isEmpty && custom.isEmpty), none, some k⟩ : CShake R) :=
      .inr ⟨(Bool.not_eq_false _).mp hc, ⟨_, rfl⟩, rfl⟩
    obtain ⟨_, _, h⟩ := bindOk h
    obtain ⟨_, h1, h⟩ := bindOk h
    obtain ⟨_, h2, h⟩ := bindOk h
    obtain ⟨_, h3, h⟩ := bindOk h
    exact zeros_live _ _ _ (process_live (process_live (onActive_live h0 h1) h2) h3) h

theorem object_live {o : CShake R} (h : CShakeObject o) : Live o := by
  obtain ⟨_, _, _, _, o0, ops, h1, h2⟩ := h
  exact run_live ops o0 o (construct_live h1) h2

theorem tupleStep_live {nb : Nat → Nat} {o o' : TupleHash R} (hl : Live o.cshake) (op : Op)
    (h : tupleStep nb o op = .ok o') : Live o'.cshake := by
  cases op with
  | add d =>
    obtain ⟨_, _, h⟩ := bindOk h
    obtain ⟨_, h1, h⟩ := bindOk h
    obtain ⟨_, h2, h⟩ := bindOk h
    cases h
    exact onActive_live (onActive_live hl h1) h2
  | reset =>
    obtain ⟨_, h1, h⟩ := bindOk h
    cases h
    exact onActive_live hl h1
  | finalize =>
    simp only [tupleStep, tupleFinalize] at h
    split at h
    · obtain ⟨_, h1, _⟩ := bindOk h
      cases h1
    · obtain ⟨_, _, h⟩ := bindOk h
      obtain ⟨_, h1, h⟩ := bindOk h
      obtain ⟨_, h2, h⟩ := bindOk h
      cases h
      exact onActive_live (onActive_live hl h1) h2

theorem tupleRun_live {nb : Nat → Nat} (ops : List Op) : ∀ (o o' : TupleHash R), Live o.cshake →
    tupleRun nb o ops = .ok o' → Live o'.cshake := by
  induction ops with
  | nil => intro o o' hl h; cases h; exact hl
  | cons op ops ih =>
    intro o o' hl h
    obtain ⟨a, h1, h2⟩ := bindOk h
    exact ih a o' (tupleStep_live hl op h1) h2

theorem tupleObject_live {o : TupleHash R} (h : TupleObject o) : Live o.cshake := by
  obtain ⟨_, _, _, o0, ops, h1, h2⟩ := h
  refine tupleRun_live ops o0 o ?_ h2
  obtain ⟨_, h3, h⟩ := bindOk h1
  cases h
  exact construct_live h3

/-- what `==` looks at -/
def view (o : CShake R) : Bool × Option SHA3.State :=
  (o.customized, (if o.customized then o.keccak else o.shake).map fun k => k.obj.chain.state)

omit [SHA3.RateOK R] in
theorem eq_view {o o' : CShake R} (h : Live o) (h' : Live o') :
    CShake.eq o o' = .ok (decide (view o = view o')) := by
  obtain ⟨c, s, k⟩ := o
  obtain ⟨c', s', k'⟩ := o'
  unfold CShake.eq view
  rcases h with ⟨rfl, ⟨x, rfl⟩, _⟩ | ⟨rfl, ⟨x, rfl⟩, _⟩ <;> rcases h' with ⟨rfl, ⟨y, rfl⟩, _⟩ | ⟨rfl, ⟨y, rfl⟩, _⟩ <;>
    simp [SHA3.eq]
  all_goals
    by_cases e : x.obj.chain.state = y.obj.chain.state <;> simp [e]

omit [SHA3.RateOK R] in
theorem laws {o o' o'' : CShake R} (h : Live o) (h' : Live o') (h'' : Live o'') :
    (∃ b, CShake.eq o o' = .ok b) ∧ CShake.eq o o = .ok true ∧
      (CShake.eq o o' = .ok true → CShake.eq o' o = .ok true) ∧
      (CShake.eq o o' = .ok true → CShake.eq o' o'' = .ok true → CShake.eq o o'' = .ok true) := by
  simp only [eq_view h h', eq_view h h, eq_view h' h, eq_view h' h'', eq_view h h'', Except.ok.injEq, decide_eq_true_eq]
  exact ⟨⟨_, rfl⟩, trivial, fun e => e.symm, fun e e' => e.trans e'⟩

end KeysCShake

/-- C43: among cSHAKE objects of one class, finalised or not, whatever their names, customisations and requested
lengths: `==` answers, and it is an equivalence. -/
theorem C43_CSHAKE_equivalence (o o' o'' : CShake R) (h : CShakeObject o) (h' : CShakeObject o') (h'' : CShakeObject o'') :
    (∃ b, CShake.eq o o' = .ok b) ∧ CShake.eq o o = .ok true ∧
      (CShake.eq o o' = .ok true → CShake.eq o' o = .ok true) ∧
      (CShake.eq o o' = .ok true → CShake.eq o' o'' = .ok true → CShake.eq o o'' = .ok true) :=
  KeysCShake.laws (KeysCShake.object_live h) (KeysCShake.object_live h') (KeysCShake.object_live h'')

/-- The same among TupleHash objects of one class. -/
theorem C43_TupleHash_equivalence (o o' o'' : TupleHash R) (h : TupleObject o) (h' : TupleObject o') (h'' : TupleObject o'') :
    (∃ b, tupleEq o o' = .ok b) ∧ tupleEq o o = .ok true ∧
      (tupleEq o o' = .ok true → tupleEq o' o = .ok true) ∧
      (tupleEq o o' = .ok true → tupleEq o' o'' = .ok true → tupleEq o o'' = .ok true) :=
  KeysCShake.laws (KeysCShake.tupleObject_live h) (KeysCShake.tupleObject_live h') (KeysCShake.tupleObject_live h'')

/-- C43: finalised cSHAKE objects with the same requested length that compare equal have the same `std::hash`. -/
theorem C43_CSHAKE_partial (nb : Nat → Nat) (hnb : ExactLog nb) (h8 : R % 8 = 0)
    (name custom name' custom' : List Byte) (hn : name.length < 2 ^ 53 - 256) (hc : custom.length < 2 ^ 53 - 256)
    (hn' : name'.length < 2 ^ 53 - 256) (hc' : custom'.length < 2 ^ 53 - 256) (d : Nat) (ops ops' : List Op)
    (hl : Legal (ops ++ [.finalize])) (hl' : Legal (ops' ++ [.finalize])) :
    ∃ o o' a a', construct nb R d name custom = .ok o ∧ construct nb R d name' custom' = .ok o' ∧
      CShake.run o (ops ++ [.finalize]) = .ok a ∧ CShake.run o' (ops' ++ [.finalize]) = .ok a' ∧
      (CShake.eq a a' = .ok true → CShake.toUInt 8 a = CShake.toUInt 8 a') := by
  obtain ⟨o, o', a, a', b, e, e', r, r', q, h, _⟩ := C06_CSHAKE_partial nb hnb h8 name custom name' custom' hn hc hn' hc' d ops ops' hl hl'
  refine ⟨o, o', a, a', e, e', r, r', fun h2 => ?_⟩
  rw [q] at h2
  unfold CShake.toUInt
  rw [h (Except.ok.inj h2)]

/-- C43: the same for finalised TupleHash objects. -/
theorem C43_TupleHash_partial (nb : Nat → Nat) (hnb : ExactLog nb) (h8 : R % 8 = 0) (custom custom' : List Byte)
    (hc : custom.length < 2 ^ 53 - 256) (hc' : custom'.length < 2 ^ 53 - 256) (d : Nat) (hd : d < 2 ^ 28)
    (X X' : List (List Byte)) (hX : ∀ s ∈ X, s.length < 2 ^ 53 - 256) (hX' : ∀ s ∈ X', s.length < 2 ^ 53 - 256) :
    ∃ o o' a a', tupleConstruct nb R d custom = .ok o ∧ tupleConstruct nb R d custom' = .ok o' ∧
      tupleRun nb o (X.map .add ++ [.finalize]) = .ok a ∧ tupleRun nb o' (X'.map .add ++ [.finalize]) = .ok a' ∧
      (tupleEq a a' = .ok true → tupleToUInt 8 a = tupleToUInt 8 a') := by
  obtain ⟨o, o', a, a', b, e, e', r, r', q, h, _⟩ := C06_TupleHash_partial nb hnb h8 custom custom' hc hc' d hd X X' hX hX'
  refine ⟨o, o', a, a', e, e', r, r', fun h2 => ?_⟩
  rw [q] at h2
  unfold tupleToUInt
  rw [h (Except.ok.inj h2)]

/-- After `std::move` a cSHAKE object must not be compared: `==` follows a null pointer. -/
theorem C43_CSHAKE_moved_fails (o : CShake R) (h : CShakeObject o) :
    CShake.eq (CShake.moveConstruct o).2 (CShake.moveConstruct o).2 = .error .nullDeref := by
  rcases KeysCShake.object_live h with ⟨hc, _, hk⟩ | ⟨hc, _, hk⟩ <;>
    simp [CShake.moveConstruct, CShake.moveSwap, hc, hk, CShake.eq]

/-! Two objects that meet the hypotheses: a plain one and one on which something was called. -/
example : ∃ o : CShake 168, CShakeObject o ∧ o.customized = false := by
  exact ⟨_, ⟨fun _ => 1, 32, [], [], _, [], rfl, rfl⟩, rfl⟩

/-! A customised object after calls, a TupleHash object, and the theorems on concrete cases. -/
section Cases
private theorem cshake_object : ∃ o : CShake 168, CShakeObject o ∧ o.customized = true := by
  obtain ⟨o, o', e, e', _⟩ := C21_CSHAKE_128_partial Proof.CShake.countBytes Proof.CShake.countBytes_exact [] signature (by decide)
    (by decide +kernel) 32 [.add [1, 2]] (by decide) (fun op h => by simp at h; subst h; rfl)
  exact ⟨o', ⟨_, _, _, _, _, _, e, e'⟩, (Proof.CShake.run_shape _ _ _ (Proof.CShake.construct_shape _ _ _ _ _ e).1 e').2.trans
    ((Proof.CShake.construct_shape _ _ _ _ _ e).2.trans (by decide +kernel))⟩
private theorem tuple_object : ∃ o : TupleHash 168, TupleObject o := by
  obtain ⟨o, o', e, e', _⟩ := C22_TupleHash_128_partial Proof.CShake.countBytes Proof.CShake.countBytes_exact signature
    (by decide +kernel) 32 (by decide) [[1], []] (by decide +kernel)
  exact ⟨o', _, _, _, _, _, e, e'⟩
example := cshake_object.imp fun o h => C43_CSHAKE_equivalence o o o h.1 h.1 h.1
example := tuple_object.imp fun o h => C43_TupleHash_equivalence o o o h h h
example := cshake_object.imp fun o h => C43_CSHAKE_moved_fails o h.1
example := C43_CSHAKE_partial (R := 168) Proof.CShake.countBytes Proof.CShake.countBytes_exact rfl [] signature [0x4e] [] (by decide)
  (by decide +kernel) (by decide) (by decide) 32 someCalls someResets (by decide +kernel) (by decide +kernel)
example := C43_TupleHash_partial (R := 136) Proof.CShake.countBytes Proof.CShake.countBytes_exact rfl [] signature (by decide)
  (by decide +kernel) 32 (by decide) [[1], [2, 3]] [[1, 2], [], [3]] (by decide +kernel) (by decide +kernel)
end Cases

end Verif.Props
