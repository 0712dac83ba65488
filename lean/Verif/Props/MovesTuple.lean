import Verif.Model.TupleStore
import Verif.Props.CShake

/-!
# C39: copying and moving TupleHash objects
-/

namespace Verif.Props
open Model.CShake Model.TupleStore Spec Spec.SP800185 Proof.CShake
open Model.SHA3 (RateOK)

namespace TMoves
variable {R : Nat} [RateOK R] {nb : Nat → Nat}

/-- what a slot must contain -/
def Holds (nb : Nat → Nat) (R : Nat) [RateOK R] : TContent → Option (TupleHash R) → Prop
  | .vacant, s => s = none
  | .movedFrom, s => ∃ o, s = some o ∧ o.cshake.shake = none
  | .holds d c calls, s => ∃ o0 o k, s = some o ∧ tupleConstruct nb R d c = .ok o0 ∧ tupleRun nb o0 calls = .ok o ∧
      o.cshake = ⟨true, none, some k⟩ ∧ 0 ≤ d ∧ d < 2 ^ 28 ∧ c.length < 2 ^ 53 - 256 ∧
      ∀ x, Op.add x ∈ calls → x.length < 2 ^ 53 - 256

def Good (nb : Nat → Nat) (R : Nat) [RateOK R] (K : Nat → TContent) (s : Nat → Option (TupleHash R)) : Prop :=
  ∀ i, Holds nb R (K i) (s i)

theorem tupleRun_snoc (o : TupleHash R) (ops : List Op) (op : Op) :
    tupleRun nb o (ops ++ [op]) = (tupleRun nb o ops >>= fun o' => tupleStep nb o' op) := by
  induction ops generalizing o with
  | nil =>
    show (tupleStep nb o op >>= fun o' => Except.ok o') = tupleStep nb o op
    cases tupleStep nb o op <;> rfl
  | cons x xs ih =>
    show (tupleStep nb o x >>= fun o' => tupleRun nb o' (xs ++ [op])) =
      ((tupleStep nb o x >>= fun o' => tupleRun nb o' xs) >>= _)
    cases tupleStep nb o x with
    | error e => rfl
    | ok o' => exact ih o'

theorem Good.set {K : Nat → TContent} {s : Nat → Option (TupleHash R)} (g : Good nb R K s) (j : Nat) {c o}
    (h : Holds nb R c o) : Good nb R (fun k => if k = j then c else K k) (fun k => if k = j then o else s k) := by
  intro k
  by_cases e : k = j
  · simp only [e, if_true]; exact h
  · simp only [e, if_false]; exact g k

theorem Good.some {K : Nat → TContent} {s : Nat → Option (TupleHash R)} (g : Good nb R K s) {j : Nat}
    (h : K j ≠ .vacant) : ∃ o, s j = some o ∧ o.cshake.shake = none := by
  have := g j
  cases e : K j with
  | vacant => exact absurd e h
  | movedFrom => rw [e] at this; exact this
  | holds d c calls =>
    rw [e] at this
    obtain ⟨_, o, k, h1, _, _, h4, _⟩ := this
    exact ⟨o, h1, by rw [h4]⟩

theorem bindOk {α β : Type} {x : Except Fault α} {f : α → Except Fault β} {b : β} (h : (x >>= f) = .ok b) :
    ∃ a, x = .ok a ∧ f a = .ok b := by
  cases x with
  | error e => cases h
  | ok a => exact ⟨a, rfl, h⟩

theorem shape_of (hnb : ExactLog nb) {d : Int} (h0 : 0 ≤ d) (hd : d < 2 ^ 28) {c : List Byte} {calls : List Op}
    (hs : Small calls) {o0 o : TupleHash R} (hc : tupleConstruct nb R d c = .ok o0) (hr : tupleRun nb o0 calls = .ok o) :
    ∃ k, o.cshake = ⟨true, none, some k⟩ := by
  obtain ⟨x, hx, e⟩ := bindOk hc
  cases e
  obtain ⟨n, rfl⟩ := Int.eq_ofNat_of_zero_le h0
  have hn : n < 2 ^ 28 := by omega
  have hr' := (tupleRun_calls nb hnb n hn x calls hs).symm.trans hr
  obtain ⟨y, hy, e⟩ := bindOk hr'
  cases e
  obtain ⟨sx, cx⟩ := construct_shape nb _ _ _ _ hx
  obtain ⟨⟨b, k, rfl⟩, cy⟩ := run_shape _ _ _ sx hy
  rw [mk_customized, cx] at cy
  have : b = true := by rw [cy, show Model.CShake.tupleHashName.isEmpty = false from by decide +kernel]; rfl
  subst this
  exact ⟨k, rfl⟩

theorem made (hnb : ExactLog nb) (h8 : R % 8 = 0) {d : Int} (h0 : 0 ≤ d) (hd : d < 2 ^ 28) {c : List Byte}
    (hc : c.length < 2 ^ 53 - 256) : ∃ o0, tupleConstruct nb R d c = .ok o0 ∧
      ∀ calls, Legal calls → Small calls → ∃ o, tupleRun nb o0 calls = .ok o := by
  obtain ⟨n, rfl⟩ := Int.eq_ofNat_of_zero_le h0
  obtain ⟨o, e, f⟩ := C02_TupleHash_partial nb hnb R h8 c hc n (by omega)
  exact ⟨o, e, f⟩

theorem Good.holds {K : Nat → TContent} {s : Nat → Option (TupleHash R)} (g : Good nb R K s) {i d c calls}
    (h : K i = .holds d c calls) : Holds nb R (.holds d c calls) (s i) := by rw [← h]; exact g i

theorem step_good (hnb : ExactLog nb) (h8 : R % 8 = 0) {K : Nat → TContent} {s : Nat → Option (TupleHash R)}
    (g : Good nb R K s) (st : TStmt) (P : List TStmt) (l : legalTuplesFrom K (st :: P)) :
    ∃ s', execStmt nb R s st = .ok s' ∧ Good nb R (afterStmt K st) s' := by
  obtain ⟨l, -⟩ := l
  cases st with
  | create j d c =>
    obtain ⟨_, h0, hd, hc⟩ := l
    obtain ⟨o0, e0, _⟩ := made (R := R) hnb h8 h0 hd hc
    obtain ⟨k, hk⟩ := shape_of (R := R) hnb h0 hd (calls := []) (fun _ h => by cases h) e0 rfl
    exact ⟨_, by simp only [execStmt, e0]; rfl,
      g.set j (c := .holds d c []) ⟨o0, o0, k, rfl, e0, rfl, hk, h0, hd, hc, fun _ h => by cases h⟩⟩
  | call i op =>
    obtain ⟨⟨d, c, calls, hi, lo⟩, hx⟩ := l
    obtain ⟨o0, o, k, so, e0, ro, hk, h0, hd, hc, hs⟩ := g.holds hi
    have hs' : Small (calls ++ [op]) := by
      intro x h
      rcases List.mem_append.1 h with h | h
      · exact hs x h
      · exact hx x (by simpa using (List.mem_singleton.1 h).symm)
    obtain ⟨o1, e1, f⟩ := made (R := R) hnb h8 h0 hd hc
    cases Except.ok.inj (e0.symm.trans e1)
    obtain ⟨o', ro'⟩ := f _ lo hs'
    have so' : tupleStep nb o op = .ok o' := by
      rw [tupleRun_snoc, ro] at ro'
      exact ro'
    obtain ⟨k', hk'⟩ := shape_of (R := R) hnb h0 hd hs' e0 ro'
    refine ⟨_, by simp only [execStmt, so, so']; rfl, ?_⟩
    have := g.set i (c := .holds d c (calls ++ [op])) ⟨o0, o', k', rfl, e0, ro', hk', h0, hd, hc, hs'⟩
    simpa only [afterStmt, hi, TContent.after] using this
  | copyNew i j =>
    obtain ⟨⟨d, c, calls, hi⟩, _⟩ := l
    have hh := g.holds hi
    obtain ⟨o0, o, k, so, e0, ro, hk, rest⟩ := hh
    have e : tupleCopy o = .ok o := by
      unfold tupleCopy; rw [hk]
      obtain ⟨oc, od⟩ := o
      cases hk
      rfl
    refine ⟨_, by simp only [execStmt, so, e]; rfl, ?_⟩
    have := g.set j (c := .holds d c calls) (o := some o) ⟨o0, o, k, rfl, e0, ro, hk, rest⟩
    simpa only [afterStmt, hi] using this
  | copyAssign i j =>
    obtain ⟨⟨d, c, calls, hi⟩, ⟨d', c', calls', hj⟩⟩ := l
    obtain ⟨o0, o, k, so, e0, ro, hk, rest⟩ := g.holds hi
    obtain ⟨_, t, k', st, _, _, hk', _⟩ := g.holds hj
    by_cases hij : i = j
    · subst hij
      refine ⟨s, by simp only [execStmt, so, if_true], fun n => ?_⟩
      by_cases e : n = i
      · subst e; simp only [afterStmt, if_true]; exact g n
      · simp only [afterStmt, e, if_false]; exact g n
    · have e : tupleCopyAssign t o = .ok o := by
        obtain ⟨oc, od⟩ := o
        obtain ⟨tc, td⟩ := t
        cases hk
        cases hk'
        rfl
      refine ⟨_, by simp only [execStmt, so, st, if_neg hij, e]; rfl, ?_⟩
      have := g.set j (c := .holds d c calls) (o := some o) ⟨o0, o, k, rfl, e0, ro, hk, rest⟩
      simpa only [afterStmt, hi] using this
  | moveNew i j =>
    obtain ⟨⟨d, c, calls, hi⟩, _⟩ := l
    obtain ⟨o0, o, k, so, e0, ro, hk, rest⟩ := g.holds hi
    obtain ⟨oc, od⟩ := o
    cases hk
    refine ⟨_, by simp only [execStmt, so]; rfl, ?_⟩
    have := (g.set i (c := .movedFrom) (o := some ⟨⟨false, none, none⟩, od⟩) ⟨_, rfl, rfl⟩).set j (c := .holds d c calls)
      (o := some ⟨⟨true, none, some k⟩, od⟩) ⟨o0, _, k, rfl, e0, ro, rfl, rest⟩
    simp only [afterStmt, hi]
    exact this
  | moveAssign i j =>
    obtain ⟨⟨d, c, calls, hi⟩, hj⟩ := l
    obtain ⟨o0, o, k, so, e0, ro, hk, rest⟩ := g.holds hi
    obtain ⟨t, st, ht⟩ := g.some hj
    by_cases hij : i = j
    · subst hij
      refine ⟨s, by simp only [execStmt, so, if_true], fun n => ?_⟩
      by_cases e : n = i
      · subst e; simp only [afterStmt, if_true]; exact g n
      · simp only [afterStmt, e, if_false]; exact g n
    · obtain ⟨oc, od⟩ := o
      obtain ⟨⟨tc, tsh, tk⟩, td⟩ := t
      cases hk
      cases ht
      refine ⟨_, by simp only [execStmt, so, st, if_neg hij]; rfl, ?_⟩
      have := (g.set i (c := .movedFrom) (o := some ⟨⟨tc, none, tk⟩, od⟩) ⟨_, rfl, rfl⟩).set j (c := .holds d c calls)
        (o := some ⟨⟨true, none, some k⟩, od⟩) ⟨o0, _, k, rfl, e0, ro, rfl, rest⟩
      simp only [afterStmt, hi]
      exact this
  | destroy i =>
    obtain ⟨o, so, _⟩ := g.some l
    exact ⟨_, by simp only [execStmt, so], g.set i (c := .vacant) (o := none) rfl⟩

theorem exec_good (hnb : ExactLog nb) (h8 : R % 8 = 0) (P : List TStmt) : ∀ (K : Nat → TContent)
    (s : Nat → Option (TupleHash R)), Good nb R K s → legalTuplesFrom K P →
    ∃ s', execT nb R s P = .ok s' ∧ Good nb R (tcontentsFrom K P) s' := by
  induction P with
  | nil => intro K s g _; exact ⟨s, rfl, g⟩
  | cons st P ih =>
    intro K s g l
    obtain ⟨s1, e1, g1⟩ := step_good hnb h8 g st P l
    obtain ⟨s2, e2, g2⟩ := ih _ _ g1 l.2
    exact ⟨s2, by simp only [execT, e1]; exact e2, g2⟩

end TMoves

/-- C39: TupleHash objects may be copied, assigned and moved in any order, but a copy must not be assigned to an
object that has been moved from. Every object that has not been moved from is in the state that its own history gives
to an object used alone. (For the sizes of C22, C29.) -/
theorem C39_TupleHash_partial (nb : Nat → Nat) (hnb : ExactLog nb) (R : Nat) [RateOK R] (h8 : R % 8 = 0) (P : List TStmt)
    (l : LegalTuples P) : ∃ s, execT nb R (fun _ => none) P = .ok s ∧
      ∀ i, match tcontents P i with
        | .vacant => s i = none
        | .movedFrom => ∃ o, s i = some o
        | .holds d c calls => ∃ o0 o, s i = some o ∧ tupleConstruct nb R d c = .ok o0 ∧ tupleRun nb o0 calls = .ok o := by
  obtain ⟨s, e, g⟩ := TMoves.exec_good hnb h8 P (fun _ => .vacant) (fun _ => none) (fun _ => rfl) l
  refine ⟨s, e, fun i => ?_⟩
  have := g i
  unfold tcontents
  cases h : tcontentsFrom (fun _ => .vacant) P i with
  | vacant => rw [h] at this; exact this
  | movedFrom => rw [h] at this; obtain ⟨o, e, _⟩ := this; exact ⟨o, e⟩
  | holds d c calls => rw [h] at this; obtain ⟨o0, o, _, e1, e2, e3, _⟩ := this; exact ⟨o0, o, e1, e2, e3⟩

/-- C39 in terms of digests. -/
theorem C39_TupleHash_128_digest_partial (nb : Nat → Nat) (hnb : ExactLog nb) (P : List TStmt) (l : LegalTuples P)
    (i d : Nat) (custom : List Byte) (X : List (List Byte))
    (hi : tcontents P i = .holds d custom (X.map .add ++ [.finalize])) (hc : custom.length < 2 ^ 53 - 256) (hd : d < 2 ^ 28)
    (hX : ∀ s ∈ X, s.length < 2 ^ 53 - 256) :
    ∃ s o, execT nb 168 (fun _ => none) P = .ok s ∧ s i = some o ∧
      tupleToVector o = .ok (SP800185.tupleHash128 X d custom) := by
  obtain ⟨s, e, g⟩ := C39_TupleHash_partial nb hnb 168 rfl P l
  have gi := g i
  rw [hi] at gi
  obtain ⟨o0, o, so, e0, ro⟩ := gi
  obtain ⟨o1, o2, e1, e2, t⟩ := C22_TupleHash_128_partial nb hnb custom hc d hd X hX
  cases Except.ok.inj (e0.symm.trans e1)
  cases Except.ok.inj (ro.symm.trans e2)
  exact ⟨s, o, e, so, t⟩

theorem C39_TupleHash_256_digest_partial (nb : Nat → Nat) (hnb : ExactLog nb) (P : List TStmt) (l : LegalTuples P)
    (i d : Nat) (custom : List Byte) (X : List (List Byte))
    (hi : tcontents P i = .holds d custom (X.map .add ++ [.finalize])) (hc : custom.length < 2 ^ 53 - 256) (hd : d < 2 ^ 28)
    (hX : ∀ s ∈ X, s.length < 2 ^ 53 - 256) :
    ∃ s o, execT nb 136 (fun _ => none) P = .ok s ∧ s i = some o ∧
      tupleToVector o = .ok (SP800185.tupleHash256 X d custom) := by
  obtain ⟨s, e, g⟩ := C39_TupleHash_partial nb hnb 136 rfl P l
  have gi := g i
  rw [hi] at gi
  obtain ⟨o0, o, so, e0, ro⟩ := gi
  obtain ⟨o1, o2, e1, e2, t⟩ := C22_TupleHash_256_partial nb hnb custom hc d hd X hX
  cases Except.ok.inj (e0.symm.trans e1)
  cases Except.ok.inj (ro.symm.trans e2)
  exact ⟨s, o, e, so, t⟩

/-- C39 is false for assigning a copy to an object that has been moved from: `T b = std::move(a); a = c;` dereferences
a null pointer. Assigning with `a = std::move(c);` is fine. -/
theorem C39_TupleHash_assign_moved_fails (nb : Nat → Nat) (hnb : ExactLog nb) (R : Nat) [RateOK R] (h8 : R % 8 = 0) :
    execT nb R (fun _ => none) [.create 0 32 [], .create 1 32 [], .moveNew 0 2, .copyAssign 1 0] = .error .nullDeref ∧
    ∃ s, execT nb R (fun _ => none) [.create 0 32 [], .create 1 32 [], .moveNew 0 2, .moveAssign 1 0] = .ok s := by
  obtain ⟨o0, e0, _⟩ := TMoves.made (nb := nb) (R := R) hnb h8 (d := 32) (by decide) (by decide) (c := []) (by decide)
  obtain ⟨k, hk⟩ := TMoves.shape_of (R := R) hnb (d := 32) (by decide) (by decide) (calls := []) (fun _ h => by cases h) e0 rfl
  obtain ⟨oc, od⟩ := o0
  cases hk
  constructor
  · simp only [execT, execStmt, e0]; rfl
  · exact ⟨_, by simp only [execT, execStmt, e0]; rfl⟩

/-- C39: the same for cSHAKE, whatever the objects were used for. -/
theorem C39_CSHAKE_assign_moved_fails (nb : Nat → Nat) {R : Nat} [RateOK R] (a c : CShake R) (ha : Reached nb a)
    (hc : Reached nb c) : copyAssign (moveConstruct a).2 c = .error .nullDeref ∧
      (moveSwap (moveConstruct a).2 c).1 = c := by
  obtain ⟨b, k, rfl⟩ := reached_shape nb a ha
  obtain ⟨b', k', rfl⟩ := reached_shape nb c hc
  cases b <;> cases b' <;> exact ⟨rfl, rfl⟩

/-! A program that meets the hypotheses. -/
def tupleProgram : List TStmt :=
  [.create 0 32 [7], .call 0 (.add [1, 2]), .copyNew 0 1, .call 1 (.add []), .moveNew 0 2, .moveAssign 1 0, .create 3 8 [],
    .copyAssign 2 3, .moveAssign 0 0, .destroy 1, .call 0 .finalize, .call 3 .finalize]
example : LegalTuples tupleProgram ∧
    tcontents tupleProgram 0 = .holds (32 : Nat) [7] ([[1, 2], []].map .add ++ [.finalize]) ∧
    tcontents tupleProgram 3 = .holds (32 : Nat) [7] ([[1, 2]].map .add ++ [.finalize]) := by
  refine ⟨⟨⟨rfl, by decide, by decide, by decide⟩, ⟨⟨_, _, _, rfl, by decide⟩, by intro x h; cases h; decide⟩,
    ⟨⟨_, _, _, rfl⟩, rfl⟩, ⟨⟨_, _, _, rfl, by decide⟩, by intro x h; cases h; decide⟩, ⟨⟨_, _, _, rfl⟩, rfl⟩,
    ⟨⟨_, _, _, rfl⟩, by simp [afterStmt]⟩, ⟨rfl, by decide, by decide, by decide⟩, ⟨⟨_, _, _, rfl⟩, ⟨_, _, _, rfl⟩⟩,
    ⟨⟨_, _, _, rfl⟩, by simp [afterStmt, TContent.after]⟩, by simp [afterStmt],
    ⟨⟨_, _, _, rfl, by decide⟩, by intro x h; cases h⟩, ⟨⟨_, _, _, rfl, by decide⟩, by intro x h; cases h⟩, trivial⟩, rfl, rfl⟩

/-! The theorems on that program, and on two objects that a program can hold. -/
section Cases
open Proof.CShake (countBytes countBytes_exact)
private theorem tupleProgram_legal : LegalTuples tupleProgram :=
  ⟨⟨rfl, by decide, by decide, by decide⟩, ⟨⟨_, _, _, rfl, by decide⟩, by intro x h; cases h; decide⟩,
    ⟨⟨_, _, _, rfl⟩, rfl⟩, ⟨⟨_, _, _, rfl, by decide⟩, by intro x h; cases h; decide⟩, ⟨⟨_, _, _, rfl⟩, rfl⟩,
    ⟨⟨_, _, _, rfl⟩, by simp [afterStmt]⟩, ⟨rfl, by decide, by decide, by decide⟩, ⟨⟨_, _, _, rfl⟩, ⟨_, _, _, rfl⟩⟩,
    ⟨⟨_, _, _, rfl⟩, by simp [afterStmt, TContent.after]⟩, by simp [afterStmt],
    ⟨⟨_, _, _, rfl, by decide⟩, by intro x h; cases h⟩, ⟨⟨_, _, _, rfl, by decide⟩, by intro x h; cases h⟩, trivial⟩
example := C39_TupleHash_partial countBytes countBytes_exact 168 rfl tupleProgram tupleProgram_legal
example := C39_TupleHash_128_digest_partial countBytes countBytes_exact tupleProgram tupleProgram_legal 0 32 [7] [[1, 2], []]
  rfl (by decide) (by decide) (by decide)
example := C39_TupleHash_256_digest_partial countBytes countBytes_exact tupleProgram tupleProgram_legal 3 32 [7] [[1, 2]]
  rfl (by decide) (by decide) (by decide)
example := C39_TupleHash_assign_moved_fails countBytes countBytes_exact 168 rfl
example : ∃ a c : CShake 168, Reached countBytes a ∧ Reached countBytes c := by
  obtain ⟨o, o', e, e', _⟩ := C21_CSHAKE_128_partial countBytes countBytes_exact [] [7] (by decide) (by decide) 32 [.add [1]]
    (by decide) (fun op h => by simp at h; subst h; rfl)
  exact ⟨o', o, ⟨_, _, _, _, _, e, e'⟩, ⟨_, _, _, _, [], e, rfl⟩⟩
end Cases

end Verif.Props
