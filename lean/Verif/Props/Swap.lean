import Verif.Props.CShakeHeap
import Verif.Props.MovesTuple

/-!
# C39: `std::swap` of cSHAKE and TupleHash objects

`std::swap`, and so `std::sort`, `std::vector::erase` and the like, use nothing but the move members of cshake.h.
-/

namespace Verif.Props
open Spec Model.CShake Proof.CShake

/-- `std::swap` of the objects in slots `i` and `j`: `T t = std::move(a); a = std::move(b); b = std::move(t);`, and the
end of `t`. Not in /repo: the standard library. -/
def swapObjects (i j t : Nat) : List CStmt := [.moveNew i t, .moveAssign j i, .moveAssign t j, .destroy t]

/-- The digest read from the object in slot `i` after further calls on it. Not in /repo: the user's program. -/
def later (nb : Nat → Nat) {R : Nat} [Model.SHA3.RateOK R] (m : Mem R) (i : Nat) (more : List Op) :
    Except HeapFault (List Byte) := do (← m.exec nb (more.map (.call i))).toVector i

section
variable {R : Nat} [Model.SHA3.RateOK R] (nb : Nat → Nat)

private theorem moveNew_runs {m : Mem R} {i j : Nat} (hi : m.customized i ≠ none) (hj : m.customized j = none) :
    ∃ m', m.step nb (.moveNew i j) = .ok m' := by
  obtain ⟨c, hc⟩ := flag_isSome hi
  exact ⟨_, by simp only [Mem.step, vacant_of hj, flag_of hc, bind, Except.bind, pure, Except.pure]; rfl⟩

private theorem moveAssign_runs {m : Mem R} {i j : Nat} (hi : m.customized i ≠ none) (hj : m.customized j ≠ none) :
    ∃ m', m.step nb (.moveAssign i j) = .ok m' := by
  obtain ⟨c, hc⟩ := flag_isSome hi
  obtain ⟨c', hc'⟩ := flag_isSome hj
  by_cases e : i = j
  · exact ⟨_, by simp only [Mem.step, flag_of hc, flag_of hc', bind, Except.bind, e, if_true, pure, Except.pure]; rfl⟩
  · exact ⟨_, by simp only [Mem.step, flag_of hc, flag_of hc', bind, Except.bind, e, if_false, pure, Except.pure]; rfl⟩

private theorem destroy_runs {m : Mem R} (v : Inv m) {i : Nat} (hi : m.customized i ≠ none) :
    ∃ m', m.step nb (.destroy i) = .ok m' := by
  obtain ⟨c, hc⟩ := flag_isSome hi
  obtain ⟨m1, e1, v1, _⟩ := free_ok v i true
  obtain ⟨m2, e2, _⟩ := free_ok v1 i false
  exact ⟨_, by simp only [Mem.step, flag_of hc, bind, Except.bind, e1, e2, pure, Except.pure]; rfl⟩

private theorem swap_runs {m : Mem R} {K : Nat → Content} (v : Inv m) (g : Sims nb K m) {i j t : Nat}
    (hi : K i ≠ .vacant) (hj : K j ≠ .vacant) (ht : K t = .vacant) : ∃ m', m.exec nb (swapObjects i j t) = .ok m' := by
  have it : i ≠ t := fun e => hi (e ▸ ht)
  have jt : j ≠ t := fun e => hj (e ▸ ht)
  have next : ∀ {m : Mem R} {K : Nat → Content} (st : CStmt) (P : List CStmt), Inv m → Sims nb K m →
      (∃ m', m.step nb st = .ok m') →
      (∀ m' : Mem R, Inv m' → Sims nb (contents K [st]) m' → ∃ m'', m'.exec nb P = .ok m'') →
      ∃ m', m.exec nb (st :: P) = .ok m' := fun {m K} st P v g ⟨m', e⟩ h => by
    have f := mem_step nb v g st
    rw [e] at f
    obtain ⟨m'', e'⟩ := h m' f.1 f.2
    exact ⟨m'', by unfold Mem.exec; rw [e]; exact e'⟩
  refine next _ _ v g (moveNew_runs nb (fun h => hi ((g.2 i).2 h)) ((g.2 t).1 ht)) fun m v g => ?_
  refine next _ _ v g (moveAssign_runs nb (fun h => ?_) (fun h => ?_)) fun m v g => ?_
  · have := (g.2 j).2 h
    simp only [contents, jt, if_false] at this
    split at this
    · cases this
    · exact hj this
  · have := (g.2 i).2 h
    simp [contents, it] at this
  refine next _ _ v g (moveAssign_runs nb (fun h => ?_) (fun h => ?_)) fun m v g => ?_
  · have := (g.2 t).2 h
    simp [contents, it.symm, jt.symm] at this
    exact hi this
  · have := (g.2 j).2 h
    simp only [contents, jt, if_false] at this
    split at this <;> simp at this
  refine next _ _ v g (destroy_runs nb v (fun h => ?_)) fun m _ _ => ⟨m, rfl⟩
  have := (g.2 t).2 h
  simp [contents, jt.symm] at this

end

/-- C39: after any program that ran through, `std::swap` of two objects that were not moved from - a customised one
and a plain one, or an object and itself, included - makes each behave from then on as the other would have done,
and changes nothing for any other object. -/
theorem C39_CSHAKE_swap (nb : Nat → Nat) (R : Nat) [Model.SHA3.RateOK R] (P : List CStmt) (m : Mem R)
    (h : (Mem.empty R).exec nb P = .ok m) (i j t : Nat) (a b : Origin)
    (hi : contents (fun _ => .vacant) P i = .holds a) (hj : contents (fun _ => .vacant) P j = .holds b)
    (ht : contents (fun _ => .vacant) P t = .vacant) :
    ∃ m', m.exec nb (swapObjects i j t) = .ok m' ∧ (∀ more, later nb m' i more = later nb m j more) ∧
      (∀ more, later nb m' j more = later nb m i more) ∧
      ∀ k c, contents (fun _ => .vacant) P k = .holds c → k ≠ i → k ≠ j →
        ∀ more, later nb m' k more = later nb m k more := by
  have f := mem_exec nb inv_empty (sims_empty nb) P (R := R)
  rw [h] at f
  obtain ⟨v, g⟩ := f
  obtain ⟨m', e⟩ := swap_runs nb v g (by rw [hi]; simp) (by rw [hj]; simp) ht
  have app : ∀ (m : Mem R) (P Q : List CStmt), m.exec nb (P ++ Q) = (do (← m.exec nb P).exec nb Q) := by
    intro m P Q
    induction P generalizing m with
    | nil => rfl
    | cons x P ih =>
      show (m.step nb x >>= fun m => m.exec nb (P ++ Q)) = ((m.step nb x >>= fun m => m.exec nb P) >>= fun m => m.exec nb Q)
      cases m.step nb x with
      | error e => rfl
      | ok m' => exact ih m'
  have e' : (Mem.empty R).exec nb (P ++ swapObjects i j t) = .ok m' := by rw [app, h]; exact e
  have it : i ≠ t := fun e => by rw [e, ht] at hi; cases hi
  have jt : j ≠ t := fun e => by rw [e, ht] at hj; cases hj
  have cs : ∀ (K : Nat → Content) (P Q : List CStmt), contents K (P ++ Q) = contents (contents K P) Q := by
    intro K P Q
    induction P generalizing K with
    | nil => rfl
    | cons x P ih => cases x <;> exact ih _
  have same : ∀ k k' c, contents (fun _ => .vacant) P k = .holds c →
      contents (fun _ => .vacant) (P ++ swapObjects i j t) k' = .holds c →
      ∀ more, later nb m' k' more = later nb m k more := fun k k' c h1 h2 more =>
    (C39_CSHAKE_independent nb R _ m' e' k' c h2 more).trans (C39_CSHAKE_independent nb R P m h k c h1 more).symm
  refine ⟨m', e, same j i b hj ?_, same i j a hi ?_, fun k c hk ki kj => same k k c hk ?_⟩
  · rw [cs]
    by_cases ij : i = j
    · simp [swapObjects, contents, ij, jt, jt.symm, hj]
    · simp [swapObjects, contents, it, jt, ij, Ne.symm ij, hj]
  · rw [cs]
    simp [swapObjects, contents, it, it.symm, jt, jt.symm, hi]
  · have kt : k ≠ t := fun e => by rw [e, ht] at hk; cases hk
    rw [cs]
    simp [swapObjects, contents, ki, kj, kt, hk]

/-- A customised object in the middle of a message and a finalised plain one are swapped. -/
example : ∃ m m' : Mem 168, (Mem.empty 168).exec countBytes [.create 0 32 [] [7], .call 0 (.add [1]), .create 1 16 [] [],
      .call 1 .finalize] = .ok m ∧
    m.exec countBytes (swapObjects 0 1 2) = .ok m' ∧ (∀ more, later countBytes m' 0 more = later countBytes m 1 more) ∧
    ∀ more, later countBytes m' 1 more = later countBytes m 0 more := by
  obtain ⟨m, e⟩ := C39_CSHAKE_legal_partial countBytes countBytes_exact 168 rfl
    [.create 0 32 [] [7], .call 0 (.add [1]), .create 1 16 [] [], .call 1 .finalize]
    ⟨⟨rfl, by decide, by decide, by decide⟩, ⟨_, rfl, by decide⟩, ⟨rfl, by decide, by decide, by decide⟩,
      ⟨_, rfl, by decide⟩, trivial⟩
  obtain ⟨m', e', h1, h2, _⟩ := C39_CSHAKE_swap countBytes 168 _ m e 0 1 2 _ _ rfl rfl rfl
  exact ⟨m, m', e, e', h1, h2⟩

section Tuple
open Model.TupleStore
open Spec.SP800185 (ExactLog)

/-- `std::swap` of two TupleHash objects; not in /repo: the standard library -/
def swapTuples (i j t : Nat) : List TStmt := [.moveNew i t, .moveAssign j i, .moveAssign t j, .destroy t]

/-- C39: `std::swap` exchanges two TupleHash objects and leaves all others as they are. (For the sizes of C22, C29.) -/
theorem C39_TupleHash_swap_partial (nb : Nat → Nat) (hnb : ExactLog nb) (R : Nat) [Model.SHA3.RateOK R] (h8 : R % 8 = 0)
    (P : List TStmt) (l : LegalTuples P) (i j t : Nat) (ij : i ≠ j) (d d' : Int) (c c' : List Byte) (calls calls' : List Op)
    (hi : tcontents P i = .holds d c calls) (hj : tcontents P j = .holds d' c' calls') (ht : tcontents P t = .vacant) :
    ∃ s s' o o', execT nb R (fun _ => none) P = .ok s ∧ execT nb R (fun _ => none) (P ++ swapTuples i j t) = .ok s' ∧
      s i = some o ∧ s j = some o' ∧ s' i = some o' ∧ s' j = some o ∧
      ∀ k e x m, tcontents P k = .holds e x m → k ≠ i → k ≠ j → s' k = s k := by
  have it : i ≠ t := fun e => by rw [e, ht] at hi; cases hi
  have jt : j ≠ t := fun e => by rw [e, ht] at hj; cases hj
  have cs : ∀ (P Q : List TStmt) (K : Nat → TContent), tcontentsFrom K (P ++ Q) = tcontentsFrom (tcontentsFrom K P) Q := by
    intro P Q
    induction P with
    | nil => intro K; rfl
    | cons x P ih => intro K; exact ih _
  have ls : ∀ (P Q : List TStmt) (K : Nat → TContent), legalTuplesFrom K P → legalTuplesFrom (tcontentsFrom K P) Q →
      legalTuplesFrom K (P ++ Q) := by
    intro P Q
    induction P with
    | nil => intro K _ h; exact h
    | cons x P ih => intro K h h'; exact ⟨h.1, ih _ h.2 h'⟩
  have at' : ∀ k, tcontents (P ++ swapTuples i j t) k = tcontentsFrom (tcontents P) (swapTuples i j t) k := fun k =>
    congrFun (cs P _ _) k
  have l' : LegalTuples (P ++ swapTuples i j t) := by
    refine ls P _ _ l ?_
    show legalTuplesFrom (tcontents P) (swapTuples i j t)
    refine ⟨⟨⟨_, _, _, hi⟩, ht⟩, ⟨⟨d', c', calls', ?_⟩, ?_⟩, ⟨⟨d, c, calls, ?_⟩, ?_⟩, ?_, trivial⟩
    all_goals simp [afterStmt, it, it.symm, jt, jt.symm, ij, ij.symm, hi, hj]
  obtain ⟨s, e, g⟩ := C39_TupleHash_partial nb hnb R h8 P l
  obtain ⟨s', e', g'⟩ := C39_TupleHash_partial nb hnb R h8 _ l'
  have same : ∀ k k' d c calls, tcontents P k = .holds d c calls →
      tcontents (P ++ swapTuples i j t) k' = .holds d c calls → ∃ o, s k = some o ∧ s' k' = some o := by
    intro k k' d c calls h h'
    have a := g k
    have b := g' k'
    rw [h] at a; rw [h'] at b
    obtain ⟨o0, o, a1, a2, a3⟩ := a
    obtain ⟨p0, p, b1, b2, b3⟩ := b
    cases Except.ok.inj (a2.symm.trans b2)
    cases Except.ok.inj (a3.symm.trans b3)
    exact ⟨o, a1, b1⟩
  obtain ⟨o, o1, o2⟩ := same i j _ _ _ hi (by
    rw [at']; simp [swapTuples, tcontentsFrom, afterStmt, it, it.symm, jt, jt.symm, hi])
  obtain ⟨o', p1, p2⟩ := same j i _ _ _ hj (by
    rw [at']; simp [swapTuples, tcontentsFrom, afterStmt, it, jt, ij, ij.symm, hj])
  refine ⟨s, s', o, o', e, e', o1, p1, p2, o2, fun k a x m hk ki kj => ?_⟩
  have kt : k ≠ t := fun e => by rw [e, ht] at hk; cases hk
  obtain ⟨q, q1, q2⟩ := same k k _ _ _ hk (by rw [at']; simp [swapTuples, tcontentsFrom, afterStmt, ki, kj, kt, hk])
  rw [q1, q2]

example := C39_TupleHash_swap_partial countBytes countBytes_exact 168 rfl [.create 0 32 [7], .call 0 (.add [1, 2]),
  .create 1 8 []] ⟨⟨rfl, by decide, by decide, by decide⟩, ⟨⟨_, _, _, rfl, by decide⟩, by intro x h; cases h; decide⟩,
    ⟨rfl, by decide, by decide, by decide⟩, trivial⟩ 0 1 2 (by decide) _ _ _ _ _ _ rfl rfl rfl

end Tuple

end Verif.Props
