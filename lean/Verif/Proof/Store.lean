import Verif.Core.Store

namespace Verif.Proof.Store

variable {O : Type} (A : API O)

theorem run_snoc (o : O) (ops : List Op) (op : Op) :
    A.run o (ops ++ [op]) = (A.run o ops >>= fun o' => A.step o' op) := by
  induction ops generalizing o with
  | nil =>
    show (A.step o op >>= fun o' => Except.ok o') = A.step o op
    cases A.step o op <;> rfl
  | cons x xs ih =>
    show (A.step o x >>= fun o' => A.run o' (xs ++ [op])) = ((A.step o x >>= fun o' => A.run o' xs) >>= _)
    cases A.step o x with
    | error e => rfl
    | ok o' => exact ih o'

/-- every slot is in the state its history leads to -/
def Good (H : Nat → Option (List Op)) (s : Nat → Option O) : Prop :=
  ∀ i, match H i with
    | none => s i = none
    | some ops => ∃ o, s i = some o ∧ A.run A.fresh ops = .ok o

theorem exec_good (safe : A.Safe) (P : List Stmt) (H : Nat → Option (List Op)) (s : Nat → Option O)
    (g : Good A H s) (l : legalProgramFrom H P) :
    ∃ s', A.exec s P = .ok s' ∧ Good A (histories H P) s' := by
  induction P generalizing H s with
  | nil => exact ⟨s, rfl, g⟩
  | cons st P ih =>
    cases st with
    | new j =>
      refine ih _ _ (fun i => ?_) l
      by_cases h : i = j
      · simp only [h, if_true]; exact ⟨_, rfl, rfl⟩
      · simp only [h, if_false]; exact g i
    | call i op =>
      obtain ⟨⟨ops, hi, lo⟩, l⟩ := l
      have gi := g i
      rw [hi] at gi
      obtain ⟨o, so, ro⟩ := gi
      obtain ⟨o', ro'⟩ := safe _ lo
      have so' : A.step o op = .ok o' := by
        rw [run_snoc, ro] at ro'
        exact ro'
      simp only [API.exec, so, so', histories]
      refine ih _ _ (fun k => ?_) l
      by_cases h : k = i
      · simp only [h, if_true, hi, Option.map_some]; exact ⟨o', rfl, ro'⟩
      · simp only [h, if_false]; exact g k
    | copy i j =>
      obtain ⟨hi, l⟩ := l
      obtain ⟨ops, hi⟩ := Option.isSome_iff_exists.1 hi
      have gi := g i
      rw [hi] at gi
      obtain ⟨o, so, ro⟩ := gi
      simp only [API.exec, so, histories]
      refine ih _ _ (fun k => ?_) l
      by_cases h : k = j
      · simp only [h, if_true, hi]; exact ⟨o, rfl, ro⟩
      · simp only [h, if_false]; exact g k

theorem copies (safe : A.Safe) : A.CopiesIndependent := fun P l =>
  exec_good A safe P _ _ (fun _ => rfl) l

end Verif.Proof.Store
