import Verif.Proof.CShakeHeap
import Verif.Props.CShake

/-!
# C39 for cSHAKE objects, with their heap

Programs and what is in a slot afterwards: Core/OwnerStore.lean. The model of the pointers and the heap:
Model/CShakeHeap.lean.
-/

namespace Verif.Props
open Spec Model.CShake Proof.CShake
open Spec.SP800185 (ExactLog)

/-- C39: however objects are constructed, used, copied, assigned, moved and destroyed - moved-from objects
included - no pointer is followed to memory that is not allocated and nothing is freed twice. -/
theorem C39_CSHAKE_no_dangling (nb : Nat → Nat) (R : Nat) [Model.SHA3.RateOK R] (P : List CStmt) :
    (Mem.empty R).exec nb P ≠ .error .dangling := by
  intro h
  have f := mem_exec nb inv_empty (sims_empty nb) P (R := R)
  rw [h] at f
  exact f

/-- C39: two objects never share memory, and no memory is leaked: every allocated cell is pointed to by exactly
one pointer, which belongs to an existing object. -/
theorem C39_CSHAKE_one_owner (nb : Nat → Nat) (R : Nat) [Model.SHA3.RateOK R] (P : List CStmt) (m : Mem R)
    (h : (Mem.empty R).exec nb P = .ok m) (a : Nat) (ha : m.cells a ≠ none) :
    ∃ i b, m.ptr i b = some a ∧ m.customized i ≠ none ∧ ∀ j c, m.ptr j c = some a → j = i ∧ c = b := by
  have f := mem_exec nb inv_empty (sims_empty nb) P (R := R)
  rw [h] at f
  obtain ⟨v, _⟩ := f
  obtain ⟨k, hk⟩ := Option.ne_none_iff_exists'.1 ha
  obtain ⟨i, b, hp⟩ := v.owned a k hk
  refine ⟨i, b, hp, fun hn => ?_, fun j c hj => v.inj _ _ _ _ _ hj hp⟩
  rw [v.objects i hn b] at hp
  cases hp

/-- C39: after any program that ran through, an object that holds the contents that go back to a construction
and some calls, behaves from then on as a new object does on which just those calls have been made: any further
calls and the digest read after them give the same, result or fault. -/
theorem C39_CSHAKE_independent (nb : Nat → Nat) (R : Nat) [Model.SHA3.RateOK R] (P : List CStmt) (m : Mem R)
    (h : (Mem.empty R).exec nb P = .ok m) (i : Nat) (t : Origin)
    (hi : contents (fun _ => .vacant) P i = .holds t) (more : List Op) :
    (do (← m.exec nb (more.map (.call i))).toVector i) =
      lift (do toVector (← run (← construct nb R t.digestLength t.name t.customize) (t.calls ++ more))) := by
  have f := mem_exec nb inv_empty (sims_empty nb) P (R := R)
  rw [h] at f
  obtain ⟨v, g, _⟩ := f
  obtain ⟨o0, c, k, h1, h2, h3, h4⟩ := g i t hi
  have app : ∀ (o : CShake R) (xs ys : List Op), run o (xs ++ ys) = (do run (← run o xs) ys) := by
    intro o xs ys
    induction xs generalizing o with
    | nil => rfl
    | cons x xs ih =>
      show (step o x >>= fun o => run o (xs ++ ys)) = ((step o x >>= fun o => run o xs) >>= fun o => run o ys)
      cases step o x with
      | error e => rfl
      | ok o' => exact ih o'
  rw [calls_eq nb v i c k h3 h4 more, h1]
  simp only [bind, Except.bind]
  rw [app, h2]
  rfl

/-- C39: programs that keep to the rules (`LegalOwners`) run through. -/
theorem C39_CSHAKE_legal_partial (nb : Nat → Nat) (hnb : ExactLog nb) (R : Nat) [Model.SHA3.RateOK R] (h8 : R % 8 = 0)
    (P : List CStmt) (l : LegalOwners P) : ∃ m, (Mem.empty R).exec nb P = .ok m :=
  exec_progress nb (fun name custom hn hc d => C02_CSHAKE_partial nb hnb R h8 name custom hn hc d) inv_empty
    (sims_empty nb) (fun _ _ h => by cases h) P l

/-- C39 in terms of digests: the object that the program leaves in slot `i`, finalised and never reset, gives the
cSHAKE128 digest of what its own history added. -/
theorem C39_CSHAKE_128_digest_partial (nb : Nat → Nat) (hnb : ExactLog nb) (P : List CStmt) (l : LegalOwners P)
    (i : Nat) (d : Nat) (name custom : List Byte) (ops : List Op)
    (hi : contents (fun _ => .vacant) P i = .holds ⟨d, name, custom, ops ++ [.finalize]⟩)
    (hl : Legal (ops ++ [.finalize])) (hr : NoReset ops) (hn : name.length < 2 ^ 53 - 256) (hc : custom.length < 2 ^ 53 - 256) :
    ∃ m, (Mem.empty 168).exec nb P = .ok m ∧ m.toVector i = .ok (SP800185.cshake128 (message ops) d name custom) := by
  obtain ⟨m, e⟩ := C39_CSHAKE_legal_partial nb hnb 168 rfl P l
  have h := C39_CSHAKE_independent nb 168 P m e i _ hi []
  obtain ⟨o, o', e1, e2, e3⟩ := C21_CSHAKE_128_partial nb hnb name custom hn hc d ops hl hr
  refine ⟨m, e, ?_⟩
  rw [e1] at h
  simp only [bind, Except.bind, List.append_nil] at h
  rw [e2] at h
  simp only [] at h
  rw [e3] at h
  exact h

/-- the same for cSHAKE256 -/
theorem C39_CSHAKE_256_digest_partial (nb : Nat → Nat) (hnb : ExactLog nb) (P : List CStmt) (l : LegalOwners P)
    (i : Nat) (d : Nat) (name custom : List Byte) (ops : List Op)
    (hi : contents (fun _ => .vacant) P i = .holds ⟨d, name, custom, ops ++ [.finalize]⟩)
    (hl : Legal (ops ++ [.finalize])) (hr : NoReset ops) (hn : name.length < 2 ^ 53 - 256) (hc : custom.length < 2 ^ 53 - 256) :
    ∃ m, (Mem.empty 136).exec nb P = .ok m ∧ m.toVector i = .ok (SP800185.cshake256 (message ops) d name custom) := by
  obtain ⟨m, e⟩ := C39_CSHAKE_legal_partial nb hnb 136 rfl P l
  have h := C39_CSHAKE_independent nb 136 P m e i _ hi []
  obtain ⟨o, o', e1, e2, e3⟩ := C21_CSHAKE_256_partial nb hnb name custom hn hc d ops hl hr
  refine ⟨m, e, ?_⟩
  rw [e1] at h
  simp only [bind, Except.bind, List.append_nil] at h
  rw [e2] at h
  simp only [] at h
  rw [e3] at h
  exact h

/-! A program that meets the hypotheses: a customised object is copied in the middle of a message, the copy
assigned back, another one moved and destroyed. -/
def ownerProgram : List CStmt :=
  [.create 0 32 [] [7], .call 0 (.add [1]), .copyNew 0 1, .call 1 (.add [2]), .copyAssign 1 0, .call 0 (.add [3]),
    .create 2 16 [] [], .moveAssign 1 2, .moveNew 2 3, .destroy 2, .destroy 1, .call 0 .finalize, .call 3 .finalize]
example : LegalOwners ownerProgram ∧
    contents (fun _ => .vacant) ownerProgram 0 = .holds ⟨(32 : Nat), [], [7], [.add [1], .add [2], .add [3]] ++ [.finalize]⟩ ∧
    contents (fun _ => .vacant) ownerProgram 3 = .holds ⟨(32 : Nat), [], [7], [.add [1], .add [2]] ++ [.finalize]⟩ := by
  refine ⟨⟨⟨rfl, by decide, by decide, by decide⟩, ⟨_, rfl, by decide⟩, ⟨⟨_, rfl⟩, rfl⟩, ⟨_, rfl, by decide⟩,
    ⟨_, _, rfl, rfl, by simp [Origin.customized]⟩, ⟨_, rfl, by decide⟩, ⟨rfl, by decide, by decide, by decide⟩,
    ⟨⟨_, rfl⟩, by simp [contents]⟩, ⟨⟨_, rfl⟩, rfl⟩, by simp [contents], by simp [contents], ⟨_, rfl, by decide⟩,
    ⟨_, rfl, by decide⟩, trivial⟩, rfl, rfl⟩

/-! The theorems on that program. -/
section Cases
private theorem owner_legal : LegalOwners ownerProgram := by
  refine ⟨⟨rfl, by decide, by decide, by decide⟩, ⟨_, rfl, by decide⟩, ⟨⟨_, rfl⟩, rfl⟩, ⟨_, rfl, by decide⟩,
    ⟨_, _, rfl, rfl, by simp [Origin.customized]⟩, ⟨_, rfl, by decide⟩, ⟨rfl, by decide, by decide, by decide⟩,
    ⟨⟨_, rfl⟩, by simp [contents]⟩, ⟨⟨_, rfl⟩, rfl⟩, by simp [contents], by simp [contents], ⟨_, rfl, by decide⟩,
    ⟨_, rfl, by decide⟩, trivial⟩
example := C39_CSHAKE_128_digest_partial countBytes countBytes_exact ownerProgram owner_legal 0 32 [] [7]
  [.add [1], .add [2], .add [3]] rfl (by decide) (fun op h => by simp at h; rcases h with h | h | h <;> subst h <;> rfl)
  (by decide) (by decide)
example := C39_CSHAKE_256_digest_partial countBytes countBytes_exact ownerProgram owner_legal 3 32 [] [7]
  [.add [1], .add [2]] rfl (by decide) (fun op h => by simp at h; rcases h with h | h <;> subst h <;> rfl)
  (by decide) (by decide)
/-- The program leaves two objects, each of which owns a cell. -/
example : ∃ m, (Mem.empty 168).exec countBytes ownerProgram = .ok m ∧
    (∀ a, m.cells a ≠ none → ∃ i b, m.ptr i b = some a ∧ m.customized i ≠ none ∧ ∀ j c, m.ptr j c = some a → j = i ∧ c = b) ∧
    ∀ more, (do (← m.exec countBytes (more.map (.call 3))).toVector 3) = lift (do toVector (← run (← construct countBytes 168
      (32 : Nat) [] [7]) ([.add [1], .add [2], .finalize] ++ more))) := by
  obtain ⟨m, e⟩ := C39_CSHAKE_legal_partial countBytes countBytes_exact 168 rfl ownerProgram owner_legal
  exact ⟨m, e, fun a => C39_CSHAKE_one_owner countBytes 168 _ m e a,
    fun more => C39_CSHAKE_independent countBytes 168 _ m e 3 ⟨(32 : Nat), [], [7], _⟩ rfl more⟩
end Cases

end Verif.Props
