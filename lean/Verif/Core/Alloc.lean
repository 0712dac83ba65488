import Verif.Core.Misuse

/-!
# Calls that may run out of memory

Of the hash classes only `Keccak` and the classes built on it allocate memory (they keep the digest in a
`std::vector`); of their calls only `finalize()` does. `operator new` may throw `std::bad_alloc`; a caller
may catch it and go on using the object.
-/

namespace Verif

/-- Which of the allocations a call makes fail: `fails n` is about the allocation number `n` of that call.
This allows more failures than there are: where a `std::vector` has enough room, no memory is allocated. Not in /repo. -/
structure Supply where
  fails : Nat → Bool
  /-- what a `std::vector` holds after a copy assignment to it that threw: the C++ standard only promises that
  it is some vector -/
  left : List Byte

/-- the supply that never fails; not in /repo -/
def Supply.Plenty (f : Supply) : Prop := ∀ n, f.fails n = false

/-- A call returned, or threw `std::bad_alloc`; either way with the object (or memory) it leaves. Not in /repo. -/
inductive Outcome (O : Type) where
  | done (o : O)
  | threw (o : O)
  deriving DecidableEq

/-- the object left; not in /repo -/
def Outcome.left {O : Type} : Outcome O → O
  | .done o => o
  | .threw o => o

/-- A hash class together with what `finalize()` does when allocations fail. sha3.h:218, 334. -/
structure AllocAPI (O : Type) extends API O where
  finalizeA : Supply → O → Except Fault (Outcome O)

namespace AllocAPI
variable {O : Type} (A : AllocAPI O)

/-- One call, given which of its allocations fail. Not in /repo. -/
def stepA (o : O) : Op × Supply → Except Fault (Outcome O)
  | (.finalize, f) => A.finalizeA f o
  | (op, _) => do return .done (← A.step o op)

/-- A history of calls by a caller who catches `std::bad_alloc` and goes on with the next call. Not in /repo. -/
def runA (o : O) : List (Op × Supply) → Except Fault O
  | [] => .ok o
  | c :: cs => do
    let r ← A.stepA o c
    runA r.left cs

/-- A `finalize()` that returns has done what it does when there is memory; with enough memory it does return. Not in
/repo. -/
def ThrowsOrWorks : Prop :=
  ∀ (f : Supply) (o : O), (∀ o', A.finalizeA f o = .ok (.done o') → A.finalize o = .ok o') ∧
    (f.Plenty → ∀ o', A.finalize o = .ok o' → A.finalizeA f o = .ok (.done o'))

/-- Whatever is called in whatever order and whichever allocations fail, no call faults, and the digest can be
read. Not in /repo. -/
def SurvivesNoMemory : Prop :=
  ∀ calls : List (Op × Supply), AnyOrder (calls.map (·.1)) →
    ∃ o d, A.runA A.fresh calls = .ok o ∧ A.toArray o = .ok d

/-- Whatever happened, after `reset()` the object is as new. Not in /repo. -/
def ResetRepairsNoMemory : Prop :=
  ∀ (before after : List (Op × Supply)) (f : Supply), AnyOrder (before.map (·.1)) →
    A.runA A.fresh (before ++ (.reset, f) :: after) = A.runA A.fresh after

end AllocAPI
end Verif
