import Verif.Core.Basic

/-! # `for` loops and the software 128-bit counter -/

namespace Verif

/-- `for (t = lo; t < hi; ++t) body` on a local state; the body gets the bounds on `t`, which is
what the array accesses in the loop bodies need. For example sha2_256.h:496-499. -/
def forRange {α : Type} (lo hi : Nat) (init : α)
    (body : (t : Nat) → lo ≤ t → t < hi → α → α) : α :=
  Nat.fold (hi - lo) (fun i h s => body (lo + i) (by omega) (by omega) s) init

/-- Loop invariant rule. -/
theorem forRange_inv {α : Type} {lo hi : Nat} (hle : lo ≤ hi) {init : α}
    {body : (t : Nat) → lo ≤ t → t < hi → α → α} (P : Nat → α → Prop)
    (h0 : P lo init) (hs : ∀ t h1 h2 s, P t s → P (t + 1) (body t h1 h2 s)) :
    P hi (forRange lo hi init body) := by
  unfold forRange
  have : ∀ n (hn : n ≤ hi - lo),
      P (lo + n) (Nat.fold n (fun i h s => body (lo + i) (by omega) (by omega) s) init) := by
    intro n
    induction n with
    | zero => intro _; exact h0
    | succ n ih =>
      intro hn
      rw [Nat.fold_succ]
      exact hs (lo + n) (by omega) (by omega) _ (ih (by omega))
  have h := this (hi - lo) (Nat.le_refl _)
  rwa [Nat.add_sub_cancel' hle] at h

/-- `class Uint128` (sha2_512.h:175-237; same text in blake1_384.h, blake1_512.h, blake2.h,
sha2_384.h, sha2_512_224.h, sha2_512_256.h, whirlpool.h). -/
structure Uint128 where
  lo : W64 := 0
  hi : W64 := 0
  deriving DecidableEq

namespace Uint128

/-- `operator+=(uint64_t n)` (sha2_512.h:212-220). -/
def add (x : Uint128) (n : W64) : Uint128 :=
  let newLo := x.lo + n
  if newLo < x.lo then ⟨newLo, x.hi + 1⟩ else ⟨newLo, x.hi⟩

/-- `operator*(8)` (sha2_512.h:200-210). The C++ operator updates the object in place and
returns a reference to it; the model returns the new value (callers that go on using the object
must use the new value). -/
def mul8 (x : Uint128) : Uint128 :=
  let msb : Byte := (x.lo >>> 61).setWidth 8
  ⟨x.lo <<< 3, (x.hi <<< 3) ||| msb.setWidth 64⟩

/-- The number represented. Not in /repo: the meaning of sha2_512.h:233-234. -/
def toNat (x : Uint128) : Nat := x.lo.toNat + 2 ^ 64 * x.hi.toNat

end Uint128

/-- `m_sizeCounter += n` on the `Uint128` counter (`n` arrives as `uint64_t`). sha2_512.h:407, 550. -/
def cntAdd128 (c : Uint128) (n : Nat) : Uint128 := c.add (BitVec.ofNat 64 n)

end Verif
