import Verif.Model.KeccakStore
import Verif.Proof.Store
import Verif.Props.Streaming
import Verif.Props.SHA3

/-!
# C39: copying and moving SHA-3 and SHAKE objects
-/

namespace Verif.Props
open Model.SHA3 Model.KeccakStore Spec

namespace KMoves

def Good (R : Nat) [RateOK R] (P : Byte) (K : Nat → Slot) (s : Nat → Option (KObj R)) : Prop :=
  ∀ i, match K i with
    | .vacant => s i = none
    | .movedFrom d => ∃ o, s i = some o ∧ o.digestLength = d
    | .holds d calls => ∃ o, s i = some ⟨d, o⟩ ∧ (Keccak R P d).run (Keccak R P d).fresh calls = .ok o

theorem Good.holds {R : Nat} [RateOK R] {P : Byte} {K : Nat → Slot} {s : Nat → Option (KObj R)} (g : Good R P K s)
    {i d calls} (h : K i = .holds d calls) :
    ∃ o, s i = some ⟨d, o⟩ ∧ (Keccak R P d).run (Keccak R P d).fresh calls = .ok o := by
  have := g i; rw [h] at this; exact this

theorem Good.movedFrom {R : Nat} [RateOK R] {P : Byte} {K : Nat → Slot} {s : Nat → Option (KObj R)} (g : Good R P K s)
    {i d} (h : K i = .movedFrom d) : ∃ o, s i = some o ∧ o.digestLength = d := by
  have := g i; rw [h] at this; exact this

theorem exec_good (R : Nat) [RateOK R] (P : Byte) (safe : ∀ d, (Keccak R P d).Safe) (prog : List KStmt) (K : Nat → Slot)
    (s : Nat → Option (KObj R)) (g : Good R P K s) (l : legalMovesFrom K prog) :
    ∃ s', exec R P s prog = .ok s' ∧ Good R P (slotsAfter K prog) s' := by
  induction prog generalizing K s with
  | nil => exact ⟨s, rfl, g⟩
  | cons st rest ih =>
    obtain ⟨l, lr⟩ := l
    cases st with
    | create j d =>
      refine ih _ _ (fun i => ?_) lr
      by_cases h : i = j
      · simp only [afterStmt, h, if_true]; exact ⟨_, rfl, rfl⟩
      · simp only [afterStmt, h, if_false]; exact g i
    | call i op =>
      rcases l with ⟨d, calls, hi, lo⟩ | ⟨d, hi, rfl⟩
      · obtain ⟨o, so, ro⟩ := g.holds hi
        obtain ⟨o', ro'⟩ := safe d _ lo
        have so' : stepK R P ⟨d, o⟩ op = .ok ⟨d, o'⟩ := by
          rw [Proof.Store.run_snoc, ro] at ro'
          have ro'' : (Keccak R P d).step o op = .ok o' := ro'
          simp only [stepK, ro'']; rfl
        simp only [exec, so, so', slotsAfter]
        refine ih _ _ (fun k => ?_) lr
        by_cases h : k = i
        · simp only [afterStmt, h, if_true, hi, Slot.after]; exact ⟨o', rfl, ro'⟩
        · simp only [afterStmt, h, if_false]; exact g k
      · obtain ⟨o, so, rfl⟩ := g.movedFrom hi
        have so' : stepK R P o .reset = .ok ⟨o.digestLength, (Keccak R P o.digestLength).fresh⟩ := rfl
        simp only [exec, so, so', slotsAfter]
        refine ih _ _ (fun k => ?_) lr
        by_cases h : k = i
        · simp only [afterStmt, h, if_true, hi, Slot.after]; exact ⟨_, rfl, rfl⟩
        · simp only [afterStmt, h, if_false]; exact g k
    | copy i j =>
      obtain ⟨d, calls, hi⟩ := l
      obtain ⟨o, so, ro⟩ := g.holds hi
      simp only [exec, so, slotsAfter]
      refine ih _ _ (fun k => ?_) lr
      by_cases h : k = j
      · simp only [afterStmt, h, if_true, hi]; exact ⟨o, rfl, ro⟩
      · simp only [afterStmt, h, if_false]; exact g k
    | move i j left =>
      obtain ⟨d, calls, hi⟩ := l
      obtain ⟨o, so, ro⟩ := g.holds hi
      simp only [exec, so, slotsAfter]
      refine ih _ _ (fun k => ?_) lr
      by_cases h : k = i
      · simp only [afterStmt, h, if_true, hi, Slot.moved]; exact ⟨_, rfl, rfl⟩
      · by_cases h' : k = j
        · subst h'
          simp only [afterStmt, h, if_false, if_true, hi]; exact ⟨o, rfl, ro⟩
        · simp only [afterStmt, h, h', if_false]; exact g k

theorem independent (R : Nat) [RateOK R] (P : Byte) (safe : ∀ d, (Keccak R P d).Safe) : MovesIndependent R P :=
  fun prog l => exec_good R P safe prog _ _ (fun _ => rfl) l

end KMoves

/-- C39: SHAKE objects of any output lengths may be copied, assigned and moved at any moments - to objects of other
lengths too, and to themselves. -/
theorem C39_SHAKE_128_moves : MovesIndependent 168 0x1F := KMoves.independent 168 0x1F C02_SHAKE_128
theorem C39_SHAKE_256_moves : MovesIndependent 136 0x1F := KMoves.independent 136 0x1F C02_SHAKE_256

/-- C39: the same for SHA-3, for the template with any digest lengths. -/
theorem C39_SHA3_moves : MovesIndependent 144 0x06 ∧ MovesIndependent 136 0x06 ∧ MovesIndependent 104 0x06 ∧
    MovesIndependent 72 0x06 :=
  ⟨KMoves.independent 144 0x06 fun d => (Proof.SHA3.refines 144 rfl 0x06 _ Proof.SHA3.suffix_sha3 d).safe,
    KMoves.independent 136 0x06 fun d => (Proof.SHA3.refines 136 rfl 0x06 _ Proof.SHA3.suffix_sha3 d).safe,
    KMoves.independent 104 0x06 fun d => (Proof.SHA3.refines 104 rfl 0x06 _ Proof.SHA3.suffix_sha3 d).safe,
    KMoves.independent 72 0x06 fun d => (Proof.SHA3.refines 72 rfl 0x06 _ Proof.SHA3.suffix_sha3 d).safe⟩

/-- C39 in terms of digests. -/
theorem C39_SHAKE_128_moved_digest (prog : List KStmt) (l : LegalMoves prog) (i d : Nat) (calls : List Op)
    (h : slots prog i = .holds d (calls ++ [.finalize])) (lc : Legal (calls ++ [.finalize])) :
    ∃ s o, exec 168 0x1F (fun _ => none) prog = .ok s ∧ s i = some o ∧
      toVector o.obj = .ok (Keccak.shake128 (message calls) d) := by
  obtain ⟨s, hs, g⟩ := C39_SHAKE_128_moves prog l
  obtain ⟨o, so, ro⟩ := KMoves.Good.holds g h
  obtain ⟨o', ro', t⟩ := C20_SHAKE_128 d calls lc trivial
  cases Except.ok.inj (ro'.symm.trans ro)
  exact ⟨s, _, hs, so, t⟩

theorem C39_SHAKE_256_moved_digest (prog : List KStmt) (l : LegalMoves prog) (i d : Nat) (calls : List Op)
    (h : slots prog i = .holds d (calls ++ [.finalize])) (lc : Legal (calls ++ [.finalize])) :
    ∃ s o, exec 136 0x1F (fun _ => none) prog = .ok s ∧ s i = some o ∧
      toVector o.obj = .ok (Keccak.shake256 (message calls) d) := by
  obtain ⟨s, hs, g⟩ := C39_SHAKE_256_moves prog l
  obtain ⟨o, so, ro⟩ := KMoves.Good.holds g h
  obtain ⟨o', ro', t⟩ := C20_SHAKE_256 d calls lc trivial
  cases Except.ok.inj (ro'.symm.trans ro)
  exact ⟨s, _, hs, so, t⟩

/-! A program that meets the hypotheses: an object is moved in the middle of a message into one of another length,
the source is reset and used again, one object is moved onto itself. -/
def moving : List KStmt :=
  [.create 0 16, .create 1 400, .call 0 (.add [1, 2]), .move 0 1 [7, 7], .call 1 (.add [3]), .call 0 .reset,
    .call 0 (.add [9]), .call 0 .finalize, .call 1 .finalize, .create 2 5, .move 2 2 [1], .copy 1 2]
example : LegalMoves moving ∧ slots moving 0 = .holds 16 ([.add [9]] ++ [.finalize]) ∧
    slots moving 1 = .holds 16 ([.add [1, 2], .add [3]] ++ [.finalize]) ∧ slots moving 2 = slots moving 1 ∧
    slots moving 3 = .vacant := by
  refine ⟨?_, rfl, rfl, rfl, rfl⟩
  refine ⟨trivial, trivial, .inl ⟨16, _, rfl, by decide⟩, ⟨16, _, rfl⟩, .inl ⟨16, _, rfl, by decide⟩, .inr ⟨16, rfl, rfl⟩,
    .inl ⟨16, _, rfl, by decide⟩, .inl ⟨16, _, rfl, by decide⟩, .inl ⟨16, _, rfl, by decide⟩, trivial, ⟨5, _, rfl⟩,
    ⟨16, _, rfl⟩, trivial⟩

/-! The digests of that program. -/
section Cases
private theorem moving_legal : LegalMoves moving :=
  ⟨trivial, trivial, .inl ⟨16, _, rfl, by decide⟩, ⟨16, _, rfl⟩, .inl ⟨16, _, rfl, by decide⟩, .inr ⟨16, rfl, rfl⟩,
    .inl ⟨16, _, rfl, by decide⟩, .inl ⟨16, _, rfl, by decide⟩, .inl ⟨16, _, rfl, by decide⟩, trivial, ⟨5, _, rfl⟩,
    ⟨16, _, rfl⟩, trivial⟩
example := C39_SHAKE_128_moved_digest moving moving_legal 1 16 [.add [1, 2], .add [3]] rfl (by decide)
example := C39_SHAKE_256_moved_digest moving moving_legal 0 16 [.add [9]] rfl (by decide)
end Cases

end Verif.Props
