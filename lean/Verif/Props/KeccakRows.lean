import Verif.Proof.KeccakRows
import Verif.Props.SHA3

/-!
# C71: the rows of the state of SHA-3

C71 in words: the state of the SHA-3 classes is an array of five rows of five lanes, and no call, in whatever order calls
come, accesses anything but lanes that exist; what is computed does not depend on lanes being counted through or by row
and column. That holds if a pointer made out of the array of rows reaches all 25 lanes, as it does with the compilers in
use. The C++ standard lets a pointer to a lane reach no further than the row of the lane; by that rule every object that
is finalised leaves the array: `addDataImpl()` and `stateToVector()` count on from the first lane through all rows.
-/

namespace Verif.Props
open Model Model.SHA3 Proof.KeccakRows Proof.Misuse Spec

/-- what the rows compute: `A` with rows does what the class with a list of lanes does -/
theorem rows_computes {R : Nat} [RateOK R] {P : Byte} {d : Nat} {spec : List Byte → List Byte}
    (h : (SHA3.Keccak R P d).Computes spec) : (Rows.Keccak Rows.wholeObject R P d).Computes spec := by
  intro ops hl hd
  obtain ⟨o, e, ho⟩ := h ops hl hd
  have hr := run_whole P d (ops ++ [.finalize]) (Rows.Keccak Rows.wholeObject R P d).fresh (SHA3.Keccak R P d).fresh
    ⟨rfl, flat_init, rfl⟩
  rw [e] at hr
  cases hx : (Rows.Keccak Rows.wholeObject R P d).run (Rows.Keccak Rows.wholeObject R P d).fresh (ops ++ [.finalize]) with
  | error e => rw [hx] at hr; exact hr.elim
  | ok r =>
    rw [hx] at hr
    refine ⟨r, rfl, ?_⟩
    have h2 : r.chain.final = o.chain.final := hr.2.2
    show Except.ok r.chain.final = _
    rw [h2]
    exact ho

/-- With a pointer that reaches the whole object the classes compute their functions. -/
theorem C71_SHA3_224_partial : (Rows.Keccak Rows.wholeObject 144 0x06 28).Computes Keccak.sha3_224 := rows_computes C20_SHA3_224
theorem C71_SHA3_256_partial : (Rows.Keccak Rows.wholeObject 136 0x06 32).Computes Keccak.sha3_256 := rows_computes C20_SHA3_256
theorem C71_SHA3_384_partial : (Rows.Keccak Rows.wholeObject 104 0x06 48).Computes Keccak.sha3_384 := rows_computes C20_SHA3_384
theorem C71_SHA3_512_partial : (Rows.Keccak Rows.wholeObject 72 0x06 64).Computes Keccak.sha3_512 := rows_computes C20_SHA3_512
theorem C71_SHAKE_128_partial (d : Nat) : (Rows.Keccak Rows.wholeObject 168 0x1F d).Computes (Keccak.shake128 · d) :=
  rows_computes (C20_SHAKE_128 d)
theorem C71_SHAKE_256_partial (d : Nat) : (Rows.Keccak Rows.wholeObject 136 0x1F d).Computes (Keccak.shake256 · d) :=
  rows_computes (C20_SHAKE_256 d)

/-- Whatever is called in whatever order, no call leaves the array, and the lane in row `y` and column `x` is the lane
`5 y + x` of the class with a list of lanes (for every rate, padding byte and digest length, so for cSHAKE as well). -/
theorem C71_lanes_partial (R : Nat) [RateOK R] (P : Byte) (d : Nat) (ops : List Op) (ha : AnyOrder ops) : ∃ o o',
    (Rows.Keccak Rows.wholeObject R P d).run (Rows.Keccak Rows.wholeObject R P d).fresh ops = .ok o ∧
    (SHA3.Keccak R P d).run (SHA3.Keccak R P d).fresh ops = .ok o' ∧ o.buffer = o'.buffer ∧ o.chain.final = o'.chain.final ∧
    ∀ y x (hy : y < 5) (hx : x < 5), o.chain.state[y][x] = o'.chain.state[5 * y + x] := by
  obtain ⟨o', e, _⟩ := (sha3Total R P d).run ops _ ha (sha3Total R P d).fresh
  have hr := run_whole P d ops (Rows.Keccak Rows.wholeObject R P d).fresh (SHA3.Keccak R P d).fresh ⟨rfl, flat_init, rfl⟩
  rw [e] at hr
  cases hx : (Rows.Keccak Rows.wholeObject R P d).run (Rows.Keccak Rows.wholeObject R P d).fresh ops with
  | error e => rw [hx] at hr; exact hr.elim
  | ok o =>
    rw [hx] at hr
    refine ⟨o, o', rfl, e, hr.1, hr.2.2, fun y x hy hx => ?_⟩
    have := lane o.chain.state y x hy hx
    rw [← this]
    have hs : flat o.chain.state = o'.chain.state := hr.2.1
    simp only [hs]

/-- `operator==` compares row by row; it finds equal what is equal lane by lane. -/
theorem C71_equal {N : Nat} (a b : Obj N Rows.RState) : Rows.eq a b = true ↔ a.chain.state = b.chain.state := by
  unfold Rows.eq
  simp only [List.all_eq_true, List.mem_finRange, forall_const, beq_iff_eq]
  constructor
  · intro h
    apply Vector.ext
    intro y hy
    apply Vector.ext
    intro x hx
    exact h ⟨y, hy⟩ ⟨x, hx⟩
  · intro h y x
    rw [h]

/-- What fails: with a pointer that reaches fewer than all 25 lanes, every object that is finalised leaves the array,
whatever was called before and whatever is called afterwards. -/
theorem C71_reach_fails (p : Rows.Pointer) (hp : p.reach < 25) (R : Nat) [RateOK R] (P : Byte) (d : Nat)
    (ops : List Op) (ha : AnyOrder ops) (hf : .finalize ∈ ops) :
    (Rows.Keccak p R P d).run (Rows.Keccak p R P d).fresh ops = .error .bufferOverrun := by
  obtain ⟨r, _, e, _⟩ := C71_lanes_partial R P d ops ha
  clear ha
  have key : ∀ (ops : List Op) (o r : Obj R Rows.RState), .finalize ∈ ops → (Rows.Keccak Rows.wholeObject R P d).run o ops = .ok r →
      (Rows.Keccak p R P d).run o ops = .error .bufferOverrun := by
    intro ops
    induction ops with
    | nil => intro o r h; cases h
    | cons op ops ih =>
      intro o r hm e
      have e' : ((Rows.Keccak Rows.wholeObject R P d).step o op >>= fun o' => (Rows.Keccak Rows.wholeObject R P d).run o' ops) = .ok r := e
      show ((Rows.Keccak p R P d).step o op >>= fun o' => (Rows.Keccak p R P d).run o' ops) = _
      cases h1 : (Rows.Keccak Rows.wholeObject R P d).step o op with
      | error _ => rw [h1] at e'; cases e'
      | ok o1 =>
        rw [h1] at e'
        have rest : .finalize ∈ ops → ((Rows.Keccak p R P d).step o op = .error .bufferOverrun ∨
            (Rows.Keccak p R P d).step o op = .ok o1) →
            ((Rows.Keccak p R P d).step o op >>= fun o' => (Rows.Keccak p R P d).run o' ops) =
              .error .bufferOverrun := by
          rintro hm (h | h)
          · rw [h]; rfl
          · rw [h]; exact ih o1 r hm e'
        cases op with
        | add data =>
          refine rest (by simpa using hm) ?_
          have := addData_row (B := R) (N := R) (impl := Rows.impl p R) (impl' := Rows.impl Rows.wholeObject R) (impl_row p) o data
          rw [show addData R (Rows.impl Rows.wholeObject R) o data = .ok o1 from h1] at this
          exact this
        | reset => exact rest (by simpa using hm) (.inr h1)
        | finalize =>
          have : Rows.finalize p R P d o = .error .bufferOverrun :=
            finalize_row p hp P d o o1 h1
          rw [show (Rows.Keccak p R P d).step o .finalize = Rows.finalize p R P d o from rfl, this]
          rfl
  exact key ops _ r hf e

/-- The pointer as the C++ standard has it: it reaches five lanes. -/
theorem C71_row_fails (R : Nat) [RateOK R] (P : Byte) (d : Nat) (ops : List Op) (ha : AnyOrder ops) (hf : .finalize ∈ ops) :
    Rows.oneRow.reach = 5 ∧
    (Rows.Keccak Rows.oneRow R P d).run (Rows.Keccak Rows.oneRow R P d).fresh ops = .error .bufferOverrun :=
  ⟨rfl, C71_reach_fails Rows.oneRow (by decide) R P d ops ha hf⟩

/-- a history that meets the hypotheses -/
example : AnyOrder [.add [1, 2, 3], .reset, .add [4], .finalize, .finalize] ∧
    Op.finalize ∈ [Op.add [1, 2, 3], .reset, .add [4], .finalize, .finalize] := by
  refine ⟨fun d h => ?_, by decide⟩
  simp at h
  rcases h with rfl | rfl <;> decide
/-- two objects that are told apart, in the last lane -/
example : Rows.eq (N := 8) ⟨{}, ⟨Rows.put Rows.init.state 4 4 1, []⟩⟩ ⟨{}, Rows.init⟩ = false := by decide

end Verif.Props
