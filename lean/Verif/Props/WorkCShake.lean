import Verif.Model.WorkCShake
import Verif.Proof.Work
import Verif.Proof.CShakeCalls

/-!
# C55 for cSHAKE and TupleHash

A customised cSHAKE object hands the encoded name and customization and then all its calls to a `Keccak` object, whose
runs of the permutation are counted. (An uncustomised one is a SHAKE object, C55_SHAKE_128 and C55_SHAKE_256.)
-/

namespace Verif.Props
open Model Model.CShake Proof.CShake Proof.CShakeCalls
open Spec

section
variable {R : Nat} [hR : SHA3.RateOK R]

/-- The bytes that a customised cSHAKE object absorbs: the encoded name and customization, unless a `reset()` has dropped
them (C03), and the message. -/
def absorbed (R : Nat) (name custom : List Byte) (ops : List Op) : Nat :=
  (messageFrom (SP800185.bytepad (SP800185.encodeString name ++ SP800185.encodeString custom) R) ops).length

/-- C55: the constructor and then any calls `ops` do to a cSHAKE object what the calls `pieces` of the constructor and
`ops` do to a `Keccak` object with a count; and after any legal calls the count is determined by the lengths of the name,
the customization and the message. -/
theorem C55_CSHAKE (nb : Nat → Nat) (hnb : SP800185.ExactLog nb) (h8 : R % 8 = 0) (name custom : List Byte)
    (hne : ¬(name = [] ∧ custom = [])) (hn : name.length < 2 ^ 53 - 256) (hc : custom.length < 2 ^ 53 - 256) (d : Nat) :
    ∃ pieces, prefixCalls nb R name custom = .ok pieces ∧
      (∀ ops, (do CShake.run (← CShake.construct nb R d name custom) ops) =
        ((SHA3.KeccakW R 0x04 d).run (SHA3.KeccakW R 0x04 d).fresh (pieces.map Op.add ++ ops)).map
          fun o => ⟨true, none, some ⟨d, o.real⟩⟩) ∧
      ∀ ops, Legal ops → ∃ o, (SHA3.KeccakW R 0x04 d).run (SHA3.KeccakW R 0x04 d).fresh (pieces.map Op.add ++ ops) = .ok o ∧
        o.chain.2 = if finished ops then absorbed R name custom ops / R + 1 + (d - 1) / R else absorbed R name custom ops / R := by
  obtain ⟨pieces, e, hp, hf⟩ := prefix_ok nb hnb h8 name custom hn hc
  obtain ⟨w1, w2⟩ := Proof.Work.SHA3.work (R := R) 0x04 d
  refine ⟨pieces, e, fun ops => ?_, fun ops hl => ?_⟩
  · rw [construct_calls nb name custom hne pieces e, ← run_append, run_mk]
    show (do return mk true ⟨d, ← (SHA3.Keccak R 0x04 d).run (SHA3.Keccak R 0x04 d).fresh (pieces.map Op.add ++ ops)⟩) = _
    rw [w1]
    cases (SHA3.KeccakW R 0x04 d).run (SHA3.KeccakW R 0x04 d).fresh (pieces.map Op.add ++ ops) with
    | error _ => rfl
    | ok o => rfl
  · obtain ⟨o, eo, ho⟩ := w2 _ (legal_append pieces hp ops hl)
    refine ⟨o, eo, ho.trans ?_⟩
    rw [message_append, hf]
    simp only [finished_append pieces ops]
    rfl

/-- C55: a TupleHash object, its constructor and any calls `ops`, does what the calls `pieces` of the constructor of its
cSHAKE object and the calls `calls d ops` that it makes on that object (`nextData`: the encoded length and the element;
`finalize`: the encoded length of the digest and `finalize`) do to a `Keccak` object with a count; for a tuple that is then
finalised the count is determined by the lengths of the customization and of the elements. -/
theorem C55_TupleHash (nb : Nat → Nat) (hnb : SP800185.ExactLog nb) (h8 : R % 8 = 0) (custom : List Byte)
    (hc : custom.length < 2 ^ 53 - 256) (d : Nat) (hd : d < 2 ^ 28) :
    ∃ pieces, prefixCalls nb R Model.CShake.tupleHashName custom = .ok pieces ∧
      (∀ ops, (∀ s, Op.add s ∈ ops → s.length < 2 ^ 53 - 256) →
        (do tupleRun nb (← tupleConstruct nb R d custom) ops) =
        ((SHA3.KeccakW R 0x04 d).run (SHA3.KeccakW R 0x04 d).fresh (pieces.map Op.add ++ calls d ops)).map
          fun o => ⟨⟨true, none, some ⟨d, o.real⟩⟩, d⟩) ∧
      ∀ X : List (List Byte), (∀ s ∈ X, s.length < 2 ^ 53 - 256) →
        ∃ o, (SHA3.KeccakW R 0x04 d).run (SHA3.KeccakW R 0x04 d).fresh
            (pieces.map Op.add ++ calls d (X.map Op.add ++ [Op.finalize])) = .ok o ∧
          o.chain.2 = ((SP800185.bytepad (SP800185.encodeString SP800185.tupleHashName ++ SP800185.encodeString custom) R).length +
            (SP800185.tupleInput X d).length) / R + 1 + (d - 1) / R := by
  have hname : Model.CShake.tupleHashName = SP800185.tupleHashName := by decide +kernel
  obtain ⟨pieces, e, h1, h2⟩ := C55_CSHAKE nb hnb h8 Model.CShake.tupleHashName custom (by simp [hname, SP800185.tupleHashName])
    (by decide +kernel) hc d
  refine ⟨pieces, e, fun ops hs => ?_, fun X hX => ?_⟩
  · have h1 := h1 (calls d ops)
    unfold tupleConstruct
    cases ec : CShake.construct nb R d Model.CShake.tupleHashName custom with
    | error f =>
      rw [ec] at h1
      show Except.error f = _
      cases er : (SHA3.KeccakW R 0x04 d).run (SHA3.KeccakW R 0x04 d).fresh (pieces.map Op.add ++ calls d ops) with
      | error f' => rw [er] at h1; cases h1; rfl
      | ok o => rw [er] at h1; cases h1
    | ok c =>
      rw [ec] at h1
      show tupleRun nb ⟨c, d⟩ ops = _
      have h1 : CShake.run c (calls d ops) = _ := h1
      rw [tupleRun_calls nb hnb d hd c ops hs, h1]
      cases (SHA3.KeccakW R 0x04 d).run (SHA3.KeccakW R 0x04 d).fresh (pieces.map Op.add ++ calls d ops) <;> rfl
  · have hs : Small (X.map Op.add ++ [Op.finalize]) := fun s h => by
      rcases List.mem_append.1 h with h | h
      · obtain ⟨t, ht, hte⟩ := List.mem_map.1 h
        cases hte; exact hX _ ht
      · simp at h
    have hl : Legal (X.map Op.add ++ [Op.finalize]) :=
      legal_append X (fun p hp => by have := hX p hp; omega) [Op.finalize] ⟨rfl, trivial⟩
    obtain ⟨o, eo, ho⟩ := h2 _ (legal_calls d hd _ hs false hl)
    refine ⟨o, eo, ho.trans ?_⟩
    have hfin : finished (calls d (X.map Op.add ++ [Op.finalize])) := by
      rw [calls_adds]; unfold finished; simp
    rw [if_pos hfin]
    unfold absorbed
    rw [calls_adds, Refines.messageFrom_append]
    simp only [messageFrom]
    rw [messageFrom_noReset _ _ (noReset_calls d X), message_calls, hname, List.length_append]

end

/-! Concrete cases: a name and a customization of a few bytes; four runs of the permutation for 300 bytes of prefix and
message and 400 bytes of digest, three after a `reset()`. -/

private def sign : List Byte := [69, 109, 97, 105, 108]

example := C55_CSHAKE (R := 168) countBytes countBytes_exact rfl [1, 2] sign (by decide) (by decide) (by decide) 32
example := C55_TupleHash (R := 136) countBytes countBytes_exact rfl sign (by decide) 64 (by decide)

example : absorbed 168 [1, 2] sign [.add (List.replicate 132 7), .finalize] / 168 + 1 + (400 - 1) / 168 = 4 := by decide +kernel
example : absorbed 168 [1, 2] sign [.reset, .add (List.replicate 132 7), .finalize] / 168 + 1 + (400 - 1) / 168 = 3 := by
  decide +kernel

end Verif.Props
