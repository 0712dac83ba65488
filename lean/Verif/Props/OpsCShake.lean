import Verif.Proof.OpsCShake
import Verif.Spec.SP800185

/-!
# C61 for cSHAKE and TupleHash

The operations depend on the lengths of the name, of the customization and of the data, and not on their bytes. Nothing
is asked of `nb`, the number of bytes that `leftEncode` and `rightEncode` compute in `double`.
-/

namespace Verif.Props
open Model Model.CShake

section
variable (nb : Nat → Nat) (R : Nat) [SHA3.RateOK R] (d : Int)

/-- cSHAKE: the constructor and then any calls do to an object with a log what they do to an object without; and the logs of
two objects are the same if the lengths of the names, of the customizations and of the data are. -/
theorem C61_CSHAKE :
    (∀ name customize ops, (do CShake.run (← CShake.construct nb R d name customize) ops) =
      (do runO (← constructO nb R d name customize) ops).map CShakeO.unlogged) ∧
    (∀ name customize name' customize' ops ops', name.length = name'.length → customize.length = customize'.length →
      ops.map Op.shape = ops'.map Op.shape →
      Both (fun o o' => o.log = o'.log) (do runO (← constructO nb R d name customize) ops)
        (do runO (← constructO nb R d name' customize') ops')) := by
  refine ⟨fun name customize ops => ?_, fun name customize name' customize' ops ops' hn hc hs => ?_⟩
  · rw [Proof.OpsCShake.construct_nat]
    cases constructO nb R d name customize with
    | error e => rfl
    | ok o => exact Proof.OpsCShake.run_nat ops o
  · exact Proof.Ops.both_imp (fun _ _ h => h.log)
      (Proof.Ops.both_bind (Proof.OpsCShake.construct_same nb d hn hc) fun _ _ h => Proof.OpsCShake.run_same ops ops' hs h)

/-- TupleHash, where `.add` is `nextData` -/
theorem C61_TupleHash :
    (∀ customize ops, (do tupleRun nb (← tupleConstruct nb R d customize) ops) =
      (do tupleRunO nb (← tupleConstructO nb R d customize) ops).map TupleHashO.unlogged) ∧
    (∀ customize customize' ops ops', customize.length = customize'.length → ops.map Op.shape = ops'.map Op.shape →
      Both (fun o o' => o.cshake.log = o'.cshake.log) (do tupleRunO nb (← tupleConstructO nb R d customize) ops)
        (do tupleRunO nb (← tupleConstructO nb R d customize') ops')) := by
  refine ⟨fun customize ops => ?_, fun customize customize' ops ops' hc hs => ?_⟩
  · unfold tupleConstruct tupleConstructO
    rw [Proof.OpsCShake.construct_nat]
    cases constructO nb R d Model.CShake.tupleHashName customize with
    | error e => rfl
    | ok o => exact Proof.OpsCShake.tupleRun_nat nb ops ⟨o, d⟩
  · refine Proof.Ops.both_imp (R := Proof.OpsCShake.TRel) (fun _ _ h => h.cshake.log) ?_
    refine Proof.Ops.both_bind (R := Proof.OpsCShake.TRel) ?_ fun _ _ h => Proof.OpsCShake.tupleRun_same nb ops ops' hs h
    exact Proof.Ops.both_bind (Proof.OpsCShake.construct_same nb d rfl hc) fun _ _ h => ⟨h, rfl⟩

end

/-! ## Cases that meet the hypotheses -/

attribute [local irreducible] Both in
/-- two secrets of 20 bytes, hashed with customizations of 5 bytes -/
example := (C61_CSHAKE (fun n => (Nat.log2 n) / 8 + 1) 168 32).2 [] [69, 109, 97, 105, 108] [] [1, 2, 3, 4, 5]
  [.add (List.replicate 20 1), .finalize] [.add (List.replicate 20 2), .finalize] rfl rfl (by decide)

attribute [local irreducible] Both in
/-- two tuples of elements of 3 and 0 bytes -/
example := (C61_TupleHash (fun n => (Nat.log2 n) / 8 + 1) 136 64).2 [1] [9] [.add [1, 2, 3], .add [], .finalize, .reset]
  [.add [7, 7, 7], .add [], .finalize, .reset] rfl (by decide)

/-- The log is not empty: the prefix of 168 bytes makes one run of the permutation. -/
example : (Except.map (fun o : CShakeO 168 => (o.log.1.length, o.log.2.length))
    (constructO (fun n => (Nat.log2 n) / 8 + 1) 168 32 [] [69])).toOption = some (0, 11664 + 546) := by decide +kernel

end Verif.Props
