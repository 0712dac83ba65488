import Verif.Proof.MD

/-! Refinement for the classes that share the streaming text but have their own `finalize`. -/

namespace Verif
open Spec

/-- the fold of a loop body over the blocks of a byte string -/
theorem forBlocks_implOK {S : Type} (B : Nat) (hB : 0 < B) (body : S → Block B → S) (init : S) :
    ImplOK B (fun s d => forBlocks B body d s) (mdFold B body init) := by
  intro m d hm _ _
  show forBlocks B body d (mdFold B body init m) = _
  rw [forBlocks_eq B hB, mdFold_append B body init hB m d hm]

/-- Refinement from: `addDataImpl` moves along `den`, and `finalize` reaches `F`. -/
def blockRefines {N : Nat} {S : Type} {B : Nat} (hB : 0 < B) (hBS : B < 2 ^ 64) (hN : B ≤ N)
    {impl : S → List Byte → Except Fault S} {den : List Byte → S} {init : S} (h0 : den [] = init)
    (hi : ImplOK B impl den)
    {fin : Obj N S → Except Fault (Obj N S)} {out : Obj N S → Except Fault (List Byte)}
    (F : Obj N S → List Byte → Prop)
    (hf : ∀ o m, Rel B den o m → ∃ o', fin o = .ok o' ∧ F o' m)
    {dig : List Byte → Except Fault (List Byte)} (ho : ∀ o m, F o m → out o = dig m) :
    Refines (blockApi B impl init fin out) dig where
  R := Rel B den
  F := F
  fresh := by
    refine ⟨?_, ?_⟩
    · simp [blockApi, alignedPart, alignedLen, h0]
    · have : restPart B ([] : List Byte) = [] := by simp [restPart]
      rw [this]
      exact Buffer.holds_clear {}
  add := fun _ _ d hd h => addData_rel hB hBS hN hi h d hd
  fin := hf
  resetR := fun _ _ _ => rfl
  resetF := fun _ _ _ => rfl
  out := ho

end Verif
