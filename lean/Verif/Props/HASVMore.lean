import Verif.Props.Extension
import Verif.Props.HASV

/-!
# C27, C28, C45: the properties of the Merkle-Damgård classes, for HAS_V_320

The class has no `==`; what the others state with `==` is stated here with the chaining values or the digests.
-/

namespace Verif.Props
open Model Proof Spec
open Proof.Misuse Proof.Padding Proof.Extension

/-- the chaining values are equal -/
def hasvEq (o o' : Obj (2 * 128) (MDState W64 (Vector W32 10))) : Bool := o.chain.h == o'.chain.h

theorem hasv_exact : HASV.HAS_V_320.EqExact hasvEq :=
  Proof.Equality.exact Proof.HASV.refines fun _ _ => Proof.Equality.vecLE 4 10 40 (by decide) rfl _ _

theorem C28_HAS_V_320 : HASV.HAS_V_320.CollisionReduces hasvEq (2 ^ 61) Spec.HASV.compress Spec.HASV.init
    (fun m => Spec.blocks 128 (Spec.HASV.pad m)) :=
  reduces Proof.HASV.refines (fun o o' m m' h h' _ _ e => by
    have h : o.chain.h = _ := h
    have h' : o'.chain.h = _ := h'
    have e : o.chain.h = o'.chain.h := beq_iff_eq.1 e
    rw [h, h'] at e
    have e := congrArg Proof.HASV.tup e
    rw [mdFold_map (f := Proof.HASV.tup) (scomp := Spec.HASV.compress) Proof.HASV.compress_eq,
      mdFold_map (f := Proof.HASV.tup) (scomp := Spec.HASV.compress) Proof.HASV.compress_eq] at e
    rw [show (1 <<< 7 : Byte) = 0x80 from rfl] at e
    rw [← Proof.HASV.pad_eq, ← Proof.HASV.pad_eq]
    exact e)
  fun m m' => by
    rw [← Proof.HASV.pad_eq, ← Proof.HASV.pad_eq]
    exact padded_collision (B := 128) (L := 9) (pb := 0x80) (field := fun n => 40 :: Spec.toLE 8 (8 * n)) _ _ (by decide) (by decide)
      (fun _ => by simp [toLE_length]) _
      (fun n n' hn hn' h => by have := toLE_inj_mod 8 _ _ (List.cons.inj h).2; omega) m m'

/-- C28: two messages with one digest contain two different inputs with one output of the block function. -/
theorem C28_HAS_V_320_digest (ops ops' : List Op) (hl : Legal (ops ++ [.finalize]))
    (hl' : Legal (ops' ++ [.finalize])) (hne : message ops ≠ message ops') (hm : (message ops).length < 2 ^ 61)
    (hm' : (message ops').length < 2 ^ 61) (o o')
    (e : HASV.HAS_V_320.run HASV.HAS_V_320.fresh (ops ++ [.finalize]) = .ok o)
    (e' : HASV.HAS_V_320.run HASV.HAS_V_320.fresh (ops' ++ [.finalize]) = .ok o')
    (hd : HASV.HAS_V_320.toArray o = HASV.HAS_V_320.toArray o') :
    CollisionIn Spec.HASV.compress Spec.HASV.init (Spec.blocks 128 (Spec.HASV.pad (message ops)))
      (Spec.blocks 128 (Spec.HASV.pad (message ops'))) := by
  obtain ⟨x, x', ex, ex', hc⟩ := C28_HAS_V_320 ops ops' hl hl' hne hm hm'
  obtain ⟨y, y', ey, ey', hy⟩ := hasv_exact ops ops' hl hl'
  rw [e] at ex ey
  rw [e'] at ex' ey'
  injection ex with ex; injection ey with ey; injection ex' with ex'; injection ey' with ey'
  subst ex ey ex' ey'
  exact hc (hy.2 hd)

/-- two messages that meet the hypotheses of `C28_HAS_V_320_digest` but for the equal digests, which nobody knows -/
example : Legal ([.add [1]] ++ [.finalize]) ∧ Legal ([.add (List.replicate 200 1)] ++ [.finalize]) ∧
    message [.add [1]] ≠ message [.add (List.replicate 200 1)] := by decide +kernel

theorem C45_HAS_V_320_public : PublicPadding Spec.HASV.pad := by
  rw [show Spec.HASV.pad = padded 128 9 0x80 (fun n => 40 :: Spec.toLE 8 (8 * n)) from
    funext fun m => (Proof.HASV.pad_eq m).symm]
  exact padded_public 128 9 0x80 fun n => 40 :: Spec.toLE 8 (8 * n)

/-- C45: whoever knows the digest and the length of a message can compute the digests of its continuations. -/
theorem C45_HAS_V_320_state : HASV.HAS_V_320.Extends (fun o o' => hasvEq o o' = true) Spec.HASV.pad (fun _ => True) :=
  mdExtends Proof.HASV.refines (fun _ _ _ => trivial) (fun o => o.chain.h) (fun _ _ => beq_iff_eq) (fun _ _ h _ => by
      have h : _ = _ := h
      rw [← Proof.HASV.pad_eq]; exact h) (by decide)
    C49_padding C45_HAS_V_320_public
theorem C45_HAS_V_320 : HASV.HAS_V_320.Extends (fun o o' => HASV.HAS_V_320.toArray o = HASV.HAS_V_320.toArray o')
    Spec.HASV.pad (fun _ => True) := toDigest C45_HAS_V_320_state hasv_exact

end Verif.Props
