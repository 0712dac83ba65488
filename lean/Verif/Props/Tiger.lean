import Verif.Proof.TigerGen

/-!
# C16: Tiger and Tiger2

The specification (Spec/Tiger.lean) has no S-box table: its S-boxes are defined by the designers'
generation procedure. The claim is false for the 128- and 160-bit variants: reading their digest
always writes past the end of the result array (`C16_short_overrun`).
-/

namespace Verif.Props
open Spec Model.Tiger

/-- C16. -/
theorem C16_Tiger1_192 : Tiger1_192.Computes Tiger.tiger := Proof.Tiger.r1.computes
theorem C16_Tiger2_192 : Tiger2_192.Computes Tiger.tiger2 := Proof.Tiger.r2.computes

/-- The 128- and 160-bit variants: whatever the state of the object, `toArray()` writes past the end
of its result. -/
theorem C16_short_overrun (o) :
    Tiger1_128.toArray o = .error .resultOverrun ∧ Tiger1_160.toArray o = .error .resultOverrun ∧
    Tiger2_128.toArray o = .error .resultOverrun ∧ Tiger2_160.toArray o = .error .resultOverrun :=
  ⟨Proof.Tiger.toArray_short 128 (by decide) _, Proof.Tiger.toArray_short 160 (by decide) _,
    Proof.Tiger.toArray_short 128 (by decide) _, Proof.Tiger.toArray_short 160 (by decide) _⟩

/-- So the four short variants never compute their specification, for any message. -/
theorem C16_short_false (spec : List Byte → List Byte) :
    ¬ Tiger1_128.Computes spec ∧ ¬ Tiger1_160.Computes spec ∧
    ¬ Tiger2_128.Computes spec ∧ ¬ Tiger2_160.Computes spec := by
  have hl : Legal ([] ++ [.finalize]) := by decide
  refine ⟨?_, ?_, ?_, ?_⟩ <;> intro h <;> obtain ⟨o, -, e⟩ := h [] hl trivial
  · rw [(C16_short_overrun o).1] at e; cases e
  · rw [(C16_short_overrun o).2.1] at e; cases e
  · rw [(C16_short_overrun o).2.2.1] at e; cases e
  · rw [(C16_short_overrun o).2.2.2] at e; cases e

/-- What does hold of them: every variant with `V` = 1 (or 2) and any `D` goes through exactly the
states of the 192-bit one, so the first bytes written are the Tiger (Tiger2) digest. -/
theorem C16_short_partial (V D : Nat) (ops : List Op) :
    (Tiger V D).run (Tiger V D).fresh ops = (Tiger V 192).run (Tiger V 192).fresh ops := by
  generalize ho : (Tiger V 192).fresh = o
  have hf : (Tiger V D).fresh = o := ho
  rw [hf]
  clear hf ho
  induction ops generalizing o with
  | nil => rfl
  | cons op ops ih =>
    have e : (Tiger V D).step o op = (Tiger V 192).step o op := by cases op <;> rfl
    simp only [API.run, e]
    cases (Tiger V 192).step o op with
    | error _ => rfl
    | ok o' => exact ih o'

/-- Absorbing and finalising never faults in any variant. -/
theorem C02_Tiger_any (V D : Nat) : (Tiger V D).Safe := (Proof.Tiger.refinesD V D).safe
theorem C03_Tiger_any (V D : Nat) : (Tiger V D).ResetIsFresh := (Proof.Tiger.refinesD V D).resetFresh

/-- C40: the 1024 S-box entries are the ones the designers' procedure generates. -/
theorem C40_tiger_sboxes (k i : Nat) (hk : k < 4) (hi : i < 256) :
    (match k with
      | 0 => tTable0[i]
      | 1 => tTable1[i]
      | 2 => tTable2[i]
      | _ => tTable3[i]) = Tiger.S k i := by
  rw [← Proof.Tiger.codeS_eq k i hk hi]
  match k, hk with
  | 0, _ => simp only [Proof.Tiger.codeS, Nat.mod_eq_of_lt hi]
  | 1, _ => simp only [Proof.Tiger.codeS, Nat.mod_eq_of_lt hi]
  | 2, _ => simp only [Proof.Tiger.codeS, Nat.mod_eq_of_lt hi]
  | 3, _ => simp only [Proof.Tiger.codeS, Nat.mod_eq_of_lt hi]

end Verif.Props
