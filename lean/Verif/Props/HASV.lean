import Verif.Core.Misuse
import Verif.Core.Padding
import Verif.Spec.Hex
import Verif.Proof.HASV
import Verif.Proof.Misuse
import Verif.Proof.Padding

/-!
# C49: the unfinished class HAS_V_320

C49 in words: for every sequence of calls to an object of `HAS_V_320`, in any cut of the message, the digest is one fixed
function of the message, which is written down in `Spec/HASV.lean`; no call sequence, legal or not, writes outside the object;
`reset()` restores the initial state; the digest has 40 bytes; the code that the preprocessor disables computes the same
function as the code that replaced it. The digests that the class's own test requires are not the ones that the class
computes: the class is unfinished, as its directory says, and the fault is not in the choice between the two variants.
-/

namespace Verif.Props
open Model Proof Spec
open Proof.Misuse Proof.Padding

/-- The class computes the function of `Spec/HASV.lean`, for every legal history. -/
theorem C49_computes : HASV.HAS_V_320.Computes Spec.HASV.hasv320 := Proof.HASV.refines.computes
/-- The pieces in which the message arrives do not matter. -/
theorem C49_streaming : HASV.HAS_V_320.ChunkingIrrelevant := Proof.HASV.refines.chunking
/-- No legal history faults; in particular the buffer never outgrows the 256 bytes reserved for it. -/
theorem C49_safe : HASV.HAS_V_320.Safe := Proof.HASV.refines.safe
theorem C49_reset : HASV.HAS_V_320.ResetIsFresh := Proof.HASV.refines.resetFresh
theorem C49_size : HASV.HAS_V_320.DigestSize 40 :=
  Proof.HASV.refines.digestSize fun m => by simp [Spec.HASV.hasv320, bytesLE_length]

theorem hasv_writes : WritesInside 9 HASV.counter.writes := by
  intro size c hs w hw
  rcases List.mem_cons.1 hw with h | h
  · subst h; simp only []; omega
  · exact writesLE64 size c (by omega) w h

/-- The same for call sequences that break the rule "only `reset()` and reading after `finalize()`". -/
theorem C49_anyOrder : HASV.HAS_V_320.NeverFaults :=
  (mdTotal (by decide) _ hasv_writes _ _ _).neverFaults fun _ _ => out_le 4 40 rfl _
theorem C49_anyOrder_reset : HASV.HAS_V_320.ResetRepairs :=
  (mdTotal (by decide) _ hasv_writes _ _ _).resetRepairs fun _ _ => rfl

/-- The padding is the least that fits, whole blocks, and can be undone. -/
theorem C49_padding : GoodPadding 128 (1 + 9) Spec.HASV.pad := by
  have h := padded_good (B := 128) (L := 9) (pb := 0x80) (field := fun n => 40 :: Spec.toLE 8 (8 * n)) (by decide) (by decide)
    (fun _ => by simp [toLE_length])
    fun n n' _ _ h => by have := toLE_inj_mod 8 _ _ (List.cons.inj h).2; omega
  rw [show Spec.HASV.pad = padded 128 9 0x80 (fun n => 40 :: Spec.toLE 8 (8 * n)) from
    funext fun m => (Proof.HASV.pad_eq m).symm]
  exact h

/-- The block function that `#if 0` disables is, for every chaining value and block, the one that replaced it … -/
theorem C49_disabled_block (h : Vector W32 10) (m : Block 128) : Model.HASV.compressDisabled h m = Model.HASV.compress h m :=
  Proof.HASV.same_block h m

/-- … so re-enabling it changes no digest. -/
theorem C49_disabled_computes : HASV.HAS_V_320_disabled.Computes Spec.HASV.hasv320 :=
  Proof.HASV.refines_disabled.computes

/-- the digests that test_has_v_320.cpp:22 and :26 require of the empty message and of "abc" -/
def hasvEmpty : List Byte := toBE 40 0x475974bed7ea137d982d1df5b2583b1ac4d5941d8d557bb303586742d8891788943a9668a9da68c3
def hasvAbc : List Byte := toBE 40 0xa70ab818294865cf9c9697d69715235370381b833f8f1a42e01505888b002e4305fe6405519f595c

set_option maxRecDepth 100000 in
theorem hasv_first : (HASV.HAS_V_320.digest [[]]).toOption.map (·.take 4) = some [0x6a, 0x71, 0xa5, 0x8b] ∧
    (HASV.HAS_V_320.digest [[0x61, 0x62, 0x63]]).toOption.map (·.take 4) = some [0xce, 0x3f, 0x84, 0xc1] := by
  decide +kernel

/-- The class fails its own test: neither digest is the required one. -/
theorem C49_vectors_fails :
    HASV.HAS_V_320.digest [[]] ≠ .ok hasvEmpty ∧ HASV.HAS_V_320.digest [[0x61, 0x62, 0x63]] ≠ .ok hasvAbc := by
  constructor
  · intro h
    have := hasv_first.1
    rw [h] at this
    revert this
    decide +kernel
  · intro h
    have := hasv_first.2
    rw [h] at this
    revert this
    decide +kernel

/-- Nor does the disabled code meet them. -/
theorem C49_vectors_disabled_fails :
    HASV.HAS_V_320_disabled.digest [[]] ≠ .ok hasvEmpty ∧
      HASV.HAS_V_320_disabled.digest [[0x61, 0x62, 0x63]] ≠ .ok hasvAbc := by
  rw [show HASV.HAS_V_320_disabled = HASV.HAS_V_320 by
    unfold HASV.HAS_V_320_disabled HASV.HAS_V_320
    rw [show Model.HASV.compressDisabled = Model.HASV.compress from funext fun h => funext fun m => C49_disabled_block h m]]
  exact C49_vectors_fails

theorem hasv_hex (b : Byte) : HASV.snprintf02x 3 b.toNat = [hexDigit (b.toNat / 16), hexDigit (b.toNat % 16)] :=
  (by decide +kernel : ∀ b : Fin 256, HASV.snprintf02x 3 b.val = [hexDigit (b.val / 16), hexDigit (b.val % 16)]) ⟨b.toNat, b.isLt⟩

/-- The text of the digest is the hexadecimal text of its bytes, and the vector holds these bytes. -/
theorem C49_toString (ops : List Op) (hl : Legal (ops ++ [.finalize])) :
    ∃ o, HASV.HAS_V_320.run HASV.HAS_V_320.fresh (ops ++ [.finalize]) = .ok o ∧
      HASV.toString o = .ok (hex (Spec.HASV.hasv320 (message ops))) ∧
      HASV.toVector o = .ok (Spec.HASV.hasv320 (message ops)) := by
  obtain ⟨o, e, h⟩ := C49_computes ops hl trivial
  refine ⟨o, e, ?_, ?_⟩
  · have e2 : ∀ l : List Byte, l.foldl (fun ret c => ret ++ HASV.snprintf02x 3 c.toNat) [] = hex l := fun l => by
      rw [← List.flatMap_eq_foldl, hex]
      exact congrArg (List.flatMap · l) (funext hasv_hex)
    unfold HASV.toString
    rw [h, ← e2]
    rfl
  · unfold HASV.toVector
    rw [h]

/-- a legal history with two messages, the first longer than a block -/
example : Legal ([.add (List.replicate 200 1), .finalize, .reset, .add [1, 2], .add [3]] ++ [.finalize]) := by
  decide +kernel

/-- `C49_computes` on it -/
example : ∃ o, HASV.HAS_V_320.run HASV.HAS_V_320.fresh
      ([.add (List.replicate 200 1), .finalize, .reset, .add [1, 2], .add [3]] ++ [.finalize]) = .ok o ∧
    HASV.HAS_V_320.toArray o = .ok (Spec.HASV.hasv320 [1, 2, 3]) :=
  C49_computes _ (by decide +kernel) trivial

example := C49_toString [.add (List.replicate 200 1), .finalize, .reset, .add [1, 2], .add [3]] (by decide +kernel)

end Verif.Props
