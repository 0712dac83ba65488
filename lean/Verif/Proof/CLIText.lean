import Verif.Model.CLIText
import Verif.Proof.CLI

/-! Text streams. -/

namespace Verif.Proof.CLIText
open Verif.Model Verif.Model.CLI

theorem crlfIn_eq (l : List Byte) : crlfIn l = l ↔ (26 : Byte) ∉ l ∧ ∀ a b, l ≠ a ++ 13 :: 10 :: b := by
  have shorter : ∀ l : List Byte, (crlfIn l).length ≤ l.length := by
    intro l
    fun_induction crlfIn l with
    | case1 => simp
    | case2 => simp
    | case3 => simp
    | case4 => simp
    | case5 b c rest _ _ ih => simp only [List.length_cons] at ih ⊢; omega
    | case6 b c rest _ _ ih => simp only [List.length_cons] at ih ⊢; omega
  fun_induction crlfIn l with
  | case1 => simp
  | case2 => simp
  | case3 b h =>
    simp only [List.mem_singleton, true_iff]
    refine ⟨fun e => h e.symm, fun x y e => ?_⟩
    have := congrArg List.length e
    simp at this; omega
  | case4 c rest =>
    simp
  | case5 b c rest h1 h2 ih =>
    constructor
    · intro e
      have := congrArg List.length e
      have := shorter (c :: rest)
      simp only [List.length_cons] at *; omega
    · intro h
      exact absurd (by rw [h2.1, h2.2]; rfl) (h.2 [] rest)
  | case6 b c rest h1 h2 ih =>
    have e : (b :: crlfIn (c :: rest) = b :: c :: rest) ↔ crlfIn (c :: rest) = c :: rest := by simp
    refine e.trans (Iff.trans ih ?_)
    simp only [List.mem_cons, not_or]
    constructor
    · rintro ⟨⟨m1, m2⟩, h⟩
      refine ⟨⟨fun e => h1 e.symm, m1, m2⟩, fun x y e => ?_⟩
      cases x with
      | nil =>
        simp only [List.nil_append, List.cons.injEq] at e
        exact h2 ⟨e.1, e.2.1⟩
      | cons a x =>
        simp only [List.cons_append, List.cons.injEq] at e
        exact h x y e.2
    · rintro ⟨⟨_, m1, m2⟩, h⟩
      exact ⟨⟨m1, m2⟩, fun x y e => h (b :: x) y (by rw [e]; rfl)⟩

theorem inStream_congr {w w' : World} (hf : w.file = w'.file) {f : List Byte} (h : f ≠ ascii "-") :
    inStream w f = inStream w' f := by
  unfold inStream
  rw [if_neg h, if_neg h, hf]

theorem readN_congr {O : Type} (hash : Hasher O) {w w' : World} (hf : w.file = w'.file) {f : List Byte} (h : f ≠ ascii "-") :
    readNPrint hash w f = readNPrint hash w' f := by
  unfold readNPrint
  rw [inStream_congr hf h]

theorem readAll_congr {R : Nat} [SHA3.RateOK R] (nb : Nat → Nat) (hash : CShake.TupleHash R) {w w' : World}
    (hf : w.file = w'.file) {f : List Byte} (h : f ≠ ascii "-") :
    readAllNPrint nb hash w f = readAllNPrint nb hash w' f := by
  unfold readAllNPrint
  rw [inStream_congr hf h]

theorem plain_congr {O : Type} (hash : Hasher O) {w w' : World} (hf : w.file = w'.file) (args : List (List Byte))
    (h : args.getLast? ≠ some (ascii "-")) : plain hash w args = plain hash w' args := by
  unfold plain
  split
  · rw [readN_congr hash hf (by simpa using h)]
  · rfl

theorem shake_congr (R : Nat) [SHA3.RateOK R] {w w' : World} (hf : w.file = w'.file) (args : List (List Byte))
    (h : args.getLast? ≠ some (ascii "-")) : CLI.shake R w args = CLI.shake R w' args := by
  unfold CLI.shake
  split
  · rename_i f
    have h : f ≠ ascii "-" := by simpa using h
    simp only [readN_congr _ hf h]
  · rfl

theorem cshake_congr (nb : Nat → Nat) (R : Nat) [SHA3.RateOK R] {w w' : World} (hf : w.file = w'.file)
    (args : List (List Byte)) (h : args.getLast? ≠ some (ascii "-")) : CLI.cshake nb R w args = CLI.cshake nb R w' args := by
  unfold CLI.cshake
  split
  · rename_i f
    have h : f ≠ ascii "-" := by simpa using h
    simp only [readN_congr _ hf h]
  · rfl

theorem tuple_congr (nb : Nat → Nat) (R : Nat) [SHA3.RateOK R] {w w' : World} (hf : w.file = w'.file)
    (args : List (List Byte)) (h : args.getLast? ≠ some (ascii "-")) : CLI.tupleHash nb R w args = CLI.tupleHash nb R w' args := by
  unfold CLI.tupleHash
  split
  · rename_i f
    have h : f ≠ ascii "-" := by simpa using h
    simp only [readAll_congr _ _ hf h]
  · rfl

theorem runHash_congr (nb : Nat → Nat) (H : Hash) {w w' : World} (hf : w.file = w'.file) (args : List (List Byte))
    (h : args.getLast? ≠ some (ascii "-")) : runHash nb H w args = runHash nb H w' args := by
  cases H <;> simp only [runHash] <;>
    first
    | exact plain_congr _ hf args h
    | exact shake_congr _ hf args h
    | exact cshake_congr _ _ hf args h
    | exact tuple_congr _ _ hf args h

/-- no file is called "-": the standard input is not looked at -/
theorem main_congr (nb : Nat → Nat) {w w' : World} (hf : w.file = w'.file) (args : List (List Byte))
    (h : args.getLast? ≠ some (ascii "-")) : CLI.main nb w args = CLI.main nb w' args := by
  unfold CLI.main
  split
  · rfl
  · rfl
  · rw [runHash_congr nb _ hf _ h]

end Verif.Proof.CLIText
