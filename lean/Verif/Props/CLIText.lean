import Verif.Proof.CLIText
import Verif.Props.CLI

/-!
# C69: the command-line tool on Windows

C69 in words: the tool prints the same digests on every system: those of the bytes of the file or of the standard input.
That holds of files and all options but two. It fails for the standard input, and for files with `-tuple-hash-128` and
`-tuple-hash-256`, because these are read in text mode: inputs that differ in line ends, or after the byte 26, get the
same digest. It holds of these, too, for inputs with no line feed after a carriage return and no byte 26, and of no
others is the text that is hashed the input.
-/

namespace Verif.Props
open Model Model.CLI Proof.CLIText Spec Spec.CLI

/-- On POSIX systems the mode makes no difference. -/
theorem C69_posix (nb : Nat → Nat) (w : World) (args : List (List Byte)) : mainOn posix nb w args = CLI.main nb w args := by
  have hs : ∀ s, sourceText posix s = s := by rintro (_ | _ | _) <;> rfl
  have e : ∀ h, streams posix h w = w := fun h => by
    unfold streams
    simp only [hs, ite_self]
  unfold mainOn
  simp only [e]
  cases CLI.main nb w args <;> rfl

/-- What holds: a file, with every option but those of TupleHash, whatever text mode means: what is printed is what is
printed on POSIX systems (in text mode). -/
theorem C69_file_partial (P : Platform) (nb : Nat → Nat) (w : World) (prog option : List Byte) (args : List (List Byte))
    (ht : option ≠ ascii "-tuple-hash-128" ∧ option ≠ ascii "-tuple-hash-256")
    (hf : (prog :: option :: args).getLast? ≠ some (ascii "-")) :
    mainOn P nb w (prog :: option :: args) =
      (CLI.main nb w (prog :: option :: args)).map fun r => { r with stdout := P.textOut r.stdout } := by
  have hu : usesReadAll (getHash option) = false := by
    have key : ∀ (ns : List String) (i : Nat), (∀ k (hk : k < ns.length), usesReadAll ((enumerators[i + k]?).getD .Invalid) = true →
        option ≠ ascii ns[k]) → usesReadAll (searchNames option ns i) = false := by
      intro ns
      induction ns with
      | nil => intro i _; rfl
      | cons n ns ih =>
        intro i h
        unfold searchNames
        split
        · rename_i e
          cases hh : usesReadAll ((enumerators[i]?).getD .Invalid) with
          | false => rfl
          | true => exact absurd e (h 0 (by simp) hh)
        · refine ih (i + 1) fun k hk hu => ?_
          have := h (k + 1) (by simpa using hk) (by rw [show i + (k + 1) = i + 1 + k by omega]; exact hu)
          simpa using this
    refine key names 0 fun k hk hu => ?_
    have : k = 40 ∨ k = 41 := by
      have hk : k < 43 := hk
      revert hu
      exact (by decide +kernel : ∀ k : Fin 43, usesReadAll ((enumerators[0 + k.val]?).getD .Invalid) = true → k.val = 40 ∨ k.val = 41) ⟨k, hk⟩
    rcases this with rfl | rfl
    · exact ht.1
    · exact ht.2
  have e : (streams P (getHash option) w).file = w.file := by
    unfold streams
    simp only [hu, Bool.false_eq_true, if_false]
  unfold mainOn
  simp only []
  rw [main_congr nb e _ hf]
  cases CLI.main nb w (prog :: option :: args) <;> rfl

/-- What fails: the standard input. These two inputs differ, and no option tells them apart on Windows. -/
theorem C69_stdin_fails : ∃ a b : List Byte, a ≠ b ∧ ∀ (files : List Byte → Source) (nb : Nat → Nat) (args : List (List Byte)),
    mainOn windows nb ⟨files, .content a⟩ args = mainOn windows nb ⟨files, .content b⟩ args :=
  ⟨[0x61, 13, 10], [0x61, 10], by decide, fun _ _ _ => rfl⟩

/-- The byte 26 hides all that follows. -/
theorem C69_stdin_end_fails (a b c : List Byte) (files : List Byte → Source) (nb : Nat → Nat) (args : List (List Byte)) :
    mainOn windows nb ⟨files, .content (a ++ 26 :: b)⟩ args = mainOn windows nb ⟨files, .content (a ++ 26 :: c)⟩ args := by
  have key : ∀ a : List Byte, crlfIn (a ++ 26 :: b) = crlfIn (a ++ 26 :: c) := by
    intro a
    have single : ∀ r : List Byte, crlfIn (26 :: r) = [] := by rintro (_ | ⟨_, _⟩) <;> simp [crlfIn]
    induction a with
    | nil => rw [List.nil_append, List.nil_append, single, single]
    | cons x a ih =>
      cases a with
      | nil => simp only [List.cons_append, List.nil_append, crlfIn, single]
      | cons y a =>
        simp only [List.cons_append] at ih ⊢
        simp only [crlfIn, ih]
  have e : ∀ h, streams windows h ⟨files, .content (a ++ 26 :: b)⟩ = streams windows h ⟨files, .content (a ++ 26 :: c)⟩ := fun h => by
    simp only [streams, sourceText, windows, key]
  unfold mainOn
  simp only [e]

/-- Files with the options of TupleHash: two files with different contents get the same digest. -/
theorem C69_tuple_fails (option : List Byte) (ho : option = ascii "-tuple-hash-128" ∨ option = ascii "-tuple-hash-256")
    (nb : Nat → Nat) (prog : List Byte) (args : List (List Byte)) (stdin : Source) :
    mainOn windows nb ⟨fun _ => .content [0x61, 13, 10], stdin⟩ (prog :: option :: args) =
      mainOn windows nb ⟨fun _ => .content [0x61, 10], stdin⟩ (prog :: option :: args) := by
  have hu : usesReadAll (getHash option) = true := by
    rcases ho with rfl | rfl <;> decide +kernel
  have e : streams windows (getHash option) ⟨fun _ => .content [0x61, 13, 10], stdin⟩ =
      streams windows (getHash option) ⟨fun _ => .content [0x61, 10], stdin⟩ := by
    unfold streams
    simp only [hu, if_true]
    rfl
  unfold mainOn
  simp only [e]

/-- Exactly the inputs with no carriage return before a line feed and no byte 26 are hashed as they are. -/
theorem C69_text_exact (l : List Byte) : windows.textIn l = l ↔ (26 : Byte) ∉ l ∧ ∀ a b, l ≠ a ++ 13 :: 10 :: b := crlfIn_eq l

/-- What is printed on Windows for the standard input, here with the option `-md5`: the digest of the input as text. -/
theorem C69_md5_stdin (nb : Nat → Nat) (files : List Byte → Source) (input prog : List Byte) :
    mainOn windows nb ⟨files, .content input⟩ [prog, ascii "-md5", ascii "-"] =
      .ok ⟨crlfOut (line (Spec.MD5.md5 (crlfIn input)) (ascii "-")), 0⟩ := by
  have hg : getHash (ascii "-md5") = .Md5 := by decide +kernel
  unfold mainOn
  simp only [hg]
  have hs : ((streams windows .Md5 ⟨files, .content input⟩).source (ascii "-")).delivered = crlfIn input := by
    unfold World.source
    rw [if_pos (by decide +kernel)]
    rfl
  rw [C36_md5, hs]
  rfl

/-- for binary files without these bytes both sides of `C69_text_exact` hold; here is one and one that is not -/
example : windows.textIn [0, 13, 255, 10] = [0, 13, 255, 10] ∧ windows.textIn [0, 13, 10, 255] = [0, 10, 255] := by decide
/-- an option and a file name that meet the hypotheses of `C69_file_partial` -/
example : ascii "-md5" ≠ ascii "-tuple-hash-128" ∧ ascii "-md5" ≠ ascii "-tuple-hash-256" ∧
    [ascii "hash", ascii "-md5", ascii "a.bin"].getLast? ≠ some (ascii "-") := by decide +kernel

end Verif.Props
