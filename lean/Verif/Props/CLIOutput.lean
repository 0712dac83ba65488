import Verif.Proof.CLIOutput
import Verif.Props.CLI

/-!
# C64: what the command-line tool prints can be read back

C64 in words: whatever the arguments and the files, a run that ends prints either the usage text or one line that says
which digest belongs to which file name. The line is never the usage text, and it determines the digest and the name. So do
several lines one after the other, as in a list of checksums, if no file name contains a line feed. A name with a line feed
can make one run print what looks like the lines of two other files.

`main nb w args` (Model/CLI.lean) is a run of the program, `line digest file` (Spec/CLI.lean) the line; a list of pairs
stands for a list of lines.
-/

namespace Verif.Props
open Model Model.CLI Proof.CLI Spec Spec.CLI

/-- Every run that ends prints the usage text or a line with the last argument, and the status is 0 either way. -/
theorem C64_output (nb : Nat → Nat) (w : World) (args : List (List Byte)) (r : Outcome) (h : CLI.main nb w args = .ok r) :
    r.status = 0 ∧ ((∃ prog, args.head? = some prog ∧ r.stdout = usage prog) ∨
      ∃ digest file, digest ≠ [] ∧ args.getLast? = some file ∧ r.stdout = line digest file) := by
  cases args with
  | nil => cases h
  | cons prog rest =>
    cases rest with
    | nil => rw [C36_no_option] at h; injection h with h; rw [← h]; exact ⟨rfl, .inl ⟨prog, rfl, rfl⟩⟩
    | cons option rest =>
      unfold CLI.main at h
      obtain ⟨t, e, h⟩ := bind_ok h
      cases t with
      | none => injection h with h; rw [← h]; exact ⟨rfl, .inl ⟨prog, rfl, rfl⟩⟩
      | some out => injection h with h; rw [← h]; exact ⟨rfl, .inr (prints_runHash nb _ w _ out e)⟩

example : ∃ r, CLI.main (fun _ => 0) ⟨fun _ => .content [1, 2, 3], .cannotOpen⟩ [[0x68], ascii "-crc-32", [0x66]] = .ok r ∧
    r.stdout = line [0x55, 0xbc, 0x80, 0x1d] [0x66] := by
  refine ⟨_, C36_crc_32 _ _ _ _, ?_⟩
  decide +kernel

/-- A line is not the usage text: there is nothing in the output to be confused with an error. -/
theorem C64_not_usage (digest file prog : List Byte) (h : digest ≠ []) : line digest file ≠ usage prog :=
  line_ne_usage digest file prog h

/-- The line determines the digest and the name. -/
theorem C64_line (digest digest' file file' : List Byte) (h : line digest file = line digest' file') :
    digest = digest' ∧ file = file' := by
  obtain ⟨e, h⟩ := line_append_inj digest digest' file file' [] [] (by simpa using h)
  exact ⟨e, List.append_cancel_right h⟩

/-- Two runs that print the same, whatever the options and the files, were given the same name, or both print the usage. -/
theorem C64_same_output (nb : Nat → Nat) (w w' : World) (args args' : List (List Byte)) (r : Outcome)
    (h : CLI.main nb w args = .ok r) (h' : CLI.main nb w' args' = .ok r) :
    (args.getLast? = args'.getLast? ∧ ∃ digest file, args.getLast? = some file ∧ r.stdout = line digest file) ∨
      ∃ prog prog', args.head? = some prog ∧ args'.head? = some prog' ∧ r.stdout = usage prog ∧ r.stdout = usage prog' := by
  obtain ⟨-, h⟩ := C64_output nb w args r h
  obtain ⟨-, h'⟩ := C64_output nb w' args' r h'
  rcases h with ⟨p, hp, e⟩ | ⟨d, f, hd, hf, e⟩ <;> rcases h' with ⟨p', hp', e'⟩ | ⟨d', f', hd', hf', e'⟩
  · exact .inr ⟨p, p', hp, hp', e, e'⟩
  · exact absurd (e'.symm.trans e) (C64_not_usage d' f' p hd')
  · exact absurd (e.symm.trans e') (C64_not_usage d f p' hd)
  · obtain ⟨-, rfl⟩ := C64_line d d' f f' (e.symm.trans e')
    exact .inl ⟨hf.trans hf'.symm, d, f, hf, e⟩

/-- Several lines determine the digests and the names, if no name contains a line feed.
The full statement, without the hypotheses on the names, is false: `C64_list_fails`. -/
theorem C64_list_partial : ∀ (l l' : List (List Byte × List Byte)), (∀ p ∈ l, 0x0a ∉ p.2) → (∀ p ∈ l', 0x0a ∉ p.2) →
    (l.flatMap fun p => line p.1 p.2) = (l'.flatMap fun p => line p.1 p.2) → l = l'
  | [], [], _, _, _ => rfl
  | [], p :: l', _, _, h => by
    have h := congrArg List.length h
    simp [line] at h
  | p :: l, [], _, _, h => by
    have h := congrArg List.length h
    simp [line] at h
  | (d, f) :: l, (d', f') :: l', hl, hl', h => by
    simp only [List.flatMap_cons] at h
    obtain ⟨e, g⟩ := line_append_inj d d' f f' _ _ h
    obtain ⟨e', g⟩ := until_newline f f' _ _ (hl _ (List.mem_cons_self ..)) (hl' _ (List.mem_cons_self ..)) g
    rw [e, e']
    rw [C64_list_partial l l' (fun p hp => hl p (List.mem_cons_of_mem _ hp)) (fun p hp => hl' p (List.mem_cons_of_mem _ hp)) g]

example : ∀ p ∈ [([1], ascii "a b"), ([2, 3], ascii "  c")], (0x0a : Byte) ∉ p.2 := by decide +kernel

/-- A file name that passes for two: the first name, a line feed, and the second line without its line feed. -/
def forgedName (file digest' file' : List Byte) : List Byte :=
  file ++ [0x0a] ++ (hex digest').map (fun c => BitVec.ofNat 8 c.toNat) ++ [0x20, 0x20] ++ file'

/-- The line of a file with such a name is what two lines would be. -/
theorem C64_list_fails (digest file digest' file' : List Byte) :
    ([(digest, file), (digest', file')].flatMap fun p => line p.1 p.2) =
      [(digest, forgedName file digest' file')].flatMap fun p => line p.1 p.2 := by
  simp [line, forgedName]

/-- For any two files there is a name with which one run prints the two lines of these files: with the content of the
first file under that name, the list of checksums also names the second file, which need not exist, and any digest for it. -/
theorem C64_forged_fails (nb : Nat → Nat) (w : World) (prog file digest' file' : List Byte) :
    CLI.main nb { w with file := fun f => if f = forgedName file digest' file' then w.source file else w.file f }
        [prog, ascii "-sha2-256", forgedName file digest' file'] =
      .ok ⟨line (Spec.SHA2.sha256 (w.source file).delivered) file ++ line digest' file', 0⟩ := by
  rw [C36_sha2_256]
  have hne : forgedName file digest' file' ≠ [0x2d] := by
    intro h
    have hm : (0x0a : Byte) ∈ forgedName file digest' file' := by simp [forgedName]
    rw [h] at hm
    revert hm; decide
  simp only [World.source, if_neg hne, ↓reduceIte]
  have h := C64_list_fails (Spec.SHA2.sha256 (w.source file).delivered) file digest' file'
  simp only [List.flatMap_cons, List.flatMap_nil, List.append_nil, World.source] at h
  rw [h]

end Verif.Props
