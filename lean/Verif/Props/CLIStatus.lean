import Verif.Model.CLIStatus
import Verif.Props.CLIOutput

/-!
# C70: what the status of the command-line tool says

C70 in words: a run of the tool that ends with status 0 has printed the digest of the whole input. That is false: every run
that ends has status 0 - with the usage text, for a file that does not exist or cannot be read to its end, and when
the output could not be written. What can be relied on is the text: a line that was cut off is never taken for a
whole one, if the name of the file contains no line feed.
-/

namespace Verif.Props
open Model Model.CLI Proof.CLI Spec Spec.CLI

private theorem into (sink : Sink) (nb : Nat → Nat) (w : World) (args : List (List Byte)) (r : Outcome) :
    mainInto sink nb w args = .ok r ↔ ∃ t, CLI.main nb w args = .ok t ∧ r = ⟨sink.taken t.stdout, t.status⟩ := by
  unfold mainInto
  cases CLI.main nb w args with
  | error e => simp [bind, Except.bind]
  | ok t => simp [bind, Except.bind, pure, Except.pure, eq_comm]

/-- The status is 0 in every run that ends, so it says nothing. -/
theorem C70_status (sink : Sink) (nb : Nat → Nat) (w : World) (args : List (List Byte)) (r : Outcome)
    (h : mainInto sink nb w args = .ok r) : r.status = 0 := by
  obtain ⟨t, e, rfl⟩ := (into ..).1 h
  exact (C64_output nb w args t e).1

/-- Where the output goes does not change whether the run ends: the digest is computed all the same. -/
theorem C70_ends (sink sink' : Sink) (nb : Nat → Nat) (w : World) (args : List (List Byte)) :
    (∃ r, mainInto sink nb w args = .ok r) ↔ ∃ r, mainInto sink' nb w args = .ok r := by
  constructor <;> rintro ⟨r, h⟩ <;> obtain ⟨t, e, _⟩ := (into ..).1 h <;> exact ⟨_, (into ..).2 ⟨t, e, rfl⟩⟩

/-- With an output that takes nothing, every run that would print a line or the usage text ends with status 0 and has
printed nothing. -/
theorem C70_full_fails (nb : Nat → Nat) (w : World) (args : List (List Byte)) (r : Outcome)
    (h : mainInto .all nb w args = .ok r) : r.stdout ≠ [] ∧ mainInto (.first 0) nb w args = .ok ⟨[], 0⟩ := by
  obtain ⟨t, e, rfl⟩ := (into ..).1 h
  obtain ⟨hs, ho⟩ := C64_output nb w args t e
  constructor
  · show t.stdout ≠ []
    rcases ho with ⟨p, _, ho⟩ | ⟨d, f, _, _, ho⟩ <;> rw [ho]
    · intro h
      have h0 : (ascii "Usage: ").head? = some 0x55 := by decide +kernel
      have hu : (usage p).head? = some 0x55 := by
        unfold usage
        generalize ascii "Usage: " = u at h0
        simp only [List.head?_append, h0, Option.some_or]
      rw [h] at hu
      cases hu
    · simp [line]
  · exact (into ..).2 ⟨t, e, by rw [hs]; rfl⟩

/-- A run with an option that does not exist, and one for a file that does not exist, end with status 0; the second
prints the digest of the empty string. -/
theorem C70_wrong_fails (nb : Nat → Nat) (prog file : List Byte) :
    mainInto .all nb ⟨fun _ => .cannotOpen, .cannotOpen⟩ [prog, ascii "-sha256", file] = .ok ⟨usage prog, 0⟩ ∧
    mainInto .all nb ⟨fun _ => .cannotOpen, .cannotOpen⟩ [prog, ascii "-sha2-256", file] =
      .ok ⟨line (Spec.SHA2.sha256 []) file, 0⟩ := by
  constructor
  · refine (into ..).2 ⟨_, C36_unknown_option nb _ prog (ascii "-sha256") [file] (by decide), rfl⟩
  · refine (into ..).2 ⟨_, C36_sha2_256 nb _ prog file, ?_⟩
    have : (World.source ⟨fun _ => .cannotOpen, .cannotOpen⟩ file).delivered = [] := by
      unfold World.source; split <;> rfl
    rw [this]; rfl

/-- A run whose line is cut off after three bytes. -/
example (prog : List Byte) : mainInto (.first 3) (fun _ => 0) ⟨fun _ => .content [1, 2, 3], .cannotOpen⟩ [prog, ascii "-crc-32", [0x66]] =
    .ok ⟨ascii "55b", 0⟩ := by
  refine (into ..).2 ⟨_, C36_crc_32 _ _ _ _, ?_⟩
  decide +kernel

/-- What holds: a text that ends with a line feed is the whole line, if the name of the file contains none. So a reader
can tell a line that was cut off; a run that was told to print a line and ends with a line feed has printed the digest of
what could be read. The full statement, about the status, is false: `C70_full_fails`, `C70_wrong_fails`. -/
theorem C70_whole_partial (sink : Sink) (nb : Nat → Nat) (w : World) (args : List (List Byte)) (r : Outcome)
    (h : mainInto sink nb w args = .ok r) (t : Outcome) (ht : CLI.main nb w args = .ok t) (digest file : List Byte)
    (hline : t.stdout = line digest file) (hf : (0x0a : Byte) ∉ file) (hend : r.stdout.getLast? = some 0x0a) :
    r.stdout = line digest file := by
  obtain ⟨t', e, rfl⟩ := (into ..).1 h
  rw [ht] at e
  injection e with e
  subst e
  simp only [hline] at hend ⊢
  cases sink with
  | all => rfl
  | first n =>
    refine List.take_of_length_le (Nat.le_of_not_lt fun hn => ?_)
    have hm := List.mem_of_getLast? hend
    have hp : (line digest file).take n =
        ((hex digest).map (fun c : Char => (BitVec.ofNat 8 c.toNat : Byte)) ++ [0x20, 0x20] ++ file).take n := by
      refine List.take_append_of_le_length ?_
      have hn := hn
      simp only [line, List.length_append, List.length_cons, List.length_nil] at hn ⊢
      omega
    have hm : (0x0a : Byte) ∈ (line digest file).take n := hm
    rw [hp] at hm
    have hm := List.mem_of_mem_take hm
    simp only [List.mem_append] at hm
    rcases hm with (hm | hm) | hm
    · rw [hexBytes_map] at hm
      obtain ⟨b, _, hb⟩ := List.mem_flatMap.1 hm
      have h1 := (digit_plain' (b.toNat / 16) (by have := b.isLt; omega)).2
      have h2 := (digit_plain' (b.toNat % 16) (by omega)).2
      rcases List.mem_cons.1 hb with hb | hb
      · exact h1.1 hb.symm
      · exact h2.1 (List.mem_singleton.1 hb).symm
    · revert hm; decide
    · exact hf hm

/-- A run that meets the hypotheses. -/
example : ∃ r t, mainInto (.first 100) (fun _ => 0) ⟨fun _ => .content [1, 2, 3], .cannotOpen⟩ [[0x68], ascii "-crc-32", [0x66]] =
      .ok r ∧ CLI.main (fun _ => 0) ⟨fun _ => .content [1, 2, 3], .cannotOpen⟩ [[0x68], ascii "-crc-32", [0x66]] = .ok t ∧
    t.stdout = line [0x55, 0xbc, 0x80, 0x1d] [0x66] ∧ r.stdout.getLast? = some 0x0a := by
  refine ⟨_, _, (into ..).2 ⟨_, C36_crc_32 _ _ _ _, rfl⟩, C36_crc_32 _ _ _ _, ?_, ?_⟩ <;> decide +kernel

end Verif.Props
