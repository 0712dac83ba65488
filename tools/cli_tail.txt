set_option maxRecDepth 8000 in
theorem cshake_cli_byte1 :
    (do CShake.toVector (← CShake.run (← CShake.construct Proof.CShake.countBytes 168 1 [0x61] []) ([] ++ [Op.finalize]))) = .ok [0x3d] := by
  decide +kernel

set_option maxRecDepth 8000 in
theorem cshake_cli_byte2 :
    (do CShake.toVector (← CShake.run (← CShake.construct Proof.CShake.countBytes 168 1 [] [0x61]) ([] ++ [Op.finalize]))) = .ok [0xbd] := by
  decide +kernel

private theorem cshake_byte_of (name custom : List Byte) (hn : name.length < 2 ^ 53 - 256) (hc : custom.length < 2 ^ 53 - 256) (b : Byte)
    (h : (do CShake.toVector (← CShake.run (← CShake.construct Proof.CShake.countBytes 168 1 name custom)
      ([] ++ [Op.finalize]))) = .ok [b]) : SP800185.cshake128 [] 1 name custom = [b] := by
  obtain ⟨o, a, e1, e2, e3⟩ := C21_CSHAKE_128_partial Proof.CShake.countBytes Proof.CShake.countBytes_exact name custom hn hc 1
    [] (by decide) (fun _ h => by cases h)
  rw [show ((1 : Int)) = ((1 : Nat) : Int) from rfl, e1] at h
  simp only [bind, Except.bind] at h
  rw [e2] at h
  simp only [] at h
  rw [e3] at h
  injection h

/-- C36 is false for -cshake-128: with the text "a" and an empty file, the tool prints another digest than
that of cSHAKE128 with customization string "a" (and empty function name). -/
theorem C36_cshake_128_fails (hnb : ExactLog nb) (h : w.source file = .content []) :
    CLI.main nb w [prog, ascii "-cshake-128", ascii "1", ascii "a", file] ≠
      .ok ⟨line (SP800185.cshake128 [] 1 [] (ascii "a")) file, 0⟩ := by
  have ha := C36_cshake_128_actual nb w prog file hnb 1 (by decide) (by decide) (ascii "a") (by decide)
  rw [show decimal 1 = ascii "1" by decide +kernel, h] at ha
  rw [ha]
  intro hq
  injection hq with hq
  injection hq with hq
  have hq := line_inj _ _ _ hq
  have e1 := cshake_byte_of [0x61] [] (by decide) (by decide) _ cshake_cli_byte1
  have e2 := cshake_byte_of [] [0x61] (by decide) (by decide) _ cshake_cli_byte2
  rw [show ascii "a" = [0x61] from rfl] at hq
  rw [show Source.delivered (.content []) = [] from rfl, e1, e2] at hq
  revert hq
  decide

/-! BLAKE1: right for the lengths for which the classes are right (C18). -/

@@BLAKE@@
/-- The tool prints a wrong digest of a file of 56 zero bytes (112 and 127 for the long variants). -/
theorem C36_blake1_fails :
    (∀ r : Fin 64, 56 ≤ r.val → w.source file = .content (List.replicate r 0) →
      CLI.main nb w [prog, ascii "-blake1-224", file] ≠ .ok ⟨line (Spec.BLAKE.blake224 (List.replicate r 0)) file, 0⟩ ∧
      CLI.main nb w [prog, ascii "-blake1-256", file] ≠ .ok ⟨line (Spec.BLAKE.blake256 (List.replicate r 0)) file, 0⟩) ∧
    (w.source file = .content (List.replicate 112 0) →
      CLI.main nb w [prog, ascii "-blake1-384", file] ≠ .ok ⟨line (Spec.BLAKE.blake384 (List.replicate 112 0)) file, 0⟩) ∧
    (w.source file = .content (List.replicate 127 0) →
      CLI.main nb w [prog, ascii "-blake1-512", file] ≠ .ok ⟨line (Spec.BLAKE.blake512 (List.replicate 127 0)) file, 0⟩) := by
  have key : ∀ {O : Type} {A : API O} (opt : List Byte) (c s : List Byte), w.source file = .content c →
      (∃ d, A.digest [c] = .ok d ∧ CLI.main nb w [prog, opt, file] = .ok ⟨line d file, 0⟩) →
      A.digest [c] ≠ .ok s → CLI.main nb w [prog, opt, file] ≠ .ok ⟨line s file, 0⟩ := by
    intro O A opt c s hw ⟨d, e, em⟩ hne hq
    rw [em] at hq
    injection hq with hq
    injection hq with hq
    rw [e, line_inj _ _ _ hq] at hne
    exact hne rfl
  have small : ∀ n, n < 128 → w.source file = .content (List.replicate n 0) →
      (w.source file).delivered.length < 2 ^ 64 := by
    intro n hn h
    rw [h]
    show (List.replicate n (0 : Byte)).length < 2 ^ 64
    rw [List.length_replicate]; omega
  refine ⟨fun r hr h => ⟨?_, ?_⟩, fun h => ?_, fun h => ?_⟩
  · refine key _ _ _ h ?_ (C18_Blake1_224_fails r hr)
    have := C35_blake1_224 nb w prog file (small r (by omega) h)
    rwa [h] at this
  · refine key _ _ _ h ?_ (C18_Blake1_256_fails r hr)
    have := C35_blake1_256 nb w prog file (small r (by omega) h)
    rwa [h] at this
  · refine key _ _ _ h ?_ C18_Blake1_384_fails
    have := C35_blake1_384 nb w prog file (small 112 (by omega) h)
    rwa [h] at this
  · refine key _ _ _ h ?_ C18_Blake1_512_fails
    have := C35_blake1_512 nb w prog file (small 127 (by omega) h)
    rwa [h] at this

/-- C36 is false for the four short Tiger options: whatever the file, the program writes past the end of an
array. -/
theorem C36_tiger_short_fails :
    CLI.main nb w [prog, ascii "-tiger1-128", file] = .error .resultOverrun ∧
    CLI.main nb w [prog, ascii "-tiger1-160", file] = .error .resultOverrun ∧
    CLI.main nb w [prog, ascii "-tiger2-128", file] = .error .resultOverrun ∧
    CLI.main nb w [prog, ascii "-tiger2-160", file] = .error .resultOverrun := by
  have key : ∀ (V D : Nat), (∀ o, (Tiger.Tiger V D).toArray o = .error .resultOverrun) →
      readNPrint (ofAPI (Tiger.Tiger V D)) w file = .error .resultOverrun := by
    intro V D h
    obtain ⟨ps, -, h2, h3⟩ := readNPrint_pieces (Tiger.Tiger V D) w file
    obtain ⟨o, e⟩ := C02_Tiger_any V D _ (Refines.legal_adds ps h2)
    rw [h3, e]
    simp only [bind, Except.bind, API.toString, h]
  refine ⟨main_error nb w prog _ [file] .Tiger1_128 _ (by decide +kernel) ?_,
    main_error nb w prog _ [file] .Tiger1_160 _ (by decide +kernel) ?_,
    main_error nb w prog _ [file] .Tiger2_128 _ (by decide +kernel) ?_,
    main_error nb w prog _ [file] .Tiger2_160 _ (by decide +kernel) ?_⟩
  · have := key 1 128 fun o => (C16_short_overrun o).1
    simp only [runHash, plain, Tiger.Tiger1_128, this, bind, Except.bind]
  · have := key 1 160 fun o => (C16_short_overrun o).2.1
    simp only [runHash, plain, Tiger.Tiger1_160, this, bind, Except.bind]
  · have := key 2 128 fun o => (C16_short_overrun o).2.2.1
    simp only [runHash, plain, Tiger.Tiger2_128, this, bind, Except.bind]
  · have := key 2 160 fun o => (C16_short_overrun o).2.2.2
    simp only [runHash, plain, Tiger.Tiger2_160, this, bind, Except.bind]

/-! ### C36: everything else prints the usage text -/

/-- The options named in the usage text are exactly those the program knows. -/
theorem C36_usage_options : (words (usage [])).filter (fun x => x.head? = some 0x2d ∧ 1 < x.length) = names.map ascii := by
  decide +kernel

/-- An option that is not among them gets the usage text. -/
theorem C36_unknown_option (opt : List Byte) (rest : List (List Byte)) (h : ∀ n ∈ names, opt ≠ ascii n) :
    CLI.main nb w (prog :: opt :: rest) = .ok ⟨usage prog, 0⟩ :=
  main_none nb w prog opt rest .Invalid (search_none opt names 0 h) rfl

/-- So does no option at all. -/
theorem C36_no_option : CLI.main nb w [prog] = .ok ⟨usage prog, 0⟩ := rfl

/-- How many arguments the usage text gives each option, the file included. -/
def argumentCount (option : String) : Nat :=
  if option ∈ ["-shake-128", "-shake-256"] then 2
  else if option ∈ ["-cshake-128", "-cshake-256", "-tuple-hash-128", "-tuple-hash-256"] then 3
  else 1

/-- So does another number of arguments than the option needs. -/
theorem C36_argument_count (opt : String) (ho : opt ∈ names) (rest : List (List Byte))
    (hr : rest.length ≠ argumentCount opt) :
    CLI.main nb w (prog :: ascii opt :: rest) = .ok ⟨usage prog, 0⟩ := by
  simp only [names, List.mem_cons, List.not_mem_nil, or_false] at ho
  rcases ho with @@RFLS@@
@@COUNT@@
/-- So does a length without any digit in it. -/
theorem C36_not_a_number (text custom : List Byte) (h : ∀ b ∈ text, isDigit b = false) :
    CLI.main nb w [prog, ascii "-shake-128", text, file] = .ok ⟨usage prog, 0⟩ ∧
    CLI.main nb w [prog, ascii "-shake-256", text, file] = .ok ⟨usage prog, 0⟩ ∧
    CLI.main nb w [prog, ascii "-cshake-128", text, custom, file] = .ok ⟨usage prog, 0⟩ ∧
    CLI.main nb w [prog, ascii "-cshake-256", text, custom, file] = .ok ⟨usage prog, 0⟩ ∧
    CLI.main nb w [prog, ascii "-tuple-hash-128", text, custom, file] = .ok ⟨usage prog, 0⟩ ∧
    CLI.main nb w [prog, ascii "-tuple-hash-256", text, custom, file] = .ok ⟨usage prog, 0⟩ := by
  have hs := stoi_none text h
  refine ⟨main_none nb w prog _ _ .Shake_128 (by decide +kernel) ?_, main_none nb w prog _ _ .Shake_256 (by decide +kernel) ?_,
    main_none nb w prog _ _ .Cshake_128 (by decide +kernel) ?_, main_none nb w prog _ _ .Cshake_256 (by decide +kernel) ?_,
    main_none nb w prog _ _ .Tuple_hash_128 (by decide +kernel) ?_,
    main_none nb w prog _ _ .Tuple_hash_256 (by decide +kernel) ?_⟩ <;>
  simp only [runHash, CLI.shake, CLI.cshake, CLI.tupleHash, hs, bind, Except.bind, pure, Except.pure]

/-- C36 fails for lengths of 2^31 and more: `std::stoi` throws an exception that nothing catches. -/
theorem C36_large_length_fails (d : Nat) (hd : 2 ^ 31 ≤ d) (custom : List Byte) :
    CLI.main nb w [prog, ascii "-shake-128", decimal d, file] = .error .outOfRange ∧
    CLI.main nb w [prog, ascii "-shake-256", decimal d, file] = .error .outOfRange ∧
    CLI.main nb w [prog, ascii "-cshake-128", decimal d, custom, file] = .error .outOfRange ∧
    CLI.main nb w [prog, ascii "-cshake-256", decimal d, custom, file] = .error .outOfRange ∧
    CLI.main nb w [prog, ascii "-tuple-hash-128", decimal d, custom, file] = .error .outOfRange ∧
    CLI.main nb w [prog, ascii "-tuple-hash-256", decimal d, custom, file] = .error .outOfRange := by
  have hs := stoi_large d hd
  refine ⟨main_error nb w prog _ _ .Shake_128 _ (by decide +kernel) ?_, main_error nb w prog _ _ .Shake_256 _ (by decide +kernel) ?_,
    main_error nb w prog _ _ .Cshake_128 _ (by decide +kernel) ?_, main_error nb w prog _ _ .Cshake_256 _ (by decide +kernel) ?_,
    main_error nb w prog _ _ .Tuple_hash_128 _ (by decide +kernel) ?_,
    main_error nb w prog _ _ .Tuple_hash_256 _ (by decide +kernel) ?_⟩ <;>
  simp only [runHash, CLI.shake, CLI.cshake, CLI.tupleHash, hs, bind, Except.bind]

/-- And for negative lengths: the constructors throw. -/
theorem C36_negative_length_fails (d : Nat) (h0 : 0 < d) (hd : d ≤ 2 ^ 31) (custom : List Byte) :
    CLI.main nb w [prog, ascii "-shake-128", ascii "-" ++ decimal d, file] = .error .badLength ∧
    CLI.main nb w [prog, ascii "-shake-256", ascii "-" ++ decimal d, file] = .error .badLength ∧
    CLI.main nb w [prog, ascii "-cshake-128", ascii "-" ++ decimal d, custom, file] = .error .badLength ∧
    CLI.main nb w [prog, ascii "-cshake-256", ascii "-" ++ decimal d, custom, file] = .error .badLength ∧
    CLI.main nb w [prog, ascii "-tuple-hash-128", ascii "-" ++ decimal d, custom, file] = .error .badLength ∧
    CLI.main nb w [prog, ascii "-tuple-hash-256", ascii "-" ++ decimal d, custom, file] = .error .badLength := by
  have hs := stoi_negative d hd
  have hk : ∀ (R : Nat) [SHA3.RateOK R], SHA3.construct R 0x1F (-(d : Int)) = .error .badLength := by
    intro R _; unfold SHA3.construct; rw [if_pos (by omega)]
  have hc := fun t => C21_negative nb (-(d : Int)) (by omega) t []
  have ht := C21_negative nb (-(d : Int)) (by omega) [] custom
  refine ⟨main_error nb w prog _ _ .Shake_128 _ (by decide +kernel) ?_, main_error nb w prog _ _ .Shake_256 _ (by decide +kernel) ?_,
    main_error nb w prog _ _ .Cshake_128 _ (by decide +kernel) ?_, main_error nb w prog _ _ .Cshake_256 _ (by decide +kernel) ?_,
    main_error nb w prog _ _ .Tuple_hash_128 _ (by decide +kernel) ?_,
    main_error nb w prog _ _ .Tuple_hash_256 _ (by decide +kernel) ?_⟩ <;>
  simp only [runHash, CLI.shake, CLI.cshake, CLI.tupleHash, hs, hk, (hc custom).1, (hc custom).2.1, ht.2.2.1, ht.2.2.2, bind,
    Except.bind]

/-- Run without even a program name, the program makes a string from a null pointer. -/
theorem C36_no_arguments_fails : CLI.main nb w [] = .error .nullDeref := rfl

/-! ### C35: unreadable files -/

/-- C35 fails for files that cannot be opened or read to the end: the output depends only on the bytes that
could be read, so nothing tells a missing file from an empty one, or a read error from the end of the file. -/
theorem C35_unreadable_fails (w w' : World) (h : (w.source file).delivered = (w'.source file).delivered)
    (hl : (w.source file).delivered.length < 2 ^ 64) (opt : String) (ho : opt ∈ names) :
    CLI.main nb w [prog, ascii opt, file] = CLI.main nb w' [prog, ascii opt, file] := by
  have key : ∀ {O : Type} {A : API O} {o : List Byte},
      (∃ d, A.digest [(w.source file).delivered] = .ok d ∧ CLI.main nb w [prog, o, file] = .ok ⟨line d file, 0⟩) →
      (∃ d, A.digest [(w'.source file).delivered] = .ok d ∧ CLI.main nb w' [prog, o, file] = .ok ⟨line d file, 0⟩) →
      CLI.main nb w [prog, o, file] = CLI.main nb w' [prog, o, file] := by
    rintro O A o ⟨d, e, q⟩ ⟨d', e', q'⟩
    rw [← h, e] at e'
    injection e' with e'
    rw [q, q', e']
  have hl' : (w'.source file).delivered.length < 2 ^ 64 := h ▸ hl
  have tig := C36_tiger_short_fails nb w prog file
  have tig' := C36_tiger_short_fails nb w' prog file
  have ha := fun o ho hc => C36_argument_count nb w prog o ho [file] hc
  have ha' := fun o ho hc => C36_argument_count nb w' prog o ho [file] hc
  simp only [names, List.mem_cons, List.not_mem_nil, or_false] at ho
  rcases ho with @@RFLS@@
@@SAME@@
/-- A missing file and an empty one: both digests are those of the empty string. -/
example : CLI.main nb ⟨fun _ => .cannotOpen, .cannotOpen⟩ [prog, ascii "-md5", ascii "x"] =
    CLI.main nb ⟨fun _ => .content [], .cannotOpen⟩ [prog, ascii "-md5", ascii "x"] :=
  C35_unreadable_fails nb prog (ascii "x") ⟨fun _ => .cannotOpen, .cannotOpen⟩ ⟨fun _ => .content [], .cannotOpen⟩ rfl (by decide) "-md5" (by decide)

/-! ### The hypotheses can be met -/

example : decimal 64 = ascii "64" ∧ (∀ b, (ascii " bytes").head? = some b → isDigit b = false) := by
  refine ⟨by decide +kernel, ?_⟩
  intro b hb
  injection hb with hb
  subst hb
  rfl

example : (({ file := fun _ => .content [1, 2, 3], stdin := .cannotOpen } : World).source (ascii "a.txt")).delivered = [1, 2, 3] := by
  decide

section Cases
open Proof.CShake (countBytes countBytes_exact)
/-- a directory with one file of three bytes, whatever its name -/
def abcWorld : World := ⟨fun _ => .content (ascii "abc"), .content []⟩
example := C36_whirlpool nb abcWorld prog (ascii "f") (by decide)
example := C36_shake_128 nb abcWorld prog (ascii "f") 64 (by decide) (by decide) (ascii " bytes")
  (fun b hb => by injection hb with hb; subst hb; rfl)
example := C36_shake_256 nb abcWorld prog (ascii "f") 64 (by decide) (by decide) [] (fun b hb => by cases hb)
example := C36_tuple_hash_128 countBytes abcWorld prog (ascii "f") countBytes_exact 64 (by decide) (by decide) (ascii "c") (by decide)
  (by decide)
example := C36_tuple_hash_256 countBytes abcWorld prog (ascii "f") countBytes_exact 64 (by decide) (by decide) (ascii "c") (by decide)
  (by decide)
example := C36_cshake_128_actual countBytes abcWorld prog (ascii "f") countBytes_exact 64 (by decide) (by decide) (ascii "c") (by decide)
example := C36_cshake_256_actual countBytes abcWorld prog (ascii "f") countBytes_exact 64 (by decide) (by decide) (ascii "c") (by decide)
example := C36_cshake_128_fails countBytes abcWorld prog (ascii "-") countBytes_exact rfl
example := C36_blake1_224_partial nb abcWorld prog (ascii "f") (by decide)
example := C36_blake1_256_partial nb abcWorld prog (ascii "f") (by decide)
example := C36_blake1_384_partial nb abcWorld prog (ascii "f") (by decide)
example := C36_blake1_512_partial nb abcWorld prog (ascii "f") (by decide)
example := C36_argument_count nb abcWorld prog "-md5" (by decide) [ascii "f", ascii "g"] (by decide)
example := C36_not_a_number nb abcWorld prog (ascii "f") (ascii "bytes") (ascii "c") (by decide)
example := C36_large_length_fails nb abcWorld prog (ascii "f") (2 ^ 31) (by decide) (ascii "c")
example := C36_negative_length_fails nb abcWorld prog (ascii "f") 1 (by decide) (by decide) (ascii "c")
example := C36_unknown_option nb abcWorld prog (ascii "-sha0") [ascii "f"] (by decide)
end Cases

end Verif.Props
