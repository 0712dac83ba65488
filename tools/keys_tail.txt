
/-- one block: the padding of the empty message for SHA3-256 -/
def paddedEmpty : List Byte := 6 :: List.replicate 134 0 ++ [0x80]

/-- C43 is false of SHA-3 objects that are not all finalised: an object that has been given the bytes of a padded
message compares equal to one that was finalised after the message, but its hash is 0. -/
theorem C43_SHA3_256_fails : ¬SHA3.SHA3_256.KeyLike SHA3.eq := by
  intro h
  have key : ((SHA3.SHA3_256.run SHA3.SHA3_256.fresh [.finalize]).bind fun o =>
      (SHA3.SHA3_256.run SHA3.SHA3_256.fresh [.add paddedEmpty]).bind fun o' =>
      .ok (SHA3.eq o o' && (SHA3.SHA3_256.stdHash o).toOption == some 0xa7ffc6f8bf1ed766#64 &&
        (SHA3.SHA3_256.stdHash o').toOption == some 0#64)).toOption = some true := by decide +kernel
  cases e : SHA3.SHA3_256.run SHA3.SHA3_256.fresh [.finalize] with
  | error _ => rw [e] at key; simp [Except.bind, Except.toOption] at key
  | ok o =>
    cases e' : SHA3.SHA3_256.run SHA3.SHA3_256.fresh [.add paddedEmpty] with
    | error _ => rw [e, e'] at key; simp [Except.bind, Except.toOption] at key
    | ok o' =>
      rw [e, e'] at key
      simp only [Except.bind, Except.toOption, Option.some.injEq, Bool.and_eq_true, beq_iff_eq] at key
      have := h.hash o o' key.1.1
      rw [this] at key
      have h1 := key.1.2
      rw [key.2] at h1
      exact absurd h1 (by decide)

/-- C43 is false of finalised SHAKE objects with different requested lengths: objects asked for one and for two bytes
of the same message compare equal and have different hashes. -/
theorem C43_SHAKE_128_fails : ∃ o o' v v', (SHA3.SHAKE_128 1).run (SHA3.SHAKE_128 1).fresh [.finalize] = .ok o ∧
    (SHA3.SHAKE_128 2).run (SHA3.SHAKE_128 2).fresh [.finalize] = .ok o' ∧ SHA3.eq o o' = true ∧
    (SHA3.SHAKE_128 1).stdHash o = .ok v ∧ (SHA3.SHAKE_128 2).stdHash o' = .ok v' ∧ v ≠ v' := by
  have key : (((SHA3.SHAKE_128 1).run (SHA3.SHAKE_128 1).fresh [.finalize]).bind fun o =>
      ((SHA3.SHAKE_128 2).run (SHA3.SHAKE_128 2).fresh [.finalize]).bind fun o' =>
      .ok (SHA3.eq o o' && ((SHA3.SHAKE_128 1).stdHash o).toOption == some 0x7f#64 &&
        ((SHA3.SHAKE_128 2).stdHash o').toOption == some 0x7f9c#64)).toOption = some true := by decide +kernel
  cases e : (SHA3.SHAKE_128 1).run (SHA3.SHAKE_128 1).fresh [.finalize] with
  | error _ => rw [e] at key; simp [Except.bind, Except.toOption] at key
  | ok o =>
    cases e' : (SHA3.SHAKE_128 2).run (SHA3.SHAKE_128 2).fresh [.finalize] with
    | error _ => rw [e, e'] at key; simp [Except.bind, Except.toOption] at key
    | ok o' =>
      rw [e, e'] at key
      simp only [Except.bind, Except.toOption, Option.some.injEq, Bool.and_eq_true, beq_iff_eq] at key
      have g {v : BitVec 64} {x : Except Fault (BitVec 64)} (h : x.toOption = some v) : x = .ok v := by
        cases x with
        | error _ => cases h
        | ok w => exact congrArg _ (Option.some.inj h)
      exact ⟨o, o', 0x7f#64, 0x7f9c#64, rfl, rfl, key.1.1, g key.1.2, g key.2, by decide⟩

/-! Objects that compare equal without being the same object: different buffered bytes. -/
example : ((SHA1.SHA1.run SHA1.SHA1.fresh [.add [1]]).bind fun o => (SHA1.SHA1.run SHA1.SHA1.fresh [.add [2]]).bind fun o' =>
    .ok (SHA1.eq o o')).toOption = some true := by decide +kernel

end Verif.Props
