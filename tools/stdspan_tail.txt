
section
open CShake Spec SP800185

/-- C58 for cSHAKE -/
theorem C58_CSHAKE (R : Nat) [SHA3.RateOK R] (self : Nat) (o o' : CShake R) (calls : List MemOp)
    (h : CShake.runAt self o calls = .ok o') : CShake.runStd self o calls = .ok o' := cshakeRun_gets self calls o o' h

/-- C58 for cSHAKE, for names and customization strings that the constructor can encode (C29). -/
theorem C58_CSHAKE_short (R : Nat) [SHA3.RateOK R] (h8 : R % 8 = 0) (nb : Nat → Nat) (hnb : ExactLog nb)
    (name custom : List Byte) (hn : name.length < 2 ^ 53 - 256) (hc : custom.length < 2 ^ 53 - 256) (d : Nat)
    (self : Nat) (hs : self ≠ 0) (calls : List MemOp) (ops : List Op) (h : HandsAll calls ops) :
    ∃ o o', construct nb R d name custom = .ok o ∧ CShake.runStd self o calls = .ok o' ∧ CShake.run o ops = .ok o' := by
  obtain ⟨o, o', e, e1, e2⟩ := C47_CSHAKE_short R h8 nb hnb name custom hn hc d self hs calls ops h
  exact ⟨o, o', e, cshakeRun_gets self calls o o' e1, e2⟩

/-- C58 for TupleHash -/
theorem C58_TupleHash (R : Nat) [SHA3.RateOK R] (nb : Nat → Nat) (self loc : Nat) (o o' : TupleHash R) (calls : List MemOp)
    (h : tupleRunAt nb self loc o calls = .ok o') : tupleRunStd nb self loc o calls = .ok o' :=
  tupleRun_gets nb self loc calls o o' h

/-- C58 for TupleHash, for digest lengths below 2^28 and elements below 2^53 - 256 bytes (C22, C29) -/
theorem C58_TupleHash_short (R : Nat) [SHA3.RateOK R] (h8 : R % 8 = 0) (nb : Nat → Nat) (hnb : ExactLog nb)
    (custom : List Byte) (hc : custom.length < 2 ^ 53 - 256) (d : Nat) (hd : d < 2 ^ 28)
    (self loc : Nat) (hs : self ≠ 0) (hl : loc ≠ 0) (calls : List MemOp) (ops : List Op) (h : HandsAll calls ops)
    (hsm : ∀ x, Op.add x ∈ ops → x.length < 2 ^ 53 - 256) :
    ∃ o o', tupleConstruct nb R d custom = .ok o ∧ tupleRunStd nb self loc o calls = .ok o' ∧ tupleRun nb o ops = .ok o' := by
  obtain ⟨o, o', e, e1, e2⟩ := C47_TupleHash_short R h8 nb hnb custom hc d hd self loc hs hl calls ops h hsm
  exact ⟨o, o', e, tupleRun_gets nb self loc calls o o' e1, e2⟩

end

/-- The key of a SipHash object -/
theorem C58_SipHash_key (mem : Mem) (p : Nat) (key : List Byte)
    (h : ∀ i (hi : i < key.length), mem (p + i) = some key[i]) :
    SipHash.constructStd mem ⟨p, key.length⟩ = SipHash.construct key := C47_SipHash_key mem p key h

/-- The converse does not hold: `gsl::span` ends the program when it is given a null pointer and a length; `std::span` reads
there, and if the address can be read nobody notices. -/
theorem C58_null_pointer_differs : ∃ calls o, CRC32.CRC_32.runStd CRC32.addDataStd CRC32.CRC_32.fresh calls = .ok o ∧
    CRC32.CRC_32.runAt CRC32.addDataAt CRC32.CRC_32.fresh calls = .error .spanBounds :=
  ⟨[.add (fun _ => some 7) 0 1], _, rfl, rfl⟩

/-! A history: the second call finds other bytes at the address of the first. -/
example := (C58_SHA1 4096 (by decide)).2
  [.add (fun a => if a = 1000 then some 1 else if a = 1001 then some 2 else none) 1000 2,
    .add (fun a => if a = 1000 then some 7 else none) 1000 1, .finalize] [.add [1, 2], .add [7], .finalize] (by
  refine ⟨⟨rfl, by decide, by decide, ?_⟩, ⟨rfl, by decide, by decide, ?_⟩, trivial, trivial⟩
  · intro i h
    match i, h with
    | 0, _ => rfl
    | 1, _ => rfl
  · intro i h
    match i, h with
    | 0, _ => rfl)

end Verif.Props
