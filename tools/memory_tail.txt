
/-- The key of a SipHash object is copied: the constructor reads its 16 bytes and keeps none of its address.
A key of another size fails the assertion before anything is read. -/
theorem C47_SipHash_key (mem : Mem) (p : Nat) (key : List Byte)
    (h : ∀ i (hi : i < key.length), mem (p + i) = some key[i]) :
    SipHash.constructAt mem ⟨p, key.length⟩ = SipHash.construct key := sipConstructAt h

section
open CShake Spec SP800185

/-- C47 for cSHAKE, for names and customization strings that the constructor can encode (C29). -/
theorem C47_CSHAKE_short (R : Nat) [SHA3.RateOK R] (h8 : R % 8 = 0) (nb : Nat → Nat) (hnb : ExactLog nb)
    (name custom : List Byte) (hn : name.length < 2 ^ 53 - 256) (hc : custom.length < 2 ^ 53 - 256) (d : Nat)
    (self : Nat) (hs : self ≠ 0) (calls : List MemOp) (ops : List Op) (h : HandsAll calls ops) :
    ∃ o o', construct nb R d name custom = .ok o ∧ CShake.runAt self o calls = .ok o' ∧
      CShake.run o ops = .ok o' := by
  obtain ⟨c, x, e, r⟩ := cshake_start R h8 nb hnb name custom hn hc d
  obtain ⟨o', e1, e2⟩ := cshakeSafe hs calls ops _ ⟨x, rfl, r⟩ h
  exact ⟨_, o', e, e1, e2⟩

/-- C47 for TupleHash, for digest lengths below 2^28 and elements below 2^53 - 256 bytes (C22, C29). `loc` is where
the local variable with the encoded length lies. -/
theorem C47_TupleHash_short (R : Nat) [SHA3.RateOK R] (h8 : R % 8 = 0) (nb : Nat → Nat) (hnb : ExactLog nb)
    (custom : List Byte) (hc : custom.length < 2 ^ 53 - 256) (d : Nat) (hd : d < 2 ^ 28)
    (self loc : Nat) (hs : self ≠ 0) (hl : loc ≠ 0) (calls : List MemOp) (ops : List Op) (h : HandsAll calls ops)
    (hsm : ∀ x, Op.add x ∈ ops → x.length < 2 ^ 53 - 256) :
    ∃ o o', tupleConstruct nb R d custom = .ok o ∧ tupleRunAt nb self loc o calls = .ok o' ∧
      tupleRun nb o ops = .ok o' := by
  have hname : CShake.tupleHashName = SP800185.tupleHashName := by decide +kernel
  obtain ⟨c, x, e, r⟩ := cshake_start R h8 nb hnb SP800185.tupleHashName custom (by decide +kernel) hc d
  obtain ⟨o', e1, e2⟩ := tupleSafe nb hnb hd hs hl calls ops _ ⟨x, rfl, r⟩ hsm h
  refine ⟨⟨Proof.CShake.mk c ⟨d, x⟩, d⟩, o', ?_, e1, e2⟩
  unfold tupleConstruct
  rw [hname, e]
  rfl

end

/-! A history meets the hypotheses: the second call finds other bytes at the address of the first, and the bytes of
the first are gone; the third hands over nothing, with a null pointer. -/
example : HandsAll
    [.add (fun a => if a = 1000 then some 1 else if a = 1001 then some 2 else none) 1000 2,
      .add (fun a => if a = 1000 then some 7 else none) 1000 1, .add (fun _ => none) 0 0, .finalize]
    [.add [1, 2], .add [7], .add [], .finalize] := by
  refine ⟨⟨rfl, by decide, by decide, ?_⟩, ⟨rfl, by decide, by decide, ?_⟩, ⟨rfl, by decide, by decide, ?_⟩, trivial, trivial⟩
  · intro i h
    match i, h with
    | 0, _ => rfl
    | 1, _ => rfl
  · intro i h
    match i, h with
    | 0, _ => rfl
  · intro i h; cases h

/-- A null pointer with a length that is not zero ends the program: the span may not be made. -/
theorem C47_null_pointer {O : Type} (A : API O) (addAt : O → Mem → GSpan → Except Fault O) (o : O) (mem : Mem)
    (n : Nat) (h : n ≠ 0) : A.stepAt addAt o (.add mem 0 n) = .error .spanBounds := by
  have : GSpan.make 0 n = .error .spanBounds := by
    unfold GSpan.make expects
    by_cases h2 : n = 2 ^ 64 - 1
    · subst h2; rfl
    · have h3 : (n != 2 ^ 64 - 1) = true := by simpa using h2
      have h4 : (0 != 0 || n == 0) = false := by simpa using h
      simp only [h3, h4, if_true]
      rfl
  simp only [API.stepAt, this]
  rfl

end Verif.Props
