
/-! ### SipHash: the key -/

/-- With a key of 16 bytes both builds construct the same object. -/
theorem C48_SipHash_key (key : List Byte) (h : key.length = 16) :
    ∃ o, SipHash.construct key = .ok o ∧ SipHash.constructR key = .ok o := by
  refine ⟨SipHash.constructKey ⟨key.toArray, h⟩, by unfold SipHash.construct; rw [dif_pos h], ?_⟩
  unfold SipHash.constructR
  rw [show blockAt 16 key 0 = .ok ⟨key.toArray, h⟩ from ?_]
  · rfl
  · have : (key.drop 0).take 16 = key := by rw [List.drop_zero, List.take_of_length_le (by omega)]
    unfold blockAt
    rw [dif_pos (by omega)]
    simp only [this]

/-- The builds differ in what they do with other keys: debug builds stop, release builds use the first 16 bytes of
a longer key and read past the end of a shorter one. -/
theorem C48_SipHash_wrong_key (key : List Byte) :
    (key.length ≠ 16 → SipHash.construct key = .error .assertion) ∧
    (16 < key.length → SipHash.constructR key = SipHash.construct (key.take 16)) ∧
    (key.length < 16 → ∃ e, SipHash.constructR key = .error e) := by
  refine ⟨fun h => by unfold SipHash.construct; rw [dif_neg h], fun h => ?_, fun h => ?_⟩
  · have h' : (key.take 16).length = 16 := by rw [List.length_take]; omega
    obtain ⟨o, e, e'⟩ := C48_SipHash_key _ h'
    rw [e, ← e']
    unfold SipHash.constructR blockAt
    rw [dif_pos (by omega), dif_pos (by omega)]
    simp only [List.drop_zero, List.take_take, Nat.min_self]
  · unfold SipHash.constructR blockAt
    rw [dif_neg (by omega)]
    exact ⟨_, rfl⟩

/-! ### cSHAKE and TupleHash

`nb` is the value of the floating-point expression for the number of bytes of a length (Model/CShake.lean). -/

section
open CShake

/-- Where the debug build gets through the release build does the same. Missing: the debug build gets through only
for strings below 2^53 - 256 bytes (`C42_CSHAKE_128_partial`, `C42_CSHAKE_256_partial`); for longer ones the
release build writes past the end of a buffer. -/
theorem C48_CSHAKE_partial (R : Nat) [SHA3.RateOK R] (nb : Nat → Nat) (name custom : List Byte) (d : Int)
    (ops : List Op) (o o' : CShake R) (hc : construct nb R d name custom = .ok o) (hr : CShake.run o ops = .ok o') :
    constructR nb R d name custom = .ok o ∧ runR o ops = .ok o' :=
  ⟨Proof.Release.construct nb d name custom o hc, crun ops o o' hr⟩

theorem C48_TupleHash_partial (R : Nat) [SHA3.RateOK R] (nb : Nat → Nat) (custom : List Byte) (d : Int)
    (ops : List Op) (o o' : TupleHash R) (hc : tupleConstruct nb R d custom = .ok o)
    (hr : tupleRun nb o ops = .ok o') : tupleConstructR nb R d custom = .ok o ∧ tupleRunR nb o ops = .ok o' :=
  ⟨tconstruct nb d custom o hc, trun nb ops o o' hr⟩

/-- the hypotheses are met for every string and tuple below the bounds -/
example (nb : Nat → Nat) (hnb : Spec.SP800185.ExactLog nb) (name custom : List Byte) (hn : name.length < 2 ^ 53 - 256)
    (hc : custom.length < 2 ^ 53 - 256) (d : Nat) (ops : List Op) (h : AnyOrder ops) :
    ∃ o o', constructR nb 168 d name custom = .ok o ∧ runR o ops = .ok o' := by
  obtain ⟨o, o', _, e, r, _⟩ := C42_CSHAKE_128_partial nb hnb name custom hn hc d ops h
  exact ⟨o, o', C48_CSHAKE_partial 168 nb name custom d ops o o' e r⟩
example (nb : Nat → Nat) (hnb : Spec.SP800185.ExactLog nb) (custom : List Byte) (hc : custom.length < 2 ^ 53 - 256) (d : Nat)
    (hd : d < 2 ^ 28) (ops : List Op) (hs : ∀ x, Op.add x ∈ ops → x.length < 2 ^ 53 - 256) :
    ∃ o o', tupleConstructR nb 136 d custom = .ok o ∧ tupleRunR nb o ops = .ok o' := by
  obtain ⟨o, o', _, e, r, _⟩ := C42_TupleHash_256_partial nb hnb custom hc d hd ops hs
  exact ⟨o, o', C48_TupleHash_partial 136 nb custom d ops o o' e r⟩

end

/-- calls in a wrong order, with data that crosses a block boundary -/
example : AnyOrder [.finalize, .add (List.replicate 100 0x61), .reset, .add [1, 2], .finalize, .finalize] := by
  intro d h
  simp at h
  rcases h with h | h <;> subst h <;> simp

example := C48_SipHash_key ((List.range 16).map (BitVec.ofNat 8)) (by decide)

end Verif.Props
