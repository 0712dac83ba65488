
/-- C42 for the short Tiger variants: the calls never fault either; reading the digest does, see C16_short_overrun. -/
theorem C42_Tiger_any_partial (V D : Nat) (ops : List Op) (h : AnyOrder ops) :
    ∃ o, (Tiger.Tiger V D).run (Tiger.Tiger V D).fresh ops = .ok o := by
  have t : Total (Tiger.Tiger V D) := mdTotal (by decide) _ writesLE64 _ _ _
  obtain ⟨o, e, _⟩ := t.run ops _ h t.fresh
  exact ⟨o, e⟩
theorem C42_Tiger_any_reset (V D : Nat) : (Tiger.Tiger V D).ResetRepairs :=
  (mdTotal (by decide) _ writesLE64 _ _ _ : Total (Tiger.Tiger V D)).resetRepairs fun _ _ => rfl

/-- FNV-0 objects are not repaired by `reset()`: it does nothing. -/
theorem C42_FNV0_reset_fails : ¬ FNV.FNV32_0.ResetRepairs ∧ ¬ FNV.FNV64_0.ResetRepairs := by
  constructor <;> intro h
  · have := h [.add [1]] [] (by intro d hd; simp at hd; subst hd; decide)
    exact absurd (congrArg (fun x => x.toOption) this) (by decide +kernel)
  · have := h [.add [1]] [] (by intro d hd; simp at hd; subst hd; decide)
    exact absurd (congrArg (fun x => x.toOption) this) (by decide +kernel)

/-! What the readouts say when the order of calls is wrong: three different things. -/

/-- Keccak classes: once finalised, the digest stays what it was until `reset()`. Bytes added after `finalize()`
are lost without notice, and further `finalize()` calls are harmless. -/
theorem C42_SHA3_frozen (R : Nat) [SHA3.RateOK R] (P : Byte) (d : Nat) (before after : List Op)
    (hb : AnyOrder before) (ha : AnyOrder after) (hr : .reset ∉ after) :
    ∃ o o' x, (SHA3.Keccak R P d).run (SHA3.Keccak R P d).fresh (before ++ [.finalize]) = .ok o ∧
      (SHA3.Keccak R P d).run (SHA3.Keccak R P d).fresh (before ++ .finalize :: after) = .ok o' ∧
      (SHA3.Keccak R P d).toArray o = .ok x ∧ (SHA3.Keccak R P d).toArray o' = .ok x ∧ x.length = d :=
  Proof.Frozen.frozen R P d before after hb ha hr

/-- FNV-1 and FNV-1a: `finalize()` does nothing, so the value is the hash of all bytes since the last `reset()`,
whatever the order of the calls. -/
theorem C42_FNV_any_order (ops : List Op) :
    (∃ o, FNV.FNV32_1.run FNV.FNV32_1.fresh ops = .ok o ∧
      FNV.FNV32_1.toArray o = .ok (Spec.toBE 4 (Spec.FNV.fnv1 Spec.FNV.prime32 Spec.FNV.basis32 (message ops)).toNat)) ∧
    (∃ o, FNV.FNV32_1a.run FNV.FNV32_1a.fresh ops = .ok o ∧
      FNV.FNV32_1a.toArray o = .ok (Spec.toBE 4 (Spec.FNV.fnv1a Spec.FNV.prime32 Spec.FNV.basis32 (message ops)).toNat)) ∧
    (∃ o, FNV.FNV64_1.run FNV.FNV64_1.fresh ops = .ok o ∧
      FNV.FNV64_1.toArray o = .ok (Spec.toBE 8 (Spec.FNV.fnv1 Spec.FNV.prime64 Spec.FNV.basis64 (message ops)).toNat)) ∧
    (∃ o, FNV.FNV64_1a.run FNV.FNV64_1a.fresh ops = .ok o ∧
      FNV.FNV64_1a.toArray o = .ok (Spec.toBE 8 (Spec.FNV.fnv1a Spec.FNV.prime64 Spec.FNV.basis64 (message ops)).toNat)) := by
  refine ⟨⟨_, Proof.Frozen.fnv_run 32 1 (fun _ => rfl) ops [], ?_⟩, ⟨_, Proof.Frozen.fnv_run 32 2 (fun _ => rfl) ops [], ?_⟩,
    ⟨_, Proof.Frozen.fnv_run 64 1 (fun _ => rfl) ops [], ?_⟩, ⟨_, Proof.Frozen.fnv_run 64 2 (fun _ => rfl) ops [], ?_⟩⟩
  · exact (Proof.FNV.toArray_eq 32 1 _).trans (by
      rw [Proof.FNV.fold_1 _ Proof.FNV.mul32 1 (by decide), Proof.FNV.basis32_eq]; rfl)
  · exact (Proof.FNV.toArray_eq 32 2 _).trans (by
      rw [Proof.FNV.fold_1a _ Proof.FNV.mul32, Proof.FNV.basis32_eq]; rfl)
  · exact (Proof.FNV.toArray_eq 64 1 _).trans (by
      rw [Proof.FNV.fold_1 _ Proof.FNV.mul64 1 (by decide), Proof.FNV.basis64_eq]; rfl)
  · exact (Proof.FNV.toArray_eq 64 2 _).trans (by
      rw [Proof.FNV.fold_1a _ Proof.FNV.mul64, Proof.FNV.basis64_eq]; rfl)

/-- CRC-32: a second `finalize()` undoes the first. -/
theorem C42_CRC_32_twice (ops : List Op) (h : AnyOrder ops) :
    CRC32.CRC_32.run CRC32.CRC_32.fresh (ops ++ [.finalize, .finalize]) = CRC32.CRC_32.run CRC32.CRC_32.fresh ops := by
  obtain ⟨o, e, _⟩ := crcTotal.run ops _ h trivial
  rw [Refines.run_append, e]
  show Except.ok (~~~ ~~~ o) = _
  rw [BitVec.not_not]

/-- The block hashes give a different digest after a second `finalize()`, without notice. -/
theorem C42_second_finalize_changes :
    (∃ o o' d d', SHA2.SHA2_256.run SHA2.SHA2_256.fresh [.finalize] = .ok o ∧
      SHA2.SHA2_256.run SHA2.SHA2_256.fresh [.finalize, .finalize] = .ok o' ∧
      SHA2.SHA2_256.toArray o = .ok d ∧ SHA2.SHA2_256.toArray o' = .ok d' ∧ d ≠ d') ∧
    (∃ o o' d d', MD5.MD5.run MD5.MD5.fresh [.finalize] = .ok o ∧
      MD5.MD5.run MD5.MD5.fresh [.finalize, .finalize] = .ok o' ∧
      MD5.MD5.toArray o = .ok d ∧ MD5.MD5.toArray o' = .ok d' ∧ d ≠ d') := by
  have key : ∀ {O : Type} (A : API O), A.NeverFaults →
      (((A.run A.fresh [.finalize]).bind A.toArray).toOption ≠
        ((A.run A.fresh [.finalize, .finalize]).bind A.toArray).toOption) →
      ∃ o o' d d', A.run A.fresh [.finalize] = .ok o ∧ A.run A.fresh [.finalize, .finalize] = .ok o' ∧
        A.toArray o = .ok d ∧ A.toArray o' = .ok d' ∧ d ≠ d' := by
    intro O A n h
    obtain ⟨o, d, e, t⟩ := n [.finalize] (by intro d hd; simp at hd)
    obtain ⟨o', d', e', t'⟩ := n [.finalize, .finalize] (by intro d hd; simp at hd)
    refine ⟨o, o', d, d', e, e', t, t', ?_⟩
    rintro rfl
    apply h
    rw [e, e']
    exact congrArg Except.toOption (t.trans t'.symm)
  refine ⟨key _ C42_SHA2_256 ?_, key _ C42_MD5 ?_⟩
  · decide +kernel
  · decide +kernel

/-! cSHAKE and TupleHash -/

section
open CShake Proof.CShake Spec SP800185

theorem cshake_start (R : Nat) [SHA3.RateOK R] (h8 : R % 8 = 0) (nb : Nat → Nat) (hnb : ExactLog nb)
    (name custom : List Byte) (hn : name.length < 2 ^ 53 - 256) (hc : custom.length < 2 ^ 53 - 256) (d : Nat) :
    ∃ c x, construct nb R d name custom = .ok (Proof.CShake.mk c ⟨d, x⟩) ∧ Room R (fun _ => True) x := by
  by_cases hne : name = [] ∧ custom = []
  · obtain ⟨rfl, rfl⟩ := hne
    exact ⟨false, _, construct_plain nb d, (sha3Total R 0x1F d).fresh⟩
  · obtain ⟨x, e, hx⟩ := construct_mk nb hnb h8 d (Proof.SHA3.refines R h8 0x04 _ Proof.SHA3.suffix_cshake d) name
      custom hne hn hc
    exact ⟨true, x, e, ⟨_, hx.2, restPart_lt R _ (SHA3.RateOK.pos)⟩, trivial⟩

theorem cshake_any (R : Nat) [SHA3.RateOK R] (c : Bool) (d : Nat) (x : Obj R SHA3.KState)
    (h : Room R (fun _ => True) x) (ops : List Op) (ho : AnyOrder ops) :
    ∃ o z, CShake.run (Proof.CShake.mk c ⟨d, x⟩) ops = .ok o ∧ CShake.toVector o = .ok z := by
  obtain ⟨y, e, _⟩ := (sha3Total R (padOf c) d).run ops x ho h
  refine ⟨Proof.CShake.mk c ⟨d, y⟩, y.chain.final, by rw [run_mk, e]; rfl, ?_⟩
  rw [toVector_mk]
  rfl

/-- C42 for cSHAKE, for names and customization strings that the constructor can encode (C29). -/
theorem C42_CSHAKE_128_partial (nb : Nat → Nat) (hnb : ExactLog nb) (name custom : List Byte)
    (hn : name.length < 2 ^ 53 - 256) (hc : custom.length < 2 ^ 53 - 256) (d : Nat) (ops : List Op) (h : AnyOrder ops) :
    ∃ o o' z, construct nb 168 d name custom = .ok o ∧ CShake.run o ops = .ok o' ∧ CShake.toVector o' = .ok z := by
  obtain ⟨c, x, e, r⟩ := cshake_start 168 rfl nb hnb name custom hn hc d
  obtain ⟨o, z, e', t⟩ := cshake_any 168 c d x r ops h
  exact ⟨_, o, z, e, e', t⟩
theorem C42_CSHAKE_256_partial (nb : Nat → Nat) (hnb : ExactLog nb) (name custom : List Byte)
    (hn : name.length < 2 ^ 53 - 256) (hc : custom.length < 2 ^ 53 - 256) (d : Nat) (ops : List Op) (h : AnyOrder ops) :
    ∃ o o' z, construct nb 136 d name custom = .ok o ∧ CShake.run o ops = .ok o' ∧ CShake.toVector o' = .ok z := by
  obtain ⟨c, x, e, r⟩ := cshake_start 136 rfl nb hnb name custom hn hc d
  obtain ⟨o, z, e', t⟩ := cshake_any 136 c d x r ops h
  exact ⟨_, o, z, e, e', t⟩

theorem tuple_any (R : Nat) [SHA3.RateOK R] (h8 : R % 8 = 0) (nb : Nat → Nat) (hnb : ExactLog nb)
    (custom : List Byte) (hc : custom.length < 2 ^ 53 - 256) (d : Nat) (hd : d < 2 ^ 28) (ops : List Op)
    (hs : ∀ x, Op.add x ∈ ops → x.length < 2 ^ 53 - 256) :
    ∃ o o' z, tupleConstruct nb R d custom = .ok o ∧ tupleRun nb o ops = .ok o' ∧ tupleToVector o' = .ok z := by
  have hname : CShake.tupleHashName = SP800185.tupleHashName := by decide +kernel
  obtain ⟨c, x, e, r⟩ := cshake_start R h8 nb hnb SP800185.tupleHashName custom (by decide +kernel) hc d
  have ha : AnyOrder (calls d ops) := by
    clear e r
    induction ops with
    | nil => intro y hy; cases hy
    | cons op ops ih =>
      have ih' := ih fun y hy => hs y (by simp [hy])
      intro y hy
      cases op with
      | add z =>
        have hz := hs z (by simp)
        simp only [calls, List.mem_cons, Op.add.injEq] at hy
        rcases hy with rfl | rfl | hy
        · exact leftEncode_short _ (by omega)
        · omega
        · exact ih' y hy
      | reset =>
        simp only [calls, List.mem_cons, reduceCtorEq, false_or] at hy
        exact ih' y hy
      | finalize =>
        simp only [calls, List.mem_cons, Op.add.injEq, reduceCtorEq, false_or] at hy
        rcases hy with rfl | hy
        · exact rightEncode_short _ (by omega)
        · exact ih' y hy
  obtain ⟨o, z, e', t⟩ := cshake_any R c d x r _ ha
  refine ⟨⟨Proof.CShake.mk c ⟨d, x⟩, d⟩, ⟨o, d⟩, z, ?_, ?_, t⟩
  · unfold tupleConstruct
    rw [hname, e]
    rfl
  · rw [tupleRun_calls nb hnb d hd _ _ hs, e']
    rfl

/-- C42 for TupleHash, for digest lengths below 2^28 and elements below 2^53 - 256 bytes (C22, C29). -/
theorem C42_TupleHash_128_partial (nb : Nat → Nat) (hnb : ExactLog nb) (custom : List Byte)
    (hc : custom.length < 2 ^ 53 - 256) (d : Nat) (hd : d < 2 ^ 28) (ops : List Op)
    (hs : ∀ x, Op.add x ∈ ops → x.length < 2 ^ 53 - 256) :
    ∃ o o' z, tupleConstruct nb 168 d custom = .ok o ∧ tupleRun nb o ops = .ok o' ∧ tupleToVector o' = .ok z :=
  tuple_any 168 rfl nb hnb custom hc d hd ops hs
theorem C42_TupleHash_256_partial (nb : Nat → Nat) (hnb : ExactLog nb) (custom : List Byte)
    (hc : custom.length < 2 ^ 53 - 256) (d : Nat) (hd : d < 2 ^ 28) (ops : List Op)
    (hs : ∀ x, Op.add x ∈ ops → x.length < 2 ^ 53 - 256) :
    ∃ o o' z, tupleConstruct nb 136 d custom = .ok o ∧ tupleRun nb o ops = .ok o' ∧ tupleToVector o' = .ok z :=
  tuple_any 136 rfl nb hnb custom hc d hd ops hs

end

/-! A history that breaks every rule meets the hypotheses. -/
def unruly : List Op := [.finalize, .add [1, 2, 3], .finalize, .finalize, .reset, .reset, .add [], .finalize, .add [4]]
example : AnyOrder unruly ∧ ¬ Legal unruly := by
  refine ⟨?_, by decide⟩
  intro d hd
  simp [unruly] at hd
  rcases hd with h | h | h <;> subst h <;> decide

/-! The theorems with hypotheses on that history. -/
section Cases
open Proof.CShake (countBytes countBytes_exact)
private theorem unruly_any : AnyOrder unruly := by
  intro d hd
  simp [unruly] at hd
  rcases hd with h | h | h <;> subst h <;> decide
example := C42_Tiger_any_partial 2 16 unruly unruly_any
example := C42_SHA3_frozen 136 0x06 32 unruly [.add [1], .finalize, .add []] unruly_any
  (fun d h => by simp at h; rcases h with h | h <;> subst h <;> decide) (by decide)
example := C42_CRC_32_twice unruly unruly_any
example := C42_CSHAKE_128_partial countBytes countBytes_exact [] [7] (by decide) (by decide) 32 unruly unruly_any
example := C42_CSHAKE_256_partial countBytes countBytes_exact [] [7] (by decide) (by decide) 32 unruly unruly_any
example := C42_TupleHash_128_partial countBytes countBytes_exact [7] (by decide) 32 (by decide) unruly
  (fun d h => by simp [unruly] at h; rcases h with h | h | h <;> subst h <;> decide)
example := C42_TupleHash_256_partial countBytes countBytes_exact [7] (by decide) 32 (by decide) unruly
  (fun d h => by simp [unruly] at h; rcases h with h | h | h <;> subst h <;> decide)
end Cases

end Verif.Props
