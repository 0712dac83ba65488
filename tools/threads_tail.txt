
/-- There is a way to read a block, whatever is done with it: each byte once. -/
theorem C51_readOnce {S : Type} {B : Nat} (body : S → Block B → S) : Reads (readOnce body) body := readOnce_reads body

/-- The way of md5.h, which reads every word of the caller's block four times. -/
theorem C51_MD5_loader (self : Nat) (hs : self ≠ 0) :
    MD5.MD5.ScheduleIndependent (addDataAct 64 (mdImplAct 64 counterLE64 MD5.compressAct) self) :=
  C51_MD5 self hs md5_reads

/-- With what a class computes (C01 to C25): a thread that makes legal calls and ends with `finalize` gets the digest
of its own message in every schedule. -/
theorem C51_message {O : Type} {A : API O} {addAct : O → GSpan → Act O} {dom : List Byte → Prop}
    {spec : List Byte → List Byte} (h : A.ScheduleIndependent addAct) (hc : A.ComputesOn dom spec)
    (cmds : List Cmd) (ops : List Op) (m : Mem) (hh : HandsAll (Cmd.calls m cmds) (ops ++ [.finalize]))
    (hl : Legal (ops ++ [.finalize])) (hd : dom (message ops)) :
    Undisturbed (A.thread addAct cmds) m (Cmd.Stores cmds) (.ok (spec (message ops))) := by
  obtain ⟨o, e1, e2⟩ := hc ops hl hd
  have := h cmds _ m hh
  unfold API.digestAfter at this
  rw [e1] at this
  simp only [Proof.Memory.okb, e2] at this
  exact this

/-- An instance: SHA-256, with blocks read in any way. -/
theorem C51_SHA2_256_digest (self : Nat) (hs : self ≠ 0) {bodyAct}
    (hb : Reads bodyAct (SHA2.compress SHA2.cfg32 (by decide)))
    (cmds : List Cmd) (ops : List Op) (m : Mem) (hh : HandsAll (Cmd.calls m cmds) (ops ++ [.finalize]))
    (hl : Legal (ops ++ [.finalize])) :
    Undisturbed (SHA2.SHA2_256.thread (addDataAct 64 (mdImplAct 64 counterBE64 bodyAct) self) cmds) m
      (Cmd.Stores cmds) (.ok (Spec.SHA2.sha256 (message ops))) :=
  C51_message (C51_SHA2_256 self hs hb) C08_SHA2_256 cmds ops m hh hl trivial

section
open CShake Spec SP800185

/-- C51 for cSHAKE, for names and customization strings that the constructor can encode (C29). -/
theorem C51_CSHAKE_short (R : Nat) [SHA3.RateOK R] (h8 : R % 8 = 0) (nb : Nat → Nat) (hnb : ExactLog nb)
    (name custom : List Byte) (hn : name.length < 2 ^ 53 - 256) (hc : custom.length < 2 ^ 53 - 256) (d : Nat)
    (self : Nat) (hs : self ≠ 0) {bodyAct} (hb : Reads bodyAct (SHA3.body (R := R)))
    (cmds : List Cmd) (ops : List Op) (m : Mem) (h : HandsAll (Cmd.calls m cmds) ops) :
    Undisturbed (CShake.thread bodyAct self (construct nb R d name custom) cmds) m (Cmd.Stores cmds)
      (do CShake.toVector (← CShake.run (← construct nb R d name custom) ops)) := by
  obtain ⟨o, o', e, e1, e2⟩ := C47_CSHAKE_short R h8 nb hnb name custom hn hc d self hs _ ops h
  have := cshakeUndisturbed hb e e1
  rw [e] at this ⊢
  simp only [Proof.Memory.okb, e2]
  exact this

/-- C51 for TupleHash, for digest lengths below 2^28 and elements below 2^53 - 256 bytes (C22, C29). -/
theorem C51_TupleHash_short (R : Nat) [SHA3.RateOK R] (h8 : R % 8 = 0) (nb : Nat → Nat) (hnb : ExactLog nb)
    (custom : List Byte) (hc : custom.length < 2 ^ 53 - 256) (d : Nat) (hd : d < 2 ^ 28)
    (self loc : Nat) (hs : self ≠ 0) (hl : loc ≠ 0) {bodyAct} (hb : Reads bodyAct (SHA3.body (R := R)))
    (cmds : List Cmd) (ops : List Op) (m : Mem) (h : HandsAll (Cmd.calls m cmds) ops)
    (hsm : ∀ x, Op.add x ∈ ops → x.length < 2 ^ 53 - 256) :
    Undisturbed (tupleThread bodyAct nb self loc (tupleConstruct nb R d custom) cmds) m (Cmd.Stores cmds)
      (do tupleToVector (← tupleRun nb (← tupleConstruct nb R d custom) ops)) := by
  obtain ⟨o, o', e, e1, e2⟩ := C47_TupleHash_short R h8 nb hnb custom hc d hd self loc hs hl _ ops h hsm
  have := tupleUndisturbed hb e e1
  rw [e] at this ⊢
  simp only [Proof.Memory.okb, e2]
  exact this

end

/-- Any number of threads, each as in the theorems above with a class, a buffer and calls of its own: if none stores
to an address that another one needs or stores to, then every schedule that lets thread `t` make enough steps gives
it its own digest, and no schedule gives it anything else. Several threads may hash the same bytes. -/
theorem C51_many (p : Nat → Act (List Byte)) (m : Nat → Mem) (stores : Nat → Nat → Prop)
    (d : Nat → Except Fault (List Byte)) (h : ∀ t, Undisturbed (p t) (m t) (stores t) (d t))
    (apart : ∀ t u a, t ≠ u → stores u a → m t a = none ∧ ¬ stores t a)
    (mem : Mem) (hm : ∀ t a x, m t a = some x → mem a = some x) :
    ∃ n : Nat → Nat, ∀ (sched : List Nat) (t : Nat),
      let p' := (Machine.run ⟨mem, p⟩ sched).threads t
      (p'.Done → p' = .lift (d t)) ∧ (n t ≤ sched.count t → p' = .lift (d t)) := by
  have hl := nobody h apart ⟨mem, p⟩ (fun _ => rfl) hm
  refine ⟨fun t => (h t).choose, fun sched t => ?_⟩
  have := ((h t).choose_spec ⟨mem, p⟩ t sched rfl (hm t) (hl sched t)).2
  constructor
  · intro hd
    split at this
    · exact absurd hd this
    · exact this
  · intro hc
    rw [if_neg (Nat.not_lt.2 hc)] at this
    exact this

/-- Without the condition on the other threads there is no such promise: here thread 1 writes to the byte that thread
0 is about to hash. -/
theorem C51_disturbed_fails : ∃ (c : Machine) (sched : List Nat),
    c.threads 0 = FNV.FNV32_1a.thread (FNV.addDataAct 2) [.add 1000 1, .finalize] ∧ c.mem 1000 = some 7 ∧
      ((c.run sched).threads 0).Done ∧
      (c.run sched).threads 0 ≠ .lift (FNV.FNV32_1a.digestAfter [.add [7], .finalize]) := by
  refine ⟨⟨fun a => if a = 1000 then some 7 else none,
    fun t => if t = 0 then FNV.FNV32_1a.thread (FNV.addDataAct 2) [.add 1000 1, .finalize]
      else .write 1000 (some 8) (.ret [])⟩, [1, 0], rfl, rfl, trivial, ?_⟩
  have e1 : ∀ l l', l ≠ l' → (Act.ret l : Act (List Byte)) ≠ .ret l' := fun l l' h h' => h (by cases h'; rfl)
  exact e1 _ _ (by decide +kernel)

/-! Two threads meet the hypotheses. Thread 0 fills its buffer at 1000, hands it over, fills it again, and hands it
over again; thread 1 hashes a byte at 2000 with another class. -/
section
def threadA : List Cmd := [.store 1000 1, .store 1001 2, .add 1000 2, .store 1000 3, .add 1000 1, .finalize]

example : Undisturbed (MD5.MD5.thread (addDataAct 64 (mdImplAct 64 counterLE64 MD5.compressAct) 1) threadA)
    (fun _ => none) (Cmd.Stores threadA) (MD5.MD5.digestAfter [.add [1, 2], .add [3], .finalize]) := by
  refine C51_MD5_loader 1 (by decide) threadA _ _ ⟨⟨rfl, by decide, by decide, ?_⟩, ⟨rfl, by decide, by decide, ?_⟩, trivial, trivial⟩
  · intro i h
    match i, h with
    | 0, _ => rfl
    | 1, _ => rfl
  · intro i h
    match i, h with
    | 0, _ => rfl

example : Undisturbed (CRC32.CRC_32.thread (CRC32.addDataAct (readOnce CRC32.body)) [.add 2000 1, .finalize])
    (fun a => if a = 2000 then some 9 else none) (Cmd.Stores [.add 2000 1, .finalize])
    (CRC32.CRC_32.digestAfter [.add [9], .finalize]) := by
  refine C51_CRC_32 (C51_readOnce _) _ _ _ ⟨⟨rfl, by decide, by decide, ?_⟩, trivial, trivial⟩
  intro i h
  match i, h with
  | 0, _ => rfl

example (a : Nat) : Cmd.Stores threadA a → (if a = 2000 then some 9 else none : Option Byte) = none ∧
    ¬ Cmd.Stores [.add 2000 1, .finalize] a := by
  rintro ⟨x, hx⟩
  simp only [threadA, List.mem_cons, Cmd.store.injEq, reduceCtorEq, List.not_mem_nil, or_false, false_or] at hx
  constructor
  · rw [if_neg (by omega)]
  · rintro ⟨y, hy⟩
    simp at hy
end

end Verif.Props
