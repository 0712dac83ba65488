import Verif.Proof.Threads
import Verif.Props.Memory
import Verif.Props.SHA2

/-!
# C51: threads do not disturb one another

Generated by tools/gen_threads.py. `API.ScheduleIndependent` is defined in Core/Threads.lean: a thread fills its
buffers and makes calls on an object of its own, other threads run in between as the schedule says, and what it gets
is the digest of its own calls. `bodyAct` is any way to read a block, see `Reads` there.
-/

namespace Verif.Props
open Model Proof.Threads

theorem C51_SHA1 (self : Nat) (hs : self ≠ 0) {bodyAct} (h : Reads bodyAct SHA1.compress) :
    SHA1.SHA1.ScheduleIndependent (addDataAct 64 (mdImplAct 64 counterBE64 bodyAct) self) :=
  scheduleIndependent (C47_SHA1 self hs) (simAddData (simMd h) self)
theorem C51_SHA2_224 (self : Nat) (hs : self ≠ 0) {bodyAct} (h : Reads bodyAct (SHA2.compress SHA2.cfg32 (by decide))) :
    SHA2.SHA2_224.ScheduleIndependent (addDataAct 64 (mdImplAct 64 counterBE64 bodyAct) self) :=
  scheduleIndependent (C47_SHA2_224 self hs) (simAddData (simMd h) self)
theorem C51_SHA2_256 (self : Nat) (hs : self ≠ 0) {bodyAct} (h : Reads bodyAct (SHA2.compress SHA2.cfg32 (by decide))) :
    SHA2.SHA2_256.ScheduleIndependent (addDataAct 64 (mdImplAct 64 counterBE64 bodyAct) self) :=
  scheduleIndependent (C47_SHA2_256 self hs) (simAddData (simMd h) self)
theorem C51_SHA2_384 (self : Nat) (hs : self ≠ 0) {bodyAct} (h : Reads bodyAct (SHA2.compress SHA2.cfg64 (by decide))) :
    SHA2.SHA2_384.ScheduleIndependent (addDataAct 128 (mdImplAct 128 counterBE128 bodyAct) self) :=
  scheduleIndependent (C47_SHA2_384 self hs) (simAddData (simMd h) self)
theorem C51_SHA2_512 (self : Nat) (hs : self ≠ 0) {bodyAct} (h : Reads bodyAct (SHA2.compress SHA2.cfg64 (by decide))) :
    SHA2.SHA2_512.ScheduleIndependent (addDataAct 128 (mdImplAct 128 counterBE128 bodyAct) self) :=
  scheduleIndependent (C47_SHA2_512 self hs) (simAddData (simMd h) self)
theorem C51_SHA2_512_224 (self : Nat) (hs : self ≠ 0) {bodyAct} (h : Reads bodyAct (SHA2.compress SHA2.cfg64 (by decide))) :
    SHA2.SHA2_512_224.ScheduleIndependent (addDataAct 128 (mdImplAct 128 counterBE128 bodyAct) self) :=
  scheduleIndependent (C47_SHA2_512_224 self hs) (simAddData (simMd h) self)
theorem C51_SHA2_512_256 (self : Nat) (hs : self ≠ 0) {bodyAct} (h : Reads bodyAct (SHA2.compress SHA2.cfg64 (by decide))) :
    SHA2.SHA2_512_256.ScheduleIndependent (addDataAct 128 (mdImplAct 128 counterBE128 bodyAct) self) :=
  scheduleIndependent (C47_SHA2_512_256 self hs) (simAddData (simMd h) self)
theorem C51_MD4 (self : Nat) (hs : self ≠ 0) {bodyAct} (h : Reads bodyAct MD4.compress) :
    MD4.MD4.ScheduleIndependent (addDataAct 64 (mdImplAct 64 counterLE64 bodyAct) self) :=
  scheduleIndependent (C47_MD4 self hs) (simAddData (simMd h) self)
theorem C51_MD5 (self : Nat) (hs : self ≠ 0) {bodyAct} (h : Reads bodyAct MD5.compress) :
    MD5.MD5.ScheduleIndependent (addDataAct 64 (mdImplAct 64 counterLE64 bodyAct) self) :=
  scheduleIndependent (C47_MD5 self hs) (simAddData (simMd h) self)
theorem C51_RIPEMD_128 (self : Nat) (hs : self ≠ 0) {bodyAct} (h : Reads bodyAct RIPEMD.compress128) :
    RIPEMD.RIPEMD_128.ScheduleIndependent (addDataAct 64 (mdImplAct 64 counterLE64 bodyAct) self) :=
  scheduleIndependent (C47_RIPEMD_128 self hs) (simAddData (simMd h) self)
theorem C51_RIPEMD_160 (self : Nat) (hs : self ≠ 0) {bodyAct} (h : Reads bodyAct RIPEMD.compress160) :
    RIPEMD.RIPEMD_160.ScheduleIndependent (addDataAct 64 (mdImplAct 64 counterLE64 bodyAct) self) :=
  scheduleIndependent (C47_RIPEMD_160 self hs) (simAddData (simMd h) self)
theorem C51_RIPEMD_256 (self : Nat) (hs : self ≠ 0) {bodyAct} (h : Reads bodyAct RIPEMD.compress256) :
    RIPEMD.RIPEMD_256.ScheduleIndependent (addDataAct 64 (mdImplAct 64 counterLE64 bodyAct) self) :=
  scheduleIndependent (C47_RIPEMD_256 self hs) (simAddData (simMd h) self)
theorem C51_RIPEMD_320 (self : Nat) (hs : self ≠ 0) {bodyAct} (h : Reads bodyAct RIPEMD.compress320) :
    RIPEMD.RIPEMD_320.ScheduleIndependent (addDataAct 64 (mdImplAct 64 counterLE64 bodyAct) self) :=
  scheduleIndependent (C47_RIPEMD_320 self hs) (simAddData (simMd h) self)
theorem C51_HAS_160 (self : Nat) (hs : self ≠ 0) {bodyAct} (h : Reads bodyAct HAS160.compress) :
    HAS160.HAS_160.ScheduleIndependent (addDataAct 64 (mdImplAct 64 counterLE64 bodyAct) self) :=
  scheduleIndependent (C47_HAS_160 self hs) (simAddData (simMd h) self)
theorem C51_SM3 (self : Nat) (hs : self ≠ 0) {bodyAct} (h : Reads bodyAct SM3.compress) :
    SM3.SM3.ScheduleIndependent (addDataAct 64 (mdImplAct 64 counterBE64 bodyAct) self) :=
  scheduleIndependent (C47_SM3 self hs) (simAddData (simMd h) self)
theorem C51_Tiger (V D : Nat) (self : Nat) (hs : self ≠ 0) {bodyAct} (h : Reads bodyAct Tiger.compress) :
    (Tiger.Tiger V D).ScheduleIndependent (addDataAct 64 (mdImplAct 64 counterLE64 bodyAct) self) :=
  scheduleIndependent (C47_Tiger V D self hs) (simAddData (simMd h) self)
theorem C51_Whirlpool (self : Nat) (hs : self ≠ 0) {bodyAct} (h : Reads bodyAct Whirlpool.compress) :
    Whirlpool.Whirlpool.ScheduleIndependent (addDataAct 64 (mdImplAct 64 counterBE128 bodyAct) self) :=
  scheduleIndependent (C47_Whirlpool self hs) (simAddData (simMd h) self)
theorem C51_SHA3_224 (self : Nat) (hs : self ≠ 0) {bodyAct} (h : Reads bodyAct (SHA3.body (R := 144))) :
    SHA3.SHA3_224.ScheduleIndependent (addDataAct 144 (SHA3.implAct 144 bodyAct) self) :=
  scheduleIndependent (C47_SHA3_224 self hs) (simAddData (simSha3 h) self)
theorem C51_SHA3_256 (self : Nat) (hs : self ≠ 0) {bodyAct} (h : Reads bodyAct (SHA3.body (R := 136))) :
    SHA3.SHA3_256.ScheduleIndependent (addDataAct 136 (SHA3.implAct 136 bodyAct) self) :=
  scheduleIndependent (C47_SHA3_256 self hs) (simAddData (simSha3 h) self)
theorem C51_SHA3_384 (self : Nat) (hs : self ≠ 0) {bodyAct} (h : Reads bodyAct (SHA3.body (R := 104))) :
    SHA3.SHA3_384.ScheduleIndependent (addDataAct 104 (SHA3.implAct 104 bodyAct) self) :=
  scheduleIndependent (C47_SHA3_384 self hs) (simAddData (simSha3 h) self)
theorem C51_SHA3_512 (self : Nat) (hs : self ≠ 0) {bodyAct} (h : Reads bodyAct (SHA3.body (R := 72))) :
    SHA3.SHA3_512.ScheduleIndependent (addDataAct 72 (SHA3.implAct 72 bodyAct) self) :=
  scheduleIndependent (C47_SHA3_512 self hs) (simAddData (simSha3 h) self)
theorem C51_SHAKE_128 (d : Nat) (self : Nat) (hs : self ≠ 0) {bodyAct} (h : Reads bodyAct (SHA3.body (R := 168))) :
    (SHA3.SHAKE_128 d).ScheduleIndependent (addDataAct 168 (SHA3.implAct 168 bodyAct) self) :=
  scheduleIndependent (C47_SHAKE_128 d self hs) (simAddData (simSha3 h) self)
theorem C51_SHAKE_256 (d : Nat) (self : Nat) (hs : self ≠ 0) {bodyAct} (h : Reads bodyAct (SHA3.body (R := 136))) :
    (SHA3.SHAKE_256 d).ScheduleIndependent (addDataAct 136 (SHA3.implAct 136 bodyAct) self) :=
  scheduleIndependent (C47_SHAKE_256 d self hs) (simAddData (simSha3 h) self)
theorem C51_MD2 (self : Nat) (hs : self ≠ 0) {bodyAct} (h : Reads bodyAct MD2.body) :
    MD2.MD2.ScheduleIndependent (addDataAct 16 (MD2.implAct bodyAct) self) :=
  scheduleIndependent (C47_MD2 self hs) (simAddData (simMd2 h) self)
theorem C51_Blake1_224 (self : Nat) (hs : self ≠ 0) {bodyAct} (h : Reads bodyAct (BLAKE.body BLAKE.cfg224 0)) :
    BLAKE.Blake1_224.ScheduleIndependent (addDataAct 64 (blakeImplAct 64 bodyAct) self) :=
  scheduleIndependent (C47_Blake1_224 self hs) (simAddData (simBlake h) self)
theorem C51_Blake1_256 (self : Nat) (hs : self ≠ 0) {bodyAct} (h : Reads bodyAct (BLAKE.body BLAKE.cfg256 0)) :
    BLAKE.Blake1_256.ScheduleIndependent (addDataAct 64 (blakeImplAct 64 bodyAct) self) :=
  scheduleIndependent (C47_Blake1_256 self hs) (simAddData (simBlake h) self)
theorem C51_Blake1_384 (self : Nat) (hs : self ≠ 0) {bodyAct} (h : Reads bodyAct (BLAKE.body BLAKE.cfg512 0)) :
    BLAKE.Blake1_384.ScheduleIndependent (addDataAct 128 (blakeImplAct 128 bodyAct) self) :=
  scheduleIndependent (C47_Blake1_384 self hs) (simAddData (simBlake h) self)
theorem C51_Blake1_512 (self : Nat) (hs : self ≠ 0) {bodyAct} (h : Reads bodyAct (BLAKE.body BLAKE.cfg512 0)) :
    BLAKE.Blake1_512.ScheduleIndependent (addDataAct 128 (blakeImplAct 128 bodyAct) self) :=
  scheduleIndependent (C47_Blake1_512 self hs) (simAddData (simBlake h) self)
theorem C51_SipHash (C D : Nat) (key : Block 16) (self : Nat) (hs : self ≠ 0) {bodyAct} (h : Reads bodyAct (SipHash.body C)) :
    (SipHash.SipHashCD C D key).ScheduleIndependent (addDataAct 8 (SipHash.implAct bodyAct) self) :=
  scheduleIndependent (C47_SipHash C D key self hs) (simAddData (simSip h) self)
theorem C51_Blake2 (self : Nat) (hs : self ≠ 0) {bodyAct} (h : Reads bodyAct (BLAKE2.body BLAKE2.cfg2 false 0)) :
    BLAKE2.Blake2.ScheduleIndependent (fun o s => BLAKE2.addDataAct 128 (blakeImplAct 128 bodyAct) self s.size o s) :=
  scheduleIndependent (C47_Blake2 self hs) (fun o s => simBlake2Add (simBlake2 h) self s.size o s)
theorem C51_Blake2s (self : Nat) (hs : self ≠ 0) {bodyAct} (h : Reads bodyAct (BLAKE2.body BLAKE2.cfg2s false 0)) :
    BLAKE2.Blake2s.ScheduleIndependent (fun o s => BLAKE2.addDataAct 64 (blakeImplAct 64 bodyAct) self s.size o s) :=
  scheduleIndependent (C47_Blake2s self hs) (fun o s => simBlake2Add (simBlake2 h) self s.size o s)
theorem C51_CRC_32 {bodyAct} (h : Reads bodyAct CRC32.body) :
    CRC32.CRC_32.ScheduleIndependent (CRC32.addDataAct bodyAct) :=
  scheduleIndependent (C47_CRC_32) (simCrc h)
theorem C51_FNV32_0 : FNV.FNV32_0.ScheduleIndependent (FNV.addDataAct 0) := scheduleIndependent C47_FNV32_0 (simFnv 0)
theorem C51_FNV32_1 : FNV.FNV32_1.ScheduleIndependent (FNV.addDataAct 1) := scheduleIndependent C47_FNV32_1 (simFnv 1)
theorem C51_FNV32_1a : FNV.FNV32_1a.ScheduleIndependent (FNV.addDataAct 2) := scheduleIndependent C47_FNV32_1a (simFnv 2)
theorem C51_FNV64_0 : FNV.FNV64_0.ScheduleIndependent (FNV.addDataAct 0) := scheduleIndependent C47_FNV64_0 (simFnv 0)
theorem C51_FNV64_1 : FNV.FNV64_1.ScheduleIndependent (FNV.addDataAct 1) := scheduleIndependent C47_FNV64_1 (simFnv 1)
theorem C51_FNV64_1a : FNV.FNV64_1a.ScheduleIndependent (FNV.addDataAct 2) := scheduleIndependent C47_FNV64_1a (simFnv 2)

/-- There is a way to read a block, whatever is done with it: each byte once. -/
theorem C51_readOnce {S : Type} {B : Nat} (body : S → Block B → S) : Reads (readOnce body) body := readOnce_reads body

/-- The way of md5.h, which reads every word of the caller's block four times. -/
theorem C51_MD5_loader (self : Nat) (hs : self ≠ 0) :
    MD5.MD5.ScheduleIndependent (addDataAct 64 (mdImplAct 64 counterLE64 MD5.compressAct) self) :=
  C51_MD5 self hs md5_reads

/-- With what a class computes (C01 to C25): a thread that makes legal calls and ends with `finalize` gets the digest
of its own message in every schedule. -/
theorem C51_message {O : Type} {A : API O} {addAct : O → GSpan → Act O} {dom : List Byte → Prop}
    {spec : List Byte → List Byte} (h : A.ScheduleIndependent addAct) (hc : A.ComputesOn dom spec)
    (cmds : List Cmd) (ops : List Op) (m : Mem) (hh : HandsAll (Cmd.calls m cmds) (ops ++ [.finalize]))
    (hl : Legal (ops ++ [.finalize])) (hd : dom (message ops)) :
    Undisturbed (A.thread addAct cmds) m (Cmd.Stores cmds) (.ok (spec (message ops))) := by
  obtain ⟨o, e1, e2⟩ := hc ops hl hd
  have := h cmds _ m hh
  unfold API.digestAfter at this
  rw [e1] at this
  simp only [Proof.Memory.okb, e2] at this
  exact this

/-- An instance: SHA-256, with blocks read in any way. -/
theorem C51_SHA2_256_digest (self : Nat) (hs : self ≠ 0) {bodyAct}
    (hb : Reads bodyAct (SHA2.compress SHA2.cfg32 (by decide)))
    (cmds : List Cmd) (ops : List Op) (m : Mem) (hh : HandsAll (Cmd.calls m cmds) (ops ++ [.finalize]))
    (hl : Legal (ops ++ [.finalize])) :
    Undisturbed (SHA2.SHA2_256.thread (addDataAct 64 (mdImplAct 64 counterBE64 bodyAct) self) cmds) m
      (Cmd.Stores cmds) (.ok (Spec.SHA2.sha256 (message ops))) :=
  C51_message (C51_SHA2_256 self hs hb) C08_SHA2_256 cmds ops m hh hl trivial

section
open CShake Spec SP800185

/-- C51 for cSHAKE, for names and customization strings that the constructor can encode (C29). -/
theorem C51_CSHAKE_short (R : Nat) [SHA3.RateOK R] (h8 : R % 8 = 0) (nb : Nat → Nat) (hnb : ExactLog nb)
    (name custom : List Byte) (hn : name.length < 2 ^ 53 - 256) (hc : custom.length < 2 ^ 53 - 256) (d : Nat)
    (self : Nat) (hs : self ≠ 0) {bodyAct} (hb : Reads bodyAct (SHA3.body (R := R)))
    (cmds : List Cmd) (ops : List Op) (m : Mem) (h : HandsAll (Cmd.calls m cmds) ops) :
    Undisturbed (CShake.thread bodyAct self (construct nb R d name custom) cmds) m (Cmd.Stores cmds)
      (do CShake.toVector (← CShake.run (← construct nb R d name custom) ops)) := by
  obtain ⟨o, o', e, e1, e2⟩ := C47_CSHAKE_short R h8 nb hnb name custom hn hc d self hs _ ops h
  have := cshakeUndisturbed hb e e1
  rw [e] at this ⊢
  simp only [Proof.Memory.okb, e2]
  exact this

/-- C51 for TupleHash, for digest lengths below 2^28 and elements below 2^53 - 256 bytes (C22, C29). -/
theorem C51_TupleHash_short (R : Nat) [SHA3.RateOK R] (h8 : R % 8 = 0) (nb : Nat → Nat) (hnb : ExactLog nb)
    (custom : List Byte) (hc : custom.length < 2 ^ 53 - 256) (d : Nat) (hd : d < 2 ^ 28)
    (self loc : Nat) (hs : self ≠ 0) (hl : loc ≠ 0) {bodyAct} (hb : Reads bodyAct (SHA3.body (R := R)))
    (cmds : List Cmd) (ops : List Op) (m : Mem) (h : HandsAll (Cmd.calls m cmds) ops)
    (hsm : ∀ x, Op.add x ∈ ops → x.length < 2 ^ 53 - 256) :
    Undisturbed (tupleThread bodyAct nb self loc (tupleConstruct nb R d custom) cmds) m (Cmd.Stores cmds)
      (do tupleToVector (← tupleRun nb (← tupleConstruct nb R d custom) ops)) := by
  obtain ⟨o, o', e, e1, e2⟩ := C47_TupleHash_short R h8 nb hnb custom hc d hd self loc hs hl _ ops h hsm
  have := tupleUndisturbed hb e e1
  rw [e] at this ⊢
  simp only [Proof.Memory.okb, e2]
  exact this

end

/-- Any number of threads, each as in the theorems above with a class, a buffer and calls of its own: if none stores
to an address that another one needs or stores to, then every schedule that lets thread `t` make enough steps gives
it its own digest, and no schedule gives it anything else. Several threads may hash the same bytes. -/
theorem C51_many (p : Nat → Act (List Byte)) (m : Nat → Mem) (stores : Nat → Nat → Prop)
    (d : Nat → Except Fault (List Byte)) (h : ∀ t, Undisturbed (p t) (m t) (stores t) (d t))
    (apart : ∀ t u a, t ≠ u → stores u a → m t a = none ∧ ¬ stores t a)
    (mem : Mem) (hm : ∀ t a x, m t a = some x → mem a = some x) :
    ∃ n : Nat → Nat, ∀ (sched : List Nat) (t : Nat),
      let p' := (Machine.run ⟨mem, p⟩ sched).threads t
      (p'.Done → p' = .lift (d t)) ∧ (n t ≤ sched.count t → p' = .lift (d t)) := by
  have hl := nobody h apart ⟨mem, p⟩ (fun _ => rfl) hm
  refine ⟨fun t => (h t).choose, fun sched t => ?_⟩
  have := ((h t).choose_spec ⟨mem, p⟩ t sched rfl (hm t) (hl sched t)).2
  constructor
  · intro hd
    split at this
    · exact absurd hd this
    · exact this
  · intro hc
    rw [if_neg (Nat.not_lt.2 hc)] at this
    exact this

/-- Without the condition on the other threads there is no such promise: here thread 1 writes to the byte that thread
0 is about to hash. -/
theorem C51_disturbed_fails : ∃ (c : Machine) (sched : List Nat),
    c.threads 0 = FNV.FNV32_1a.thread (FNV.addDataAct 2) [.add 1000 1, .finalize] ∧ c.mem 1000 = some 7 ∧
      ((c.run sched).threads 0).Done ∧
      (c.run sched).threads 0 ≠ .lift (FNV.FNV32_1a.digestAfter [.add [7], .finalize]) := by
  refine ⟨⟨fun a => if a = 1000 then some 7 else none,
    fun t => if t = 0 then FNV.FNV32_1a.thread (FNV.addDataAct 2) [.add 1000 1, .finalize]
      else .write 1000 (some 8) (.ret [])⟩, [1, 0], rfl, rfl, trivial, ?_⟩
  have e1 : ∀ l l', l ≠ l' → (Act.ret l : Act (List Byte)) ≠ .ret l' := fun l l' h h' => h (by cases h'; rfl)
  exact e1 _ _ (by decide +kernel)

/-! Two threads meet the hypotheses. Thread 0 fills its buffer at 1000, hands it over, fills it again, and hands it
over again; thread 1 hashes a byte at 2000 with another class. -/
section
def threadA : List Cmd := [.store 1000 1, .store 1001 2, .add 1000 2, .store 1000 3, .add 1000 1, .finalize]

example : Undisturbed (MD5.MD5.thread (addDataAct 64 (mdImplAct 64 counterLE64 MD5.compressAct) 1) threadA)
    (fun _ => none) (Cmd.Stores threadA) (MD5.MD5.digestAfter [.add [1, 2], .add [3], .finalize]) := by
  refine C51_MD5_loader 1 (by decide) threadA _ _ ⟨⟨rfl, by decide, by decide, ?_⟩, ⟨rfl, by decide, by decide, ?_⟩, trivial, trivial⟩
  · intro i h
    match i, h with
    | 0, _ => rfl
    | 1, _ => rfl
  · intro i h
    match i, h with
    | 0, _ => rfl

example : Undisturbed (CRC32.CRC_32.thread (CRC32.addDataAct (readOnce CRC32.body)) [.add 2000 1, .finalize])
    (fun a => if a = 2000 then some 9 else none) (Cmd.Stores [.add 2000 1, .finalize])
    (CRC32.CRC_32.digestAfter [.add [9], .finalize]) := by
  refine C51_CRC_32 (C51_readOnce _) _ _ _ ⟨⟨rfl, by decide, by decide, ?_⟩, trivial, trivial⟩
  intro i h
  match i, h with
  | 0, _ => rfl

example (a : Nat) : Cmd.Stores threadA a → (if a = 2000 then some 9 else none : Option Byte) = none ∧
    ¬ Cmd.Stores [.add 2000 1, .finalize] a := by
  rintro ⟨x, hx⟩
  simp only [threadA, List.mem_cons, Cmd.store.injEq, reduceCtorEq, List.not_mem_nil, or_false, false_or] at hx
  constructor
  · rw [if_neg (by omega)]
  · rintro ⟨y, hy⟩
    simp at hy
end

end Verif.Props
