
/-- SipHash, where the key is secret as well: the two objects have keys of their own. -/
theorem C53_SipHash (C D : Nat) (key key' : Block 16) (self : Nat) {bodyAct} (hb : Straight bodyAct)
    (hr : Reads bodyAct (SipHash.body C)) :
    (SipHash.SipHashCD C D key).SameAccesses (SipHash.SipHashCD C D key') (addDataAct 8 (SipHash.implAct bodyAct) self) :=
  sipSame C D key key' hb hr self

section
open CShake

/-- cSHAKE: names and customization strings may differ too, as long as their lengths are the same. -/
theorem C53_CSHAKE (R : Nat) [SHA3.RateOK R] (nb : Nat → Nat) (d : Int) (name name' custom custom' : List Byte)
    (hn : name.length = name'.length) (hc : custom.length = custom'.length) (self : Nat) {bodyAct}
    (hb : Straight bodyAct) (hr : Reads bodyAct (SHA3.body (R := R))) (cmds cmds' : List Cmd) (h : Cmd.SameBut cmds cmds') :
    LookAlike (CShake.thread bodyAct self (CShake.construct nb R d name custom) cmds)
      (CShake.thread bodyAct self (CShake.construct nb R d name' custom') cmds') :=
  cshakeSame hb hr self (constructAgree nb d hn hc) h

/-- TupleHash -/
theorem C53_TupleHash (R : Nat) [SHA3.RateOK R] (nb : Nat → Nat) (d : Int) (custom custom' : List Byte)
    (hc : custom.length = custom'.length) (self loc : Nat) {bodyAct} (hb : Straight bodyAct)
    (hr : Reads bodyAct (SHA3.body (R := R))) (cmds cmds' : List Cmd) (h : Cmd.SameBut cmds cmds') :
    LookAlike (tupleThread bodyAct nb self loc (tupleConstruct nb R d custom) cmds)
      (tupleThread bodyAct nb self loc (tupleConstruct nb R d custom') cmds') :=
  tupleSameAcc hb hr nb self loc (tupleConstructAgree nb d hc) h

end

/-- Reading a block byte by byte meets both hypotheses. -/
theorem C53_readOnce {S : Type} {B : Nat} (body : S → Block B → S) : Straight (readOnce body) ∧ Reads (readOnce body) body :=
  ⟨readOnce_straight body, Proof.Threads.readOnce_reads body⟩

/-- The way of md5.h, which reads every word of the caller's block four times. -/
theorem C53_MD5_loader (self : Nat) :
    MD5.MD5.SameAccesses MD5.MD5 (addDataAct 64 (mdImplAct 64 counterLE64 MD5.compressAct) self) :=
  C53_MD5 self md5_straight Proof.Threads.md5_reads

/-! Not for every order of reading: a body that looks at the second byte only if the first one is 0 gives the first
one away. -/
example : ¬ Straight (fun (s : Byte) (a : Nat) => Act.read a fun x => if x = 0 then Act.read (a + 1) .ret else .ret s) := by
  intro h
  have := (h 0 0 5 (fun _ => some 0) (fun _ => some 1) (fun _ => by simp)).1
  exact absurd this (by decide +kernel)

/-! Two threads that store and hash different bytes at the same address. -/
example : Cmd.SameBut [.store 1000 1, .add 1000 1, .finalize] [.store 1000 2, .add 1000 1, .finalize] :=
  ⟨rfl, rfl, rfl, trivial⟩

example (m : Mem) : (FNV.FNV32_1a.thread (FNV.addDataAct 2) [.store 1000 7, .add 1000 1, .finalize]).trace m =
    [.write 1000, .read 1000] := by
  simp [API.thread, API.commands, FNV.addDataAct, iterRangeAct, iterLoopAct, Iter.derefAct, GSpan.make, GSpan.begin,
    GSpan.end, Iter.make, Iter.ne, Iter.inc, expects, Act.lift, Act.bind, Act.trace, bind, Except.bind, pure, Except.pure,
    FNV.FNV32_1a, FNV.FNVHash, resultArray, storeBE]

/-! ## Constant tables

crc_32.h, md2.h, tiger.h and whirlpool.h index constant tables with bytes computed from the message. Which elements are
read gives the message away: from the state the object was in and the list of the elements read (table and index, not
value) for a number of blocks, the blocks can be told. `…Look` are the block functions of the model in which reading an
element is an operation of its own (`Model/Lookups.lean`); the first part of each theorem says that they compute the same
as the block functions the digests are proved about. -/

theorem C53_CRC_32_tables_fails :
    (∀ h m, (CRC32.bodyLook h m).value CRC32.table = CRC32.body h m) ∧
    (∀ h x, (CRC32.tailLook h x).value CRC32.table = CRC32.tailByte h x) ∧
    ∀ (h : W32) (bs bs' : List (Block 16)) (xs xs' : List Byte), bs.length = bs'.length →
      ((Look.loop CRC32.bodyLook h bs).bind fun h => Look.loop CRC32.tailLook h xs).places CRC32.table =
        ((Look.loop CRC32.bodyLook h bs').bind fun h => Look.loop CRC32.tailLook h xs').places CRC32.table →
      bs = bs' ∧ xs = xs' := by
  refine ⟨CRC32.bodyLook_value, CRC32.tailLook_value, ?_⟩
  intro h bs bs' xs xs' hl e
  obtain ⟨n, _, hc⟩ := CRC32.bodyLook_reveals.count
  have e := Look.prefix_inj (Whirlpool.loop_count hc h bs) (hl ▸ Whirlpool.loop_count hc h bs') e
  have hb := CRC32.bodyLook_reveals.loop h bs bs' e.1
  subst hb
  exact ⟨rfl, CRC32.tailLook_reveals.loop _ xs xs' e.2⟩

theorem C53_MD2_tables_fails :
    (∀ s m, (MD2.bodyLook s m).value MD2.table = MD2.body s m) ∧
    ∀ (s : MD2.St) (bs bs' : List (Block 16)),
      (Look.loop MD2.bodyLook s bs).places MD2.table = (Look.loop MD2.bodyLook s bs').places MD2.table → bs = bs' :=
  ⟨MD2.bodyLook_value, MD2.bodyLook_reveals.loop⟩

theorem C53_Tiger_tables_fails :
    (∀ h m, (Tiger.compressLook h m).value Tiger.table = Tiger.compress h m) ∧
    ∀ (h : Vector W64 3) (bs bs' : List (Block 64)),
      (Look.loop Tiger.compressLook h bs).places Tiger.table = (Look.loop Tiger.compressLook h bs').places Tiger.table →
      bs = bs' :=
  ⟨Tiger.compressLook_value, Tiger.compressLook_reveals.loop⟩

theorem C53_Whirlpool_tables_fails :
    (∀ h m, (Whirlpool.compressLook h m).value Whirlpool.table = Whirlpool.compress h m) ∧
    ∀ (h : Vector W64 8) (bs bs' : List (Block 64)),
      (Look.loop Whirlpool.compressLook h bs).places Whirlpool.table =
        (Look.loop Whirlpool.compressLook h bs').places Whirlpool.table →
      bs = bs' :=
  ⟨Whirlpool.compressLook_value, Whirlpool.compressLook_reveals.loop⟩

example : (Look.loop CRC32.tailLook 0x01020304 [5, 6]).places CRC32.table = [(0, 1), (0, 147)] := by decide +kernel
example : (Look.loop CRC32.tailLook 0x01020304 [5, 7]).places CRC32.table = [(0, 1), (0, 146)] := by decide +kernel

/-! A program that reads the same elements whatever it hashes does not give its input away. -/
example : ¬ ∀ bs bs' : List Byte,
    (Look.loop (fun (h : Byte) (x : Byte) => (Look.elem 0 0).bind fun v => .ret (h ^^^ x ^^^ v)) 0 bs).places (fun _ _ => 0) =
      (Look.loop (fun (h : Byte) (x : Byte) => (Look.elem 0 0).bind fun v => .ret (h ^^^ x ^^^ v)) 0 bs').places
        (fun _ _ => 0) → bs = bs' := by
  intro h
  exact absurd (h [1] [2] (by decide +kernel)) (by decide)

end Verif.Props
