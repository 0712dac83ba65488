import Verif.Proof.CShakeAny
import Verif.Props.CShake
import Verif.Props.Memory
import Verif.Props.Threads

/-!
# C01, C26, C37, C42, C47 and C51 for cSHAKE and TupleHash, without limits on the strings

Whether the length encodings are right matters to C21, C22 and C29, not to these: they hold of every object that a
constructor returned, for every byte count function `nb`. Lengths are below 2^64 because they are `size_t`. That
constructors and calls do return is C02.
-/

namespace Verif.Props
open Verif.Spec
open Model Model.CShake Proof.CShake Proof.CShakeAny Proof.Misuse Proof.Memory Proof.Threads

section
variable (R : Nat) [hR : Model.SHA3.RateOK R] (h8 : R % 8 = 0) (nb : Nat → Nat)
include h8

/-- C01: pieces `ps` and `qs` of one byte string, given to two objects constructed alike. -/
theorem C01_CSHAKE (name custom : List Byte) (hn : name.length < 2 ^ 64) (hc : custom.length < 2 ^ 64) (d : Nat)
    (o : CShake R) (e : construct nb R d name custom = .ok o) (ps qs : List (List Byte))
    (hp : ∀ p ∈ ps, p.length < 2 ^ 64) (hq : ∀ q ∈ qs, q.length < 2 ^ 64) (h : ps.flatten = qs.flatten) :
    ∃ a b z, run o (ps.map .add ++ [.finalize]) = .ok a ∧ run o (qs.map .add ++ [.finalize]) = .ok b ∧
      toVector a = .ok z ∧ toVector b = .ok z := by
  obtain ⟨c, pre, ⟨x, rfl, hx⟩, _⟩ := construct_ok h8 nb name custom hn hc d o e
  obtain ⟨a, ea, qa⟩ := run_from c d (ref h8 c d) x pre hx _ (Refines.legal_adds ps hp)
  obtain ⟨b, eb, qb⟩ := run_from c d (ref h8 c d) x pre hx _ (Refines.legal_adds qs hq)
  have nr : ∀ l : List (List Byte), ∀ op ∈ l.map Op.add, isReset op = false := by
    intro l op ho
    obtain ⟨_, _, rfl⟩ := List.mem_map.mp ho
    rfl
  rw [messageFrom_noReset _ _ (nr _), Refines.message_adds] at qa qb
  rw [← h] at qb
  exact ⟨a, b, _, ea, eb, qa, qb⟩

/-- C26: the same name, customization and calls, resets included, a shorter and a longer output. -/
theorem C26_CSHAKE (name custom : List Byte) (hn : name.length < 2 ^ 64) (hc : custom.length < 2 ^ 64) (d d' : Nat)
    (hd : d ≤ d') (o : CShake R) (e : construct nb R d name custom = .ok o) (ops : List Op)
    (hl : Legal (ops ++ [.finalize])) :
    ∃ p o' p' z z', run o (ops ++ [.finalize]) = .ok p ∧ construct nb R d' name custom = .ok o' ∧
      run o' (ops ++ [.finalize]) = .ok p' ∧ toVector p = .ok z ∧ toVector p' = .ok z' ∧ z <+: z' := by
  obtain ⟨c, pre, ⟨x, rfl, hx⟩, h⟩ := construct_ok h8 nb name custom hn hc d o e
  obtain ⟨x', e', hx'⟩ := h d'
  obtain ⟨p, ep, q⟩ := run_from c d (ref h8 c d) x pre hx ops hl
  obtain ⟨p', ep', q'⟩ := run_from c d' (ref h8 c d') x' pre hx' ops hl
  exact ⟨p, _, p', _, _, ep, e', ep', q, q', Proof.SHA3.sponge_prefix R h8 _ _ (isSuffix c) _ d d' hd⟩

/-- C37 -/
theorem C37_CSHAKE (name custom : List Byte) (hn : name.length < 2 ^ 64) (hc : custom.length < 2 ^ 64) (d : Nat)
    (o : CShake R) (e : construct nb R d name custom = .ok o) (ops : List Op) (hl : Legal (ops ++ [.finalize])) :
    ∃ o' z, run o (ops ++ [.finalize]) = .ok o' ∧ toVector o' = .ok z ∧ z.length = d := by
  obtain ⟨c, pre, ⟨x, rfl, hx⟩, _⟩ := construct_ok h8 nb name custom hn hc d o e
  obtain ⟨o', eo, q⟩ := run_from c d (ref h8 c d) x pre hx ops hl
  exact ⟨o', _, eo, q, Proof.SHA3.sponge_length R h8 _ _ (isSuffix c) _ d⟩

omit h8 in
theorem tuple_ok (custom : List Byte) (d : Nat) (o : TupleHash R) (e : tupleConstruct nb R d custom = .ok o) :
    ∃ c, construct nb R d SP800185.tupleHashName custom = .ok c ∧ o = ⟨c, d⟩ := by
  have hname : Model.CShake.tupleHashName = SP800185.tupleHashName := by decide +kernel
  obtain ⟨c, ec, e⟩ := bind_ok e
  rw [hname] at ec
  exact ⟨c, ec, (Except.ok.inj e).symm⟩

/-- C37: whenever the calls return. -/
theorem C37_TupleHash (custom : List Byte) (hc : custom.length < 2 ^ 64) (d : Nat) (o : TupleHash R)
    (e : tupleConstruct nb R d custom = .ok o) (ops : List Op) (hl : Legal (ops ++ [.finalize])) (o' : TupleHash R)
    (e' : tupleRun nb o (ops ++ [.finalize]) = .ok o') : ∃ z, tupleToVector o' = .ok z ∧ z.length = d := by
  obtain ⟨c, ec, rfl⟩ := tuple_ok R nb custom d o e
  obtain ⟨cs, _, hrun, hleg, _, hend⟩ := tuple_calls nb d (ops ++ [.finalize]) c o' e'
  obtain ⟨ds, rfl⟩ := hend ops rfl
  obtain ⟨p, z, ep, q, h⟩ := C37_CSHAKE R h8 nb _ custom (by decide +kernel) hc d c ec ds (hleg false hl)
  rw [hrun] at ep
  rw [← Except.ok.inj ep] at q
  exact ⟨z, q, h⟩

/-- C42: calls in any order on an object that a constructor returned neither fault nor make the digest unreadable. -/
theorem C42_CSHAKE (name custom : List Byte) (hn : name.length < 2 ^ 64) (hc : custom.length < 2 ^ 64) (d : Nat)
    (o : CShake R) (e : construct nb R d name custom = .ok o) (ops : List Op) (h : AnyOrder ops) :
    ∃ o' z, CShake.run o ops = .ok o' ∧ CShake.toVector o' = .ok z := by
  obtain ⟨c, x, rfl, i⟩ := construct_ready h8 nb name custom hn hc d o e
  exact cshake_any R c d x i ops h

/-- C47: calls with pointers on an object that a constructor returned do what the calls with the bytes do, without
faults. -/
theorem C47_CSHAKE (name custom : List Byte) (hn : name.length < 2 ^ 64) (hc : custom.length < 2 ^ 64) (d : Nat)
    (o : CShake R) (e : construct nb R d name custom = .ok o) (self : Nat) (hs : self ≠ 0) (calls : List MemOp)
    (ops : List Op) (h : HandsAll calls ops) :
    ∃ o', CShake.runAt self o calls = .ok o' ∧ CShake.run o ops = .ok o' := by
  obtain ⟨c, i⟩ := construct_ready h8 nb name custom hn hc d o e
  exact cshakeSafe hs calls ops o i h

/-- C47 for TupleHash. Where the length of an element or of the output cannot be encoded (C22, C29) both sides are the
same fault. `loc` is where the local variable with the encoded length lies. -/
theorem C47_TupleHash (custom : List Byte) (hc : custom.length < 2 ^ 64) (d : Nat) (o : TupleHash R)
    (e : tupleConstruct nb R d custom = .ok o) (self loc : Nat) (hs : self ≠ 0) (hl : loc ≠ 0) (calls : List MemOp)
    (ops : List Op) (h : HandsAll calls ops) : tupleRunAt nb self loc o calls = tupleRun nb o ops := by
  obtain ⟨x, ex, rfl⟩ := tuple_ok R nb custom d o e
  obtain ⟨c, i⟩ := construct_ready h8 nb _ custom (by decide +kernel) hc d x ex
  exact tupleSame nb d hs hl calls ops x i h

/-- C51: a thread with an object that a constructor returned. -/
theorem C51_CSHAKE (name custom : List Byte) (hn : name.length < 2 ^ 64) (hc : custom.length < 2 ^ 64) (d : Nat)
    (o : CShake R) (e : construct nb R d name custom = .ok o) (self : Nat) (hs : self ≠ 0) {bodyAct}
    (hb : Reads bodyAct (SHA3.body (R := R))) (cmds : List Cmd) (ops : List Op) (m : Mem)
    (h : HandsAll (Cmd.calls m cmds) ops) :
    Undisturbed (CShake.thread bodyAct self (construct nb R d name custom) cmds) m (Cmd.Stores cmds)
      (do CShake.toVector (← CShake.run o ops)) := by
  obtain ⟨o', e1, e2⟩ := C47_CSHAKE R h8 nb name custom hn hc d o e self hs _ ops h
  have := cshakeUndisturbed hb e e1
  simp only [e2, Proof.Memory.okb]
  exact this

/-- C51 for TupleHash, whenever its calls return. -/
theorem C51_TupleHash (custom : List Byte) (hc : custom.length < 2 ^ 64) (d : Nat) (o o' : TupleHash R)
    (e : tupleConstruct nb R d custom = .ok o) (self loc : Nat) (hs : self ≠ 0) (hl : loc ≠ 0) {bodyAct}
    (hb : Reads bodyAct (SHA3.body (R := R))) (cmds : List Cmd) (ops : List Op) (m : Mem)
    (h : HandsAll (Cmd.calls m cmds) ops) (e' : tupleRun nb o ops = .ok o') :
    Undisturbed (tupleThread bodyAct nb self loc (tupleConstruct nb R d custom) cmds) m (Cmd.Stores cmds)
      (tupleToVector o') := by
  have e1 := C47_TupleHash R h8 nb custom hc d o e self loc hs hl _ ops h
  rw [e'] at e1
  exact tupleUndisturbed hb e e1

end

/-- Constructors return, and so do calls: for instance these. -/
example : ∃ o o', tupleConstruct countBytes 168 32 [1, 2] = .ok o ∧
    tupleRun countBytes o ([.add [3], .add []] ++ [.finalize]) = .ok o' := by
  obtain ⟨o, o', e, e', _⟩ := C22_TupleHash_128_partial countBytes countBytes_exact [1, 2] (by decide) 32 (by decide)
    [[3], []] (by decide +kernel)
  exact ⟨o, o', e, e'⟩

/-! Each theorem above on a concrete case: a customised object, a history that resets and calls made out of order. -/
section Cases
private theorem any_object : ∃ o : CShake 168, construct countBytes 168 (32 : Nat) [] signature = .ok o := by
  obtain ⟨o, e, _⟩ := C02_CSHAKE_partial countBytes countBytes_exact 168 rfl [] signature (by decide) (by decide +kernel) 32
  exact ⟨o, e⟩
private theorem any_tuple : ∃ o o' : TupleHash 168, tupleConstruct countBytes 168 (32 : Nat) signature = .ok o ∧
    tupleRun countBytes o ([.add [1, 2], .add [7], .add []] ++ [.finalize]) = .ok o' := by
  obtain ⟨o, o', e, e', _⟩ := C22_TupleHash_128_partial countBytes countBytes_exact signature (by decide +kernel) 32
    (by decide) [[1, 2], [7], []] (by decide +kernel)
  exact ⟨o, o', e, e'⟩
def someCmds : List Cmd := [.store 1000 1, .store 1001 2, .add 1000 2, .store 1000 7, .add 1000 1, .add 0 0, .finalize]
private theorem someCmds_hand : HandsAll (Cmd.calls (fun _ => none) someCmds) ([.add [1, 2], .add [7], .add []] ++ [.finalize]) := by
  refine ⟨⟨rfl, by decide, by decide, ?_⟩, ⟨rfl, by decide, by decide, ?_⟩, ⟨rfl, by decide, by decide, ?_⟩, trivial, trivial⟩
  · intro i h
    match i, h with
    | 0, _ => rfl
    | 1, _ => rfl
  · intro i h
    match i, h with
    | 0, _ => rfl
  · intro i h; cases h

example := any_object.imp fun o e => C01_CSHAKE 168 rfl countBytes [] signature (by decide) (by decide +kernel) 32 o e
  [[1], [], [2, 3]] [[1, 2], [3]] (by decide) (by decide) rfl
example := any_object.imp fun o e => C26_CSHAKE 168 rfl countBytes [] signature (by decide) (by decide +kernel) 32 500
  (by decide) o e someResets (by decide +kernel)
example := any_object.imp fun o e => C37_CSHAKE 168 rfl countBytes [] signature (by decide) (by decide +kernel) 32 o e
  someResets (by decide +kernel)
example := any_object.imp fun o e => C42_CSHAKE 168 rfl countBytes [] signature (by decide) (by decide +kernel) 32 o e
  [.finalize, .add [1], .finalize, .reset, .finalize] (fun d h => by simp at h; subst h; decide)
example := any_object.imp fun o e => C47_CSHAKE 168 rfl countBytes [] signature (by decide) (by decide +kernel) 32 o e 5000
  (by decide) _ _ someCmds_hand
example := any_object.imp fun o e => C51_CSHAKE 168 rfl countBytes [] signature (by decide) (by decide +kernel) 32 o e 5000
  (by decide) (C51_readOnce _) someCmds _ _ someCmds_hand
example := any_tuple.imp fun o h => h.imp fun o' h => C37_TupleHash 168 rfl countBytes signature (by decide +kernel) 32 o h.1
  [.add [1, 2], .add [7], .add []] (by decide) o' h.2
example := any_tuple.imp fun o h => h.imp fun _ h => C47_TupleHash 168 rfl countBytes signature (by decide +kernel) 32 o h.1
  5000 6000 (by decide) (by decide) _ _ someCmds_hand
example := any_tuple.imp fun o h => h.imp fun o' h => C51_TupleHash 168 rfl countBytes signature (by decide +kernel) 32 o o'
  h.1 5000 6000 (by decide) (by decide) (C51_readOnce _) someCmds _ _ someCmds_hand h.2
end Cases

end Verif.Props
