import Verif.Core.Memory

/-!
# Threads: the same calls, one memory access at a time

In Core/Memory.lean a call is one step. Here a call is a tree of memory accesses, and between two accesses of
one thread any other thread of the program may run. Memory is sequentially consistent: a data race on the bytes
of a span is undefined behaviour in C++, and the theorems exclude it by hypothesis. The members of a hash object
belong to the thread that uses it, no two objects share a variable that is written to (all `static` objects of
/repo/src are constants), so accesses to them are not steps of their own.
-/

namespace Verif

/-- What a thread does: it ends with a result or with a fault, or it accesses memory and goes on. Writing `none`
gives an address back. Not in /repo. -/
inductive Act (α : Type) where
  | ret (a : α)
  | fault (f : Fault)
  | read (a : Nat) (k : Byte → Act α)
  | write (a : Nat) (x : Option Byte) (k : Act α)

namespace Act
variable {α β : Type}

/-- one thing after the other; not in /repo -/
def bind : Act α → (α → Act β) → Act β
  | ret a, f => f a
  | fault e, _ => fault e
  | read a k, f => read a fun x => (k x).bind f
  | write a x k, f => write a x (k.bind f)

instance : Monad Act where
  pure := ret
  bind := bind

/-- code that accesses nothing but the thread's own variables; not in /repo -/
def lift : Except Fault α → Act α
  | .ok a => ret a
  | .error e => fault e

/-- the thread is at its end; not in /repo -/
def Done : Act α → Prop
  | ret _ => True
  | fault _ => True
  | _ => False

/-- What it does when it runs alone, from start to end. Not in /repo. -/
def alone : Act α → Mem → Except Fault (α × Mem)
  | ret a, m => .ok (a, m)
  | fault e, _ => .error e
  | read a k, m => match m a with
    | some x => (k x).alone m
    | none => .error .spanBounds
  | write a x k, m => k.alone fun b => if b = a then x else m b

/-- Reads that meet variables of the thread itself: no other thread is in between. Not in /repo. -/
def within (p : Act α) (m : Mem) : Act α := lift (p.alone m |>.map (·.1))

end Act

/-! ## The program: memory and threads -/

/-- one memory, and threads with a number each; not in /repo -/
structure Machine where
  mem : Mem
  threads : Nat → Act (List Byte)

namespace Machine

/-- Thread `t` makes its next access. A thread that is at its end does nothing. Not in /repo. -/
def step (c : Machine) (t : Nat) : Machine :=
  match c.threads t with
  | .ret _ => c
  | .fault _ => c
  | .read a k =>
    let p := match c.mem a with
      | some x => k x
      | none => .fault .spanBounds
    { c with threads := fun u => if u = t then p else c.threads u }
  | .write a x k =>
    { mem := fun b => if b = a then x else c.mem b
      threads := fun u => if u = t then k else c.threads u }

/-- A schedule says which thread is next, as often as it likes. Not in /repo. -/
def run (c : Machine) : List Nat → Machine
  | [] => c
  | t :: ts => (c.step t).run ts

/-- In this run no thread other than `t` writes to an address in `own`. Not in /repo. -/
def Leaves (t : Nat) (own : Nat → Prop) : Machine → List Nat → Prop
  | _, [] => True
  | c, u :: us => (u ≠ t → ∀ a x k, c.threads u = .write a x k → ¬ own a) ∧ Leaves t own (c.step u) us

end Machine

/-- The thread `p` needs the bytes in `m`, it writes to no address but those in `stores`, and its result is `d`:
Whatever else runs in the program and whatever the schedule, as long as no other thread writes to those two sets of
addresses, `p` makes a number of steps that depends on nothing else, and then it has `d`. Not in /repo. -/
def Undisturbed (p : Act (List Byte)) (m : Mem) (stores : Nat → Prop) (d : Except Fault (List Byte)) : Prop :=
  ∃ n, ∀ (c : Machine) (t : Nat) (sched : List Nat),
    c.threads t = p → (∀ a x, m a = some x → c.mem a = some x) →
    c.Leaves t (fun a => m a ≠ none ∨ stores a) sched →
    (∀ a x k, (c.run sched).threads t = .write a x k → stores a) ∧
    if sched.count t < n then ¬ ((c.run sched).threads t).Done else (c.run sched).threads t = .lift d

/-! ## A thread that hashes -/

/-- What the user's code does in its thread: it fills buffers and makes calls. Not in /repo. -/
inductive Cmd where
  | store (a : Nat) (x : Byte)
  | add (ptr length : Nat)
  | reset
  | finalize

namespace Cmd

/-- the addresses the commands store to; not in /repo -/
def Stores (cmds : List Cmd) (a : Nat) : Prop := ∃ x, Cmd.store a x ∈ cmds

/-- The calls that are made, with what the thread would have in memory if it ran alone from `m`. Not in /repo. -/
def calls : Mem → List Cmd → List MemOp
  | _, [] => []
  | m, .store a x :: cs => calls (fun b => if b = a then some x else m b) cs
  | m, .add ptr length :: cs => .add m ptr length :: calls m cs
  | m, .reset :: cs => .reset :: calls m cs
  | m, .finalize :: cs => .finalize :: calls m cs

end Cmd

namespace API
variable {O : Type} (A : API O) (addAct : O → GSpan → Act O)

/-- the commands of a thread on an object; not in /repo -/
def commands : O → List Cmd → Act O
  | o, [] => .ret o
  | o, .store a x :: cs => .write a (some x) (commands o cs)
  | o, .add ptr length :: cs => do commands (← addAct o (← .lift (GSpan.make ptr length))) cs
  | o, .reset :: cs => commands (A.reset o) cs
  | o, .finalize :: cs => do commands (← .lift (A.finalize o)) cs

/-- the thread: a new object, the commands, the digest; not in /repo -/
def thread (cmds : List Cmd) : Act (List Byte) := do .lift (A.toArray (← A.commands addAct A.fresh cmds))

/-- The digest after these calls in a program that has no other thread and no memory. Not in /repo. -/
def digestAfter (ops : List Op) : Except Fault (List Byte) := do A.toArray (← A.run A.fresh ops)

/-- A thread stores bytes and hands them to one object, in any order of calls: whatever else runs in the program
and whatever the schedule, it ends up with the digest of its own calls. Not in /repo. -/
def ScheduleIndependent : Prop :=
  ∀ (cmds : List Cmd) (ops : List Op) (m : Mem), HandsAll (Cmd.calls m cmds) ops →
    Undisturbed (A.thread addAct cmds) m (Cmd.Stores cmds) (A.digestAfter ops)

end API

/-! ## The streaming text, access by access -/

namespace GSpan

/-- `operator[]` (gsl/span:648-652) -/
def getAct (s : GSpan) (idx : Nat) : Act Byte := do
  .lift (expects (idx < s.size))
  .read (s.data + idx) .ret

end GSpan

/-- `operator*` (gsl/span:152-156) -/
def Iter.derefAct (it : Iter) : Act Byte := do
  .lift (expects (it.cur != it.last))
  .read it.cur .ret

/-- `for (InputIt iter = first; iter != last; ++iter) body(*iter)`, as `iterLoop` (gsl/span:194-243) -/
def iterLoopAct {S : Type} (body : S → Byte → Except Fault S) : Nat → Iter → Iter → S → Act S
  | 0, _, _, _ => .fault .assertion
  | fuel + 1, it, last, s => do
    if ← .lift (it.ne last) then
      let s ← .lift (body s (← it.derefAct))
      iterLoopAct body fuel (← .lift it.inc) last s
    else return s

/-- the loop from `first` to `last` (sha2_256.h:109, 142) -/
def iterRangeAct {S : Type} (body : S → Byte → Except Fault S) (first last : Iter) (s : S) : Act S :=
  iterLoopAct body (first.last - first.cur + 1) first last s

namespace Buffer
variable {N : Nat}

/-- `push_back(first, last)` (sha1.h:130-137) -/
def pushBackAct (b : Buffer N) (first last : Iter) : Act (Buffer N) :=
  iterRangeAct (fun b x => b.fill x) first last b

/-- `Buffer(first, last)` (sha1.h:97-104) -/
def ofRangeAct (first last : Iter) : Act (Buffer N) := pushBackAct {} first last

end Buffer

/-- it never writes; not in /repo -/
def Act.ReadOnly {α : Type} : Act α → Prop
  | .ret _ => True
  | .fault _ => True
  | .read _ k => ∀ x, (k x).ReadOnly
  | .write _ _ _ => False

/-- The body of the loop over blocks, at the address of its block. `Loader m(data.data() + i * BLOCK_SIZE)`
(sha1.h:449-451) keeps the address and reads when the round functions say `m[j]`, often more than once for one `j`
(four times in md5.h:478-551, for example). `Reads bodyAct body` leaves open which bytes are read when and how
often: it only says that the result is that of `body` when the block stays as it is. -/
def Reads {S : Type} {B : Nat} (bodyAct : S → Nat → Act S) (body : S → Block B → S) : Prop :=
  ∀ s a, (bodyAct s a).ReadOnly ∧
    ∀ m blk, blockFrom B m a = .ok blk → (bodyAct s a).alone m = .ok (body s blk, m)

/-- the block is read byte by byte, then it is used; not in /repo -/
def readOnce {S : Type} {B : Nat} (body : S → Block B → S) (s : S) (a : Nat) : Act S := do
  let l ← (List.range B).mapM fun i => Act.read (a + i) .ret
  if h : l.length = B then return body s ⟨l.toArray, by simpa using h⟩ else .fault .assertion

/-- the loop over blocks of every `addDataImpl`, as `forBlocksAt` (sha2_256.h:481-483) -/
def forBlocksAct {S : Type} (B : Nat) (bodyAct : S → Nat → Act S) (data : GSpan) (s : S) : Act S :=
  (List.range (data.size / B)).foldlM (fun s i => bodyAct s (data.data + i * B)) s

/-- second half of `addData(Span)` (sha1.h:403-416) -/
def addDataTailAct {N : Nat} {S : Type} (B : Nat) (impl : S → GSpan → Act S) (o : Obj N S) (data : GSpan) :
    Act (Obj N S) := do
  let dataSize := data.size
  if dataSize < B then
    let b ← Buffer.ofRangeAct (← .lift data.begin) (← .lift data.end)
    return { o with buffer := b }
  else
    let len := dataSize - (dataSize % B)
    let c ← impl o.chain (← .lift (data.first len))
    if len < dataSize then
      let b ← Buffer.ofRangeAct (← .lift ((← .lift data.begin).add (Iter.toDiff len))) (← .lift data.end)
      return ⟨b, c⟩
    else
      return { o with chain := c }

/-- `addData(Span)` (sha1.h:385-417) of an object whose `m_buffer` array lies at address `self` -/
def addDataAct {N : Nat} {S : Type} (B : Nat) (impl : S → GSpan → Act S) (self : Nat) (o : Obj N S) (inData : GSpan) :
    Act (Obj N S) := do
  if !o.buffer.empty then
    let len := min (B - o.buffer.size) inData.size
    let b ← o.buffer.pushBackAct (← .lift inData.begin) (← .lift ((← .lift inData.begin).add (Iter.toDiff len)))
    if b.size < B then
      return { o with buffer := b }
    else
      let c ← (impl o.chain (← .lift (GSpan.make self b.size))).within (b.mem self)
      addDataTailAct B impl ⟨b.clear, c⟩ (← .lift (inData.subspan len))
  else
    addDataTailAct B impl o inData

/-- `addDataImpl` of the Merkle-Damgård style classes, as in `mdImpl` (sha2_256.h:475-483) -/
def mdImplAct {C H : Type} (B : Nat) (cnt : Counter C) (compAct : H → Nat → Act H) (s : MDState C H) (data : GSpan) :
    Act (MDState C H) := do
  if data.size % B ≠ 0 then .fault .assertion else
  let c := cnt.add s.sizeCounter data.size
  let h ← forBlocksAct B compAct data s.h
  return ⟨c, h⟩

end Verif
