import Verif.Core.Work

/-!
# Which operations are executed

A value together with the list of what was done to get it: arithmetic on words, shifts with their amounts, and reads and
writes of arrays with the number of the element. Values are not in the list. Local scalar variables and constants cost
nothing (`var`); a call `f(x)` by value evaluates `x` once.
-/

namespace Verif

/-- one operation; not in /repo -/
inductive Instr where
  | add | sub | mul | xor | and | or | not
  /-- of a word of so many bits -/
  | shl (width amount : Nat) | shr (width amount : Nat)
  /-- a byte of the block that is being hashed -/
  | load (byte : Nat)
  | read (array : String) (element : Nat)
  | write (array : String) (element : Nat)
  /-- an element of a constant table, chosen by data -/
  | lookup (table : String) (element : Nat)
  deriving DecidableEq, Repr

/-- Not in /repo: code together with the log of what it does. -/
structure Ops (α : Type) where
  value : α
  ops : List Instr

namespace Ops

instance : Monad Ops where
  pure a := ⟨a, []⟩
  bind x f := ⟨(f x.value).value, x.ops ++ (f x.value).ops⟩

variable {w : Nat}

/-- a local variable or a constant; not in /repo -/
def var (x : BitVec w) : Ops (BitVec w) := ⟨x, []⟩

instance : Add (Ops (BitVec w)) := ⟨fun x y => ⟨x.value + y.value, x.ops ++ y.ops ++ [.add]⟩⟩
instance : Sub (Ops (BitVec w)) := ⟨fun x y => ⟨x.value - y.value, x.ops ++ y.ops ++ [.sub]⟩⟩
instance : Mul (Ops (BitVec w)) := ⟨fun x y => ⟨x.value * y.value, x.ops ++ y.ops ++ [.mul]⟩⟩
instance : XorOp (Ops (BitVec w)) := ⟨fun x y => ⟨x.value ^^^ y.value, x.ops ++ y.ops ++ [.xor]⟩⟩
instance : AndOp (Ops (BitVec w)) := ⟨fun x y => ⟨x.value &&& y.value, x.ops ++ y.ops ++ [.and]⟩⟩
instance : OrOp (Ops (BitVec w)) := ⟨fun x y => ⟨x.value ||| y.value, x.ops ++ y.ops ++ [.or]⟩⟩
instance : Complement (Ops (BitVec w)) := ⟨fun x => ⟨~~~x.value, x.ops ++ [.not]⟩⟩
instance : HShiftLeft (Ops (BitVec w)) Nat (Ops (BitVec w)) := ⟨fun x s => ⟨x.value <<< s, x.ops ++ [.shl w s]⟩⟩
instance : HShiftRight (Ops (BitVec w)) Nat (Ops (BitVec w)) := ⟨fun x s => ⟨x.value >>> s, x.ops ++ [.shr w s]⟩⟩

/-- `rotl(x, s)` (sha1.h:177-187): the test of `s` is on a constant of the program. -/
def rotl (x : Ops (BitVec w)) (s : Nat) : Ops (BitVec w) :=
  ⟨Verif.rotl x.value s, x.ops ++ if s = 0 then [] else [.shl w s, .shr w (w - s), .or]⟩

/-- `rotr(x, s)` (sha2_256.h:186-196) -/
def rotr (x : Ops (BitVec w)) (s : Nat) : Ops (BitVec w) :=
  ⟨Verif.rotr x.value s, x.ops ++ if s = 0 then [] else [.shr w s, .shl w (w - s), .or]⟩

/-- `ror<T>(x, s)` (sha2_256.h:174-184) -/
def ror (r : Nat) (x : Ops (BitVec w)) (s : Nat) : Ops (BitVec r) := ⟨Verif.ror r x.value s, x.ops ++ [.shr w s]⟩

/-- an element of an array; not in /repo -/
def rd {n : Nat} (name : String) (v : Vector (BitVec w) n) (i : Nat) (h : i < n := by get_elem_tactic) : Ops (BitVec w) :=
  ⟨v[i], [.read name i]⟩

/-- an assignment to an element of an array: the array afterwards; not in /repo -/
def wr {n : Nat} (name : String) (v : Vector (BitVec w) n) (i : Nat) (x : Ops (BitVec w)) (h : i < n := by get_elem_tactic) :
    Ops (Vector (BitVec w) n) := ⟨v.set i x.value, x.ops ++ [.write name i]⟩

/-- the assignments `a[i] = x` for the `x` of a list and `i` from the given index on: the elements assigned; not in /repo -/
def storeList (name : String) : Nat → List (Ops (BitVec w)) → Ops (List (BitVec w))
  | _, [] => ⟨[], []⟩
  | i, x :: xs => ⟨x.value :: (storeList name (i + 1) xs).value, x.ops ++ [.write name i] ++ (storeList name (i + 1) xs).ops⟩

theorem storeList_length (name : String) (i : Nat) (xs : List (Ops (BitVec w))) :
    (storeList name i xs).value.length = xs.length := by
  induction xs generalizing i with
  | nil => rfl
  | cons x xs ih => simp [storeList, ih]

/-- the assignments `a[0] = x0; a[1] = x1; ...` to all elements of an array: the array afterwards; not in /repo -/
def stores {n : Nat} (name : String) (xs : List (Ops (BitVec w))) (h : xs.length = n := by rfl) : Ops (Vector (BitVec w) n) :=
  ⟨⟨⟨(storeList name 0 xs).value⟩, (storeList_length name 0 xs).trans h⟩, (storeList name 0 xs).ops⟩

/-- `table[i]` with an index of type `Byte`; not in /repo -/
def lookup (name : String) (v : Vector (BitVec w) 256) (i : Ops Byte) : Ops (BitVec w) :=
  ⟨v[i.value.toNat], i.ops ++ [.lookup name i.value.toNat]⟩

/-- `static_cast<T>(*(ptr + i))` for a byte of the block; not in /repo -/
def byte {B : Nat} (w : Nat) (m : Block B) (i : Nat) (h : i < B := by get_elem_tactic) : Ops (BitVec w) :=
  ⟨(m[i]).setWidth w, [.load i]⟩

/-- `Loader<uint32_t>::operator[]`, big-endian text (sha2_256.h:296-305) -/
def loadBE32 {B : Nat} (m : Block B) (idx : Nat) (h : 4 * idx + 4 ≤ B := by omega) : Ops W32 :=
  (byte 32 m (4 * idx + 0) <<< 24) ||| (byte 32 m (4 * idx + 1) <<< 16) ||| (byte 32 m (4 * idx + 2) <<< 8) |||
    (byte 32 m (4 * idx + 3) <<< 0)

/-- `Loader<uint32_t>::operator[]`, little-endian text (md5.h:257-, ripemd_*.h) -/
def loadLE32 {B : Nat} (m : Block B) (idx : Nat) (h : 4 * idx + 4 ≤ B := by omega) : Ops W32 :=
  (byte 32 m (4 * idx + 0) <<< 0) ||| (byte 32 m (4 * idx + 1) <<< 8) ||| (byte 32 m (4 * idx + 2) <<< 16) |||
    (byte 32 m (4 * idx + 3) <<< 24)

/-- `Loader<uint64_t>::operator[]`, big-endian text (sha2_512.h:363-376) -/
def loadBE64 {B : Nat} (m : Block B) (idx : Nat) (h : 8 * idx + 8 ≤ B := by omega) : Ops W64 :=
  (byte 64 m (8 * idx + 0) <<< 56) ||| (byte 64 m (8 * idx + 1) <<< 48) ||| (byte 64 m (8 * idx + 2) <<< 40) |||
    (byte 64 m (8 * idx + 3) <<< 32) ||| (byte 64 m (8 * idx + 4) <<< 24) ||| (byte 64 m (8 * idx + 5) <<< 16) |||
    (byte 64 m (8 * idx + 6) <<< 8) ||| (byte 64 m (8 * idx + 7) <<< 0)

/-- `Loader<uint64_t>::operator[]`, little-endian text (sha3.h:278-, blake2.h:325-, siphash.h:260-) -/
def loadLE64 {B : Nat} (m : Block B) (idx : Nat) (h : 8 * idx + 8 ≤ B := by omega) : Ops W64 :=
  (byte 64 m (8 * idx + 0) <<< 0) ||| (byte 64 m (8 * idx + 1) <<< 8) ||| (byte 64 m (8 * idx + 2) <<< 16) |||
    (byte 64 m (8 * idx + 3) <<< 24) ||| (byte 64 m (8 * idx + 4) <<< 32) ||| (byte 64 m (8 * idx + 5) <<< 40) |||
    (byte 64 m (8 * idx + 6) <<< 48) ||| (byte 64 m (8 * idx + 7) <<< 56)

/-- statements one after the other; not in /repo -/
def fold {α β : Type} (f : α → β → Ops α) : List β → α → Ops α
  | [], a => ⟨a, []⟩
  | b :: l, a => do
    let a ← f a b
    fold f l a

/-- `for (t = lo; t < hi; ++t) body`; not in /repo -/
def forRange {α : Type} (lo hi : Nat) (init : α) (body : (t : Nat) → lo ≤ t → t < hi → α → Ops α) : Ops α :=
  Nat.fold (hi - lo) (fun i h s => s >>= body (lo + i) (by omega) (by omega)) ⟨init, []⟩

/-- a loop body that appends what it does to a log; not in /repo -/
def logged {S M : Type} (f : S → M → Ops S) (s : S × List Instr) (m : M) : S × List Instr :=
  ((f s.1 m).value, s.2 ++ (f s.1 m).ops)

end Ops

/-! ## The property -/

/-- `g` is `f` with the operations written down, and these are the same whatever the state and the block. Not in /repo. -/
structure Steady {S M : Type} (f : S → M → S) (g : S → M → Ops S) : Prop where
  value : ∀ s m, (g s m).value = f s m
  same : ∀ s m s' m', (g s m).ops = (g s' m').ops

/-- the operation without the index of a table lookup; not in /repo -/
def Instr.anywhere : Instr → Instr
  | .lookup table _ => .lookup table 0
  | i => i

/-- `g` is `f` with the operations written down, and these are the same whatever the state and the block, except for the
indices of the table lookups. Not in /repo. -/
structure SteadyButLookups {S M : Type} (f : S → M → S) (g : S → M → Ops S) : Prop where
  value : ∀ s m, (g s m).value = f s m
  same : ∀ s m s' m', (g s m).ops.map Instr.anywhere = (g s' m').ops.map Instr.anywhere

/-- What a call is, without the bytes: which function, and the number of bytes given to `addData`. Not in /repo. -/
inductive Shape where
  | add (length : Nat) | finalize | reset
  deriving DecidableEq

/-- Not in /repo: what can be seen of a call without looking at its bytes. -/
def Op.shape : Op → Shape
  | .add d => .add d.length
  | .finalize => .finalize
  | .reset => .reset

/-- Both fail in the same way, or both succeed with related results. Not in /repo. -/
def Both {α β : Type} (R : α → β → Prop) : Except Fault α → Except Fault β → Prop
  | .ok a, .ok b => R a b
  | .error e, .error e' => e = e'
  | _, _ => False

/-- Two programs that make the same calls with data of the same lengths, in any order, legal or not, execute the same
operations in the same order. `A` and `A'` are objects of one class, constructed with different keys perhaps. Not in
/repo. -/
def API.SameOps {O : Type} (A A' : API O) (log : O → List Instr) : Prop :=
  ∀ ops ops', ops.map Op.shape = ops'.map Op.shape →
    Both (fun o o' => log o = log o') (A.run A.fresh ops) (A'.run A'.fresh ops')

/-- `A` does what the class `L` with a log does, and the log depends on the calls and on the lengths of the data
only. Not in /repo. -/
structure API.Oblivious {O O' : Type} (A : API O) (L : API O') (real : O' → O) (log : O' → List Instr) : Prop where
  real : A.SameBut L real
  ops : L.SameOps L log

/-- Shifting a word by as many bits as it has, or by more, is undefined. Not in /repo. -/
def Instr.Defined : Instr → Prop
  | .shl width amount => amount < width
  | .shr width amount => amount < width
  | _ => True

instance (i : Instr) : Decidable i.Defined := by cases i <;> unfold Instr.Defined <;> infer_instance

/-- No step of the block function is undefined, whatever the state and the block. Not in /repo. -/
def DefinedSteps {S M : Type} (g : S → M → Ops S) : Prop := ∀ s m, ∀ i ∈ (g s m).ops, i.Defined

/-- Whatever calls are made, in whatever order: nothing that was executed is undefined. Not in /repo. -/
def API.Defined {O : Type} (L : API O) (log : O → List Instr) : Prop :=
  ∀ ops o, L.run L.fresh ops = .ok o → ∀ i ∈ log o, i.Defined

end Verif
