import Verif.Core.OwnerStore
import Verif.Model.CShake

/-!
# cshake.h: objects, their `unique_ptr`s and the heap

Model/CShake.lean stands for a `unique_ptr` by the object it owns. Here the pointers are addresses and the owned
`Keccak` objects are cells of a heap, so that aliasing, dangling pointers, double frees and leaks could occur.
-/

namespace Verif.Model.CShake
open SHA3

/-- What can go wrong: a fault of the code, or a use (or second freeing) of heap memory that is not
allocated. Not in /repo: the ways to fail of C++. -/
inductive HeapFault where
  | code (f : Fault)
  | dangling
  deriving DecidableEq

/-- a fault of the code is a fault; not in /repo -/
def lift {α : Type} : Except Fault α → Except HeapFault α
  | .ok a => .ok a
  | .error f => .error (.code f)

/-- Objects of class `CShake<S, K, R>` in numbered slots (variables), and the heap. cshake.h:125-128. -/
structure Mem (R : Nat) where
  /-- heap cells; `none` is free memory -/
  cells : Nat → Option (KObj R)
  /-- the next address the allocator hands out -/
  next : Nat
  /-- `m_customized` of the object in a slot (cshake.h:125); `none`: there is no object -/
  customized : Nat → Option Bool
  /-- `m_shake` (`false`) and `m_keccak` (`true`) of the object in a slot (cshake.h:127-128) -/
  ptr : Nat → Bool → Option Nat

section
variable {R : Nat} [RateOK R]

/-- no objects, nothing allocated; not in /repo: the start of a program -/
def Mem.empty (R : Nat) : Mem R := ⟨fun _ => none, 0, fun _ => none, fun _ _ => none⟩

/-- `*p` read (cshake.h:236-275) -/
def Mem.load (m : Mem R) (i : Nat) (b : Bool) : Except HeapFault (KObj R) :=
  match m.ptr i b with
  | none => .error (.code .nullDeref)
  | some a =>
    match m.cells a with
    | none => .error .dangling
    | some k => .ok k

/-- `*p = k` (cshake.h:209-253) -/
def Mem.store (m : Mem R) (i : Nat) (b : Bool) (k : KObj R) : Except HeapFault (Mem R) :=
  match m.ptr i b with
  | none => .error (.code .nullDeref)
  | some a =>
    match m.cells a with
    | none => .error .dangling
    | some _ => .ok { m with cells := fun x => if x = a then some k else m.cells x }

/-- `p = std::make_unique<..>(k)` for a null `p` (cshake.h:155, 159, 193, 195) -/
def Mem.alloc (m : Mem R) (i : Nat) (b : Bool) (k : KObj R) : Mem R :=
  { m with
    cells := fun x => if x = m.next then some k else m.cells x
    next := m.next + 1
    ptr := fun j c => if j = i ∧ c = b then some m.next else m.ptr j c }

/-- destructor of a `unique_ptr` (`m_shake`, `m_keccak`: cshake.h:127-128) -/
def Mem.free (m : Mem R) (i : Nat) (b : Bool) : Except HeapFault (Mem R) :=
  match m.ptr i b with
  | none => .ok m
  | some a =>
    match m.cells a with
    | none => .error .dangling
    | some _ => .ok { m with
        cells := fun x => if x = a then none else m.cells x
        ptr := fun j c => if j = i ∧ c = b then none else m.ptr j c }

/-- `std::swap` of two `unique_ptr`s (cshake.h:201-205, 227-231) -/
def Mem.swap (m : Mem R) (i j : Nat) (b : Bool) : Mem R :=
  { m with ptr := fun k c => if c = b then (if k = i then m.ptr j b else if k = j then m.ptr i b else m.ptr k c)
                             else m.ptr k c }

/-- assignment to `m_customized` (cshake.h:125) -/
def Mem.setFlag (m : Mem R) (i : Nat) (c : Option Bool) : Mem R :=
  { m with customized := fun k => if k = i then c else m.customized k }

/-- a member function call uses the object in a slot (`if (!m_customized)`, cshake.h:236-275) -/
def Mem.flag (m : Mem R) (i : Nat) : Except HeapFault Bool :=
  match m.customized i with
  | none => .error (.code .nullDeref)
  | some c => .ok c

/-- objects are constructed in slots without an object; not in /repo: the user's program -/
def Mem.vacant (m : Mem R) (i : Nat) : Except HeapFault Unit :=
  match m.customized i with
  | none => .ok ()
  | some _ => .error (.code .assertion)

/-- the two pointers of a new object whose members the constructor filled in (cshake.h:146-186) -/
def Mem.place (m : Mem R) (j : Nat) (v : CShake R) : Mem R :=
  let m := m.setFlag j (some v.customized)
  let m := match v.shake with
    | none => m
    | some k => m.alloc j false k
  match v.keccak with
    | none => m
    | some k => m.alloc j true k

/-- the padding of the class that `m_shake`, `m_keccak` point to (cshake.h:345-346) -/
def padding (c : Bool) : Byte := if c then 0x04 else 0x1F

/-- Execute one statement.
Constructor: the value is computed first (cshake.h:146-186) and then put on the heap; the C++ fills the one
cell it allocates in place. Calls: cshake.h:236-254, 324-331. Copies: cshake.h:188-196, 208-220, here from slot
`i` to slot `j`. Moves: cshake.h:198-206 (from the default member initialisers, 125-128), 222-234.
Destructor: cshake.h:92, members in reverse order. -/
def Mem.step (nb : Nat → Nat) (m : Mem R) : CStmt → Except HeapFault (Mem R)
  | .create j d name customize => do
    m.vacant j
    let v ← lift (construct nb R d name customize)
    return m.place j v
  | .call i op => do
    let c ← m.flag i
    let k ← m.load i c
    let k ← lift (callK op (padding c) k)
    m.store i c k
  | .copyNew i j => do
    m.vacant j
    let c ← m.flag i
    let m := m.setFlag j (some c)
    let k ← m.load i c
    return m.alloc j c k
  | .copyAssign i j => do
    let c ← m.flag i
    let _ ← m.flag j
    if i = j then return m
    let m := m.setFlag j (some c)
    let k ← m.load i c
    m.store j c k
  | .moveNew i j => do
    m.vacant j
    let c ← m.flag i
    let m := (m.setFlag j (some c)).setFlag i (some false)
    return m.swap i j c
  | .moveAssign i j => do
    let c ← m.flag i
    let c' ← m.flag j
    if i = j then return m
    let m := (m.setFlag j (some c)).setFlag i (some c')
    return m.swap i j c
  | .destroy i => do
    let _ ← m.flag i
    let m ← m.free i true
    let m ← m.free i false
    return m.setFlag i none

/-- Execute a program. Not in /repo: the user's program. -/
def Mem.exec (nb : Nat → Nat) (m : Mem R) : List CStmt → Except HeapFault (Mem R)
  | [] => .ok m
  | s :: P => do
    let m ← m.step nb s
    m.exec nb P

/-- `toVector` of the object in a slot (cshake.h:264-271) -/
def Mem.toVector (m : Mem R) (i : Nat) : Except HeapFault (List Byte) := do
  let c ← m.flag i
  let k ← m.load i c
  lift (SHA3.toVector k.obj)

end
end Verif.Model.CShake
