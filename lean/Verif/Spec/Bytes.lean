/-!
# Vocabulary of the specifications

Byte strings, numbers as byte strings, cutting a string into blocks.  Independent of the model.
-/

namespace Verif.Spec

abbrev Byte := BitVec 8

/-- The number written by a byte string, most significant byte first. -/
def ofBE (l : List Byte) : Nat := l.foldl (fun acc b => 256 * acc + b.toNat) 0

/-- The number written by a byte string, least significant byte first. -/
def ofLE : List Byte → Nat
  | [] => 0
  | b :: l => b.toNat + 256 * ofLE l

/-- The `n` low-order bytes of `x`, least significant first. -/
def toLE : Nat → Nat → List Byte
  | 0, _ => []
  | n + 1, x => BitVec.ofNat 8 x :: toLE n (x / 256)

/-- The `n` low-order bytes of `x`, most significant first. -/
def toBE (n x : Nat) : List Byte := (toLE n x).reverse

/-- Cut a byte string into blocks of `n` bytes (an incomplete last block is dropped). -/
def blocks (n : Nat) (l : List Byte) : List (List Byte) :=
  if _h : 0 < n ∧ n ≤ l.length then l.take n :: blocks n (l.drop n) else []
termination_by l.length
decreasing_by simp; omega

/-- The `t`-th `w`-bit word of a block, big-endian. -/
def wordBE (w : Nat) (block : List Byte) (t : Nat) : BitVec w :=
  BitVec.ofNat w (ofBE ((block.drop (w / 8 * t)).take (w / 8)))

/-- The `t`-th `w`-bit word of a block, little-endian. -/
def wordLE (w : Nat) (block : List Byte) (t : Nat) : BitVec w :=
  BitVec.ofNat w (ofLE ((block.drop (w / 8 * t)).take (w / 8)))

/-- Words to bytes, each word most significant byte first. -/
def bytesBE {w : Nat} (ws : List (BitVec w)) : List Byte := ws.flatMap fun x => toBE (w / 8) x.toNat

/-- Words to bytes, each word least significant byte first. -/
def bytesLE {w : Nat} (ws : List (BitVec w)) : List Byte := ws.flatMap fun x => toLE (w / 8) x.toNat

end Verif.Spec
