import Verif.Core.API
import Verif.Spec.Hex

/-!
# Reading the digest: `toString`, `toVector`, `operator T`, `std::hash`

The text of these members is the same in all 27 headers that define `toArray` (sha1.h:328-387 is cited
below); sha3.h:363-402 differs only in calling `toVector` for `toArray`. tools/same_text.py checks this.
-/

namespace Verif

/-- `*(retPtr++) = c`: writing at position `p` of a string, which must be inside it (sha1.h:338, 341) -/
def writeChar (s : List Char) (p : Nat) (c : Char) : Except Fault (List Char) :=
  if p < s.length then .ok (s.set p c) else .error .resultOverrun

/-- `static_cast<char>((x < 10) ? (x + '0') : (x - 10 + 'a'))` (sha1.h:338, 341) -/
def hexChar (x : Byte) : Char :=
  Char.ofNat (if x < 10 then x.toNat + '0'.toNat else x.toNat - 10 + 'a'.toNat)

/-- the loop of `toString` (sha1.h:335-342) -/
def hexLoop : List Byte → List Char → Nat → Except Fault (List Char)
  | [], ret, _ => .ok ret
  | c :: cs, ret, p => do
    let upper : Byte := ror 8 c 4
    let ret ← writeChar ret p (hexChar upper)
    let lower : Byte := c &&& 0xf
    let ret ← writeChar ret (p + 1) (hexChar lower)
    hexLoop cs ret (p + 2)

/-- `toString` after `toArray` (sha1.h:328-345). `ret.front()` on an empty string is undefined. -/
def renderHex (digest : List Byte) : Except Fault (List Char) :=
  let ret := List.replicate (2 * digest.length) (Char.ofNat 0)
  if ret.length = 0 then .error .emptyFront else hexLoop digest ret 0

/-- the loop of `operator T` for an unsigned `T` of `k` bytes: `n` iterations are left, the next index is
`i` (sha1.h:380-384). For `T` narrower than `int` the shift is done in `int` and cut back to `T`, which
gives the same value. -/
def intLoop (k : Nat) (digest : List Byte) : Nat → Nat → BitVec (8 * k) → Except Fault (BitVec (8 * k))
  | 0, _, ret => .ok ret
  | n + 1, i, ret =>
    match digest[i]? with
    | none => .error .spanBounds
    | some b => intLoop k digest n (i + 1) ((ret <<< 8) ||| b.setWidth (8 * k))

/-- `operator T` after `toArray` (sha1.h:373-386) -/
def convertInt (k : Nat) (digest : List Byte) : Except Fault (BitVec (8 * k)) :=
  intLoop k digest (min k digest.length) 0 0

/-- `operator T` for `T = bool`, which `std::is_unsigned` accepts: one iteration (sha1.h:373-386),
`ret <<= 8` leaves `false` and `ret |= x` makes it `x != 0`. -/
def convertBool (digest : List Byte) : Bool :=
  match digest with
  | [] => false
  | b :: _ => b != 0

namespace API
variable {O : Type} (A : API O)

/-- `toString` (sha1.h:328-345) -/
def toString (o : O) : Except Fault (List Char) := do renderHex (← A.toArray o)

/-- `toVector` (sha1.h:347-351, sha3.h:383-386) -/
def toVector (o : O) : Except Fault (List Byte) := do
  let digest ← A.toArray o
  return digest

/-- `operator T` for an unsigned `T` of `k` bytes (sha1.h:373-386) -/
def toUInt (k : Nat) (o : O) : Except Fault (BitVec (8 * k)) := do convertInt k (← A.toArray o)

/-- `std::hash` (sha1.h:623-630): the conversion to `size_t`, 8 bytes -/
def stdHash (o : O) : Except Fault (BitVec 64) := A.toUInt 8 o

/-! ## What the properties C04 and C05 say of a class -/

/-- After every legal history ending in `finalize`: `toVector` gives the bytes of `toArray`, and
`toString` their hexadecimal text. Not in /repo. -/
def HexFaithful : Prop :=
  ∀ ops, Legal (ops ++ [.finalize]) → ∃ o d, A.run A.fresh (ops ++ [.finalize]) = .ok o ∧
    A.toArray o = .ok d ∧ A.toVector o = .ok d ∧ A.toString o = .ok (Spec.hex d)

/-- After every legal history ending in `finalize`: conversion to an unsigned integer type of `k` bytes
gives the number whose big-endian bytes are the first `k` of `toArray` (all of them if there are
fewer), and `std::hash` is that for `k = 8`. Not in /repo. -/
def IntFaithful : Prop :=
  ∀ ops, Legal (ops ++ [.finalize]) → ∃ o d, A.run A.fresh (ops ++ [.finalize]) = .ok o ∧
    A.toArray o = .ok d ∧
    (∀ k, ∃ v, A.toUInt k o = .ok v ∧ v.toNat = Spec.ofBE (d.take k)) ∧
    (∃ v, A.stdHash o = .ok v ∧ v.toNat = Spec.ofBE (d.take 8))

end API
end Verif
