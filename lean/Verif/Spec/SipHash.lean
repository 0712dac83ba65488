import Verif.Spec.Bytes

/-!
# SipHash-c-d

Written from "SipHash: a fast short-input PRF" (Aumasson, Bernstein, 2012), section 2.
-/

namespace Verif.Spec.SipHash

/-- the four 64-bit words of the internal state -/
structure State where
  (v0 v1 v2 v3 : BitVec 64)
  deriving DecidableEq

/-- 2.1: initialization with the key `k`, two little-endian words -/
def init (key : List Byte) : State :=
  let k0 := wordLE 64 key 0
  let k1 := wordLE 64 key 1
  ⟨k0 ^^^ 0x736f6d6570736575, k1 ^^^ 0x646f72616e646f6d, k0 ^^^ 0x6c7967656e657261, k1 ^^^ 0x7465646279746573⟩

/-- half of figure 2.1: an add-rotate-xor step on one pair of words -/
def arx (a b : BitVec 64) (r : Nat) : BitVec 64 × BitVec 64 := (a + b, b.rotateLeft r ^^^ (a + b))

/-- figure 2.1: SipRound. First the pairs (v0, v1), (v2, v3), then the pairs (v2, v1), (v0, v3);
after each use as the first word of a pair next to `v1`, the word is rotated by 32. -/
def sipRound (s : State) : State :=
  let p := arx s.v0 s.v1 13
  let q := arx s.v2 s.v3 16
  let a := p.1.rotateLeft 32
  let r := arx q.1 p.2 17
  let t := arx a q.2 21
  ⟨t.1, r.2, r.1.rotateLeft 32, t.2⟩

/-- 2.2: compression of one 64-bit word -/
def compress (c : Nat) (s : State) (m : BitVec 64) : State :=
  let s := { s with v3 := s.v3 ^^^ m }
  let s := (List.range c).foldl (fun s _ => sipRound s) s
  { s with v0 := s.v0 ^^^ m }

/-- 2.2: the message followed by null bytes and the byte `b mod 256` (`b` the length in bytes), so
that it is `⌊b / 8⌋ + 1` words -/
def pad (m : List Byte) : List Byte :=
  m ++ List.replicate (7 - m.length % 8) 0 ++ [BitVec.ofNat 8 m.length]

/-- 2.3: finalization -/
def finish (d : Nat) (s : State) : BitVec 64 :=
  let s := (List.range d).foldl (fun s _ => sipRound s) { s with v2 := s.v2 ^^^ 0xff }
  s.v0 ^^^ s.v1 ^^^ s.v2 ^^^ s.v3

/-- The 64-bit tag. -/
def siphash (c d : Nat) (key m : List Byte) : BitVec 64 :=
  finish d (((blocks 8 (pad m)).map (wordLE 64 · 0)).foldl (compress c) (init key))

end Verif.Spec.SipHash
