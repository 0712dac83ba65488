import Verif.Spec.SHA2

/-!
# BLAKE-224, BLAKE-256, BLAKE-384, BLAKE-512

Written from "SHA-3 proposal BLAKE", version 1.3 (Aumasson, Henzen, Meier, Phan, 2010): the final
round version with 14 and 16 rounds. The salt is zero throughout, so the exclusive-ors with it are
left out.
-/

namespace Verif.Spec.BLAKE

/-- 2.1.1: the first 1024 bits of the fractional part of pi
(proved of the real number: `Verif.Props.C40_pi_bits`). -/
def piFrac : Nat := 0x243f6a8885a308d313198a2e03707344a4093822299f31d0082efa98ec4e6c89452821e638d01377be5466cf34e90c6cc0ac29b7c97c50dd3f84d5b5b54709179216d5d98979fb1bd1310ba698dfb5ac2ffd72dbd01adfb7b8e1afed6a267e96ba7c9045f12c7f9924a19947b3916cf70801f2e2858efc16636920d871574e69

/-- 2.1.1, 2.2.1: the constants `c_0 .. c_15` are consecutive words of the fraction of pi. -/
def C (w i : Nat) : BitVec w := BitVec.ofNat w (piFrac / 2 ^ (1024 - w * (i + 1)))

/-- 2.1.1, table of the permutations of {0, .., 15}. -/
def sigmaTable : List (List Nat) := [
  [0, 1, 2, 3, 4, 5, 6, 7, 8, 9, 10, 11, 12, 13, 14, 15],
  [14, 10, 4, 8, 9, 15, 13, 6, 1, 12, 0, 2, 11, 7, 5, 3],
  [11, 8, 12, 0, 5, 2, 15, 13, 10, 14, 3, 6, 7, 1, 9, 4],
  [7, 9, 3, 1, 13, 12, 11, 14, 2, 6, 5, 10, 4, 0, 15, 8],
  [9, 0, 5, 7, 2, 4, 10, 15, 14, 1, 11, 12, 6, 8, 3, 13],
  [2, 12, 6, 10, 0, 11, 8, 3, 4, 13, 7, 5, 15, 14, 1, 9],
  [12, 5, 1, 15, 14, 13, 4, 10, 0, 7, 6, 3, 9, 2, 8, 11],
  [13, 11, 7, 14, 12, 1, 3, 9, 5, 0, 15, 4, 8, 6, 2, 10],
  [6, 15, 14, 9, 11, 3, 0, 8, 12, 2, 13, 7, 1, 4, 10, 5],
  [10, 2, 8, 4, 7, 6, 1, 5, 15, 11, 9, 14, 3, 12, 13, 0]]

/-- the permutation used in round `r` -/
def sigma (r i : Nat) : Nat := (sigmaTable.getD (r % 10) []).getD i 0

/-- 2.1.2: the four words on which `G_0 .. G_7` work: the columns, then the diagonals. -/
def quads : List (Fin 16 × Fin 16 × Fin 16 × Fin 16) := [
  (0, 4, 8, 12), (1, 5, 9, 13), (2, 6, 10, 14), (3, 7, 11, 15),
  (0, 5, 10, 15), (1, 6, 11, 12), (2, 7, 8, 13), (3, 4, 9, 14)]

def quad (i : Nat) : Fin 16 × Fin 16 × Fin 16 × Fin 16 := quads.getD i (0, 0, 0, 0)

/-- The four rotation amounts of `G`. -/
structure Rot where
  (r1 r2 r3 r4 : Nat)

/-- `G` on the words `a`, `b`, `c`, `d` of the state, with the two inputs `x` and `y`. -/
def G {w : Nat} (r : Rot) (v : Vector (BitVec w) 16) (q : Fin 16 × Fin 16 × Fin 16 × Fin 16)
    (x y : BitVec w) : Vector (BitVec w) 16 :=
  let a1 := v[q.1] + v[q.2.1] + x
  let d1 := (v[q.2.2.2] ^^^ a1).rotateRight r.r1
  let c1 := v[q.2.2.1] + d1
  let b1 := (v[q.2.1] ^^^ c1).rotateRight r.r2
  let a2 := a1 + b1 + y
  let d2 := (d1 ^^^ a2).rotateRight r.r3
  let c2 := c1 + d2
  let b2 := (b1 ^^^ c2).rotateRight r.r4
  (((v.set q.1 a2).set q.2.1 b2).set q.2.2.1 c2).set q.2.2.2 d2

/-- What differs between BLAKE-256 and BLAKE-512. -/
structure Params (w : Nat) where
  rounds : Nat
  rot : Rot

def p256 : Params 32 := ⟨14, ⟨16, 12, 8, 7⟩⟩
def p512 : Params 64 := ⟨16, ⟨32, 25, 16, 11⟩⟩

variable {w : Nat}

/-- 2.1.2, one application of `G_i` in round `r`. -/
def step (p : Params w) (M : Nat → BitVec w) (r : Nat) (v : Vector (BitVec w) 16) (i : Nat) :
    Vector (BitVec w) 16 :=
  let j := sigma r (2 * i)
  let k := sigma r (2 * i + 1)
  G p.rot v (quad i) (M j ^^^ C w k) (M k ^^^ C w j)

/-- 2.1.2, round function -/
def round (p : Params w) (M : Nat → BitVec w) (v : Vector (BitVec w) 16) (r : Nat) :
    Vector (BitVec w) 16 :=
  (List.range 8).foldl (step p M r) v

/-- 2.1.2: compression of the chaining value `h`, the block and the counter `t` (the number of
message bits hashed so far, two words). -/
def compress (p : Params w) (h : Vector (BitVec w) 8) (block : List Byte) (t : Nat) :
    Vector (BitVec w) 8 :=
  let t0 := BitVec.ofNat w t
  let t1 := BitVec.ofNat w (t / 2 ^ w)
  let v0 : Vector (BitVec w) 16 := #v[h[0], h[1], h[2], h[3], h[4], h[5], h[6], h[7],
    C w 0, C w 1, C w 2, C w 3, t0 ^^^ C w 4, t0 ^^^ C w 5, t1 ^^^ C w 6, t1 ^^^ C w 7]
  let v := (List.range p.rounds).foldl (round p (wordBE w block)) v0
  #v[h[0] ^^^ v[0] ^^^ v[8], h[1] ^^^ v[1] ^^^ v[9], h[2] ^^^ v[2] ^^^ v[10],
     h[3] ^^^ v[3] ^^^ v[11], h[4] ^^^ v[4] ^^^ v[12], h[5] ^^^ v[5] ^^^ v[13],
     h[6] ^^^ v[6] ^^^ v[14], h[7] ^^^ v[7] ^^^ v[15]]

/-- 2.1.3, 2.2.3 (and 2.3, 2.4 for the truncated versions): a one bit, the least number of zero
bits, the bit `e` (one in BLAKE-256 and BLAKE-512, zero in BLAKE-224 and BLAKE-384), and the length
in bits as an `L`-byte number, to a multiple of `B` bytes. The padding between message and length
is `n ≥ 1` bytes. -/
def pad (B L : Nat) (e : Byte) (M : List Byte) : List Byte :=
  let n := B - (M.length + L) % B
  let p : List Byte := if n = 1 then [0x80 ||| e] else [0x80] ++ List.replicate (n - 2) 0 ++ [e]
  M ++ p ++ toBE L (8 * M.length)

/-- 2.1.3: the counter of block `i` for a message of `len` bytes: the number of message bits in
blocks `0 .. i`, "except when the last block contains no bit from the original message", then 0. -/
def counter (B len i : Nat) : Nat :=
  if B * i < len then min (8 * B * (i + 1)) (8 * len) else 0

/-- The iterated hash, for an arbitrary rule `t` giving the counter of block `i` of a message of
`len` bytes. -/
def hashWith (t : Nat → Nat → Nat) (p : Params w) (B L : Nat) (e : Byte) (H0 : Vector (BitVec w) 8)
    (M : List Byte) : List Byte :=
  bytesBE ((blocks B (pad B L e M)).zipIdx.foldl
    (fun h b => compress p h b.1 (t M.length b.2)) H0).toList

def hash (p : Params w) (B L : Nat) (e : Byte) (H0 : Vector (BitVec w) 8) (M : List Byte) :
    List Byte := hashWith (counter B) p B L e H0 M

/-- The initial values are those of SHA-2. -/
def iv (s : SHA2.State w) : Vector (BitVec w) 8 := #v[s.a, s.b, s.c, s.d, s.e, s.f, s.g, s.h]

def blake256 (M : List Byte) : List Byte := hash p256 64 8 1 (iv SHA2.H256) M
def blake224 (M : List Byte) : List Byte := (hash p256 64 8 0 (iv SHA2.H224) M).take 28
def blake512 (M : List Byte) : List Byte := hash p512 128 16 1 (iv SHA2.H512) M
def blake384 (M : List Byte) : List Byte := (hash p512 128 16 0 (iv SHA2.H384) M).take 48

/-! ### What the classes compute instead

Not part of the specification: the counter rules that the code follows when the padding does not
fit in the block that holds the end of the message. Used to state what the digests are. -/

/-- `Blake1_256`, `Blake1_384`, `Blake1_512`: no counter in either of the last two blocks. -/
def skipCounter (B L len i : Nat) : Nat :=
  if B - L ≤ len % B ∧ len / B ≤ i then 0 else counter B len i

/-- `Blake1_224`: the negative number of message bits wraps around modulo 2^32, in both of the last
two blocks. -/
def wrapCounter (len i : Nat) : Nat :=
  if 56 ≤ len % 64 ∧ len / 64 ≤ i then
    512 * (len / 64) + (i - len / 64 + 1) * (2 ^ 32 - 8 * (64 - len % 64))
  else counter 64 len i

def dig224 (M : List Byte) : List Byte := (hashWith wrapCounter p256 64 8 0 (iv SHA2.H224) M).take 28
def dig256 (M : List Byte) : List Byte := hashWith (skipCounter 64 8) p256 64 8 1 (iv SHA2.H256) M
def dig384 (M : List Byte) : List Byte :=
  (hashWith (skipCounter 128 16) p512 128 16 0 (iv SHA2.H384) M).take 48
def dig512 (M : List Byte) : List Byte := hashWith (skipCounter 128 16) p512 128 16 1 (iv SHA2.H512) M

end Verif.Spec.BLAKE
