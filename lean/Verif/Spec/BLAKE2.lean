import Verif.Spec.BLAKE

/-!
# BLAKE2b and BLAKE2s, unkeyed, full-length output

Written from RFC 7693. The mixing function is the `G` of BLAKE (`Spec/BLAKE.lean`) with other
rotation amounts; the message schedule `SIGMA` is the table of BLAKE, "rows 10 and 11 are identical
to rows 0 and 1" (2.7).
-/

namespace Verif.Spec.BLAKE2
open BLAKE (Rot G sigma quad)

variable {w : Nat}

/-- 2.1: rounds in `F`, rotation constants. -/
structure Params (w : Nat) where
  rounds : Nat
  rot : Rot
  /-- 2.6: the initialization vector -/
  IV : Vector (BitVec w) 8

/-- BLAKE2b: 12 rounds, rotations 32, 24, 16, 63; the IV of SHA-512. -/
def p2b : Params 64 := ⟨12, ⟨32, 24, 16, 63⟩, BLAKE.iv SHA2.H512⟩
/-- BLAKE2s: 10 rounds, rotations 16, 12, 8, 7; the IV of SHA-256. -/
def p2s : Params 32 := ⟨10, ⟨16, 12, 8, 7⟩, BLAKE.iv SHA2.H256⟩

/-- 3.2, the body of the loop over rounds -/
def round (p : Params w) (m : Nat → BitVec w) (v : Vector (BitVec w) 16) (r : Nat) :
    Vector (BitVec w) 16 :=
  (List.range 8).foldl (fun v i => G p.rot v (quad i) (m (sigma r (2 * i))) (m (sigma r (2 * i + 1)))) v

/-- 3.2: `F(h, m, t, f)` -/
def F (p : Params w) (h : Vector (BitVec w) 8) (block : List Byte) (t : Nat) (f : Bool) :
    Vector (BitVec w) 8 :=
  let v0 : Vector (BitVec w) 16 := #v[h[0], h[1], h[2], h[3], h[4], h[5], h[6], h[7],
    p.IV[0], p.IV[1], p.IV[2], p.IV[3],
    p.IV[4] ^^^ BitVec.ofNat w t, p.IV[5] ^^^ BitVec.ofNat w (t / 2 ^ w),
    if f then p.IV[6] ^^^ BitVec.allOnes w else p.IV[6], p.IV[7]]
  let v := (List.range p.rounds).foldl (round p (wordLE w block)) v0
  #v[h[0] ^^^ v[0] ^^^ v[8], h[1] ^^^ v[1] ^^^ v[9], h[2] ^^^ v[2] ^^^ v[10],
     h[3] ^^^ v[3] ^^^ v[11], h[4] ^^^ v[4] ^^^ v[12], h[5] ^^^ v[5] ^^^ v[13],
     h[6] ^^^ v[6] ^^^ v[14], h[7] ^^^ v[7] ^^^ v[15]]

/-- 3.3: the data padded with zeros to full blocks; "an unkeyed empty input is a single block of
zeros". -/
def pad (B : Nat) (M : List Byte) : List Byte :=
  if M = [] then List.replicate B 0 else M ++ List.replicate ((B - M.length % B) % B) 0

/-- 3.3: the chaining value before the first block, for no key and `nn` bytes of output -/
def h0 (p : Params w) (nn : Nat) : Vector (BitVec w) 8 :=
  p.IV.set 0 (p.IV[0] ^^^ BitVec.ofNat w (0x01010000 ^^^ nn))

/-- 3.3: all blocks but the last are compressed with the number of bytes up to and including the
block; the last one with the length of the data and the final flag set. The result is the
little-endian bytes of the chaining value (all of them: `nn = w`). -/
def hash (p : Params w) (B : Nat) (M : List Byte) : List Byte :=
  let d := blocks B (pad B M)
  let h := d.dropLast.zipIdx.foldl (fun h b => F p h b.1 (B * (b.2 + 1)) false) (h0 p w)
  bytesLE (F p h (d.getLastD []) M.length true).toList

def blake2b (M : List Byte) : List Byte := hash p2b 128 M
def blake2s (M : List Byte) : List Byte := hash p2s 64 M

end Verif.Spec.BLAKE2
