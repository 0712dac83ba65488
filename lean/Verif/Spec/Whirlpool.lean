import Verif.Spec.Bytes

/-! # Whirlpool (P. Barreto, V. Rijmen, "The WHIRLPOOL Hashing Function", ISO/IEC 10118-3)

Bytes are elements of GF(2^8) modulo x^8 + x^4 + x^3 + x^2 + 1. -/

namespace Verif.Spec.Whirlpool

/-- An 8 × 8 matrix of bytes. Index arithmetic in `Fin 8` is modulo 8. -/
abbrev Mat := Fin 8 → Fin 8 → Byte

/-- multiplication by x -/
def xtime (a : Byte) : Byte := if a.msb then (a <<< 1) ^^^ 0x1d else a <<< 1

/-- multiplication in the field -/
def gmul (a b : Byte) : Byte :=
  ((List.range 8).foldl (fun (p : Byte × Byte) i =>
    (if b.getLsbD i then p.1 ^^^ p.2 else p.1, xtime p.2)) (0, a)).1

/-! ## The S-box, from the mini-boxes -/

def E : List Nat := [0x1, 0xB, 0x9, 0xC, 0xD, 0x6, 0xF, 0x3, 0xE, 0x8, 0x7, 0x4, 0xA, 0x2, 0x5, 0x0]
def R : List Nat := [0x7, 0xC, 0xB, 0xD, 0xE, 0x4, 0x9, 0xF, 0x6, 0x3, 0x8, 0xA, 0x2, 0x5, 0x1, 0x0]
/-- the inverse of `E` -/
def Einv (y : Nat) : Nat := E.idxOf y

def sbox (x : Byte) : Byte :=
  let u := E.getD (x.toNat / 16) 0
  let l := Einv (x.toNat % 16)
  let r := R.getD (u ^^^ l) 0
  BitVec.ofNat 8 (16 * E.getD (u ^^^ r) 0 + Einv (l ^^^ r))

/-! ## The round function -/

/-- γ: SubBytes -/
def gamma (a : Mat) : Mat := fun i j => sbox (a i j)
/-- π: ShiftColumns, column `j` is shifted down by `j` -/
def pi (a : Mat) : Mat := fun i j => a (i - j) j
/-- first row of the circulant matrix C = cir(1, 1, 4, 1, 8, 5, 2, 9) -/
def cir : List Byte := [1, 1, 4, 1, 8, 5, 2, 9]
/-- C: each row is the one above rotated to the right -/
def C : Mat := fun k j => cir.getD (j - k).val 0
/-- θ: MixRows, b = a C over the field -/
def theta (a : Mat) : Mat := fun i j =>
  (List.finRange 8).foldl (fun s k => s ^^^ gmul (a i k) (C k j)) 0
/-- σ[k]: AddRoundKey -/
def sigma (k a : Mat) : Mat := fun i j => a i j ^^^ k i j
/-- ρ[k] -/
def rho (k a : Mat) : Mat := sigma k (theta (pi (gamma a)))

/-- c^r, for r = 1, 2, ..: first row from the S-box, the other rows zero -/
def rc (r : Nat) : Mat := fun i j =>
  if i = 0 then sbox (BitVec.ofNat 8 (8 * (r - 1) + j.val)) else 0

/-- the round keys: K^0 = K, K^r = ρ[c^r](K^(r-1)) -/
def key (K : Mat) : Nat → Mat
  | 0 => K
  | r + 1 => rho (rc (r + 1)) (key K r)

/-- W[K] -/
def W (K a : Mat) : Mat :=
  (List.range 10).foldl (fun a r => rho (key K (r + 1)) a) (sigma (key K 0) a)

/-! ## The hash function -/

/-- μ: bytes row by row -/
def mu (b : List Byte) : Mat := fun i j => b.getD (8 * i.val + j.val) 0
/-- its inverse -/
def unmu (a : Mat) : List Byte :=
  (List.finRange 8).flatMap fun i => (List.finRange 8).map fun j => a i j

/-- Miyaguchi-Preneel -/
def compress (H : Mat) (block : List Byte) : Mat := fun i j =>
  W H (mu block) i j ^^^ H i j ^^^ mu block i j

/-- a 1 bit, 0 bits up to an odd multiple of 256 bits, the length in bits as a 256-bit number -/
def pad (M : List Byte) : List Byte :=
  M ++ [0x80] ++ List.replicate ((64 - (M.length + 1 + 32) % 64) % 64) 0 ++ toBE 32 (8 * M.length)

def whirlpool (M : List Byte) : List Byte :=
  unmu ((blocks 64 (pad M)).foldl compress (fun _ _ => 0))

end Verif.Spec.Whirlpool
