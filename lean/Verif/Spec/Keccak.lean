import Verif.Spec.Bytes

/-! # SHA-3 and SHAKE (FIPS 202), on bit strings as in the standard -/

namespace Verif.Spec.Keccak

/-! ## 3.1: the state array and its conversions (b = 1600, w = 64) -/

/-- A[x, y, z]. Arithmetic on coordinates is modulo 5 and 64. -/
abbrev State := Fin 5 → Fin 5 → Fin 64 → Bool

/-- 3.1.2: A[x, y, z] = S[w (5 y + x) + z] -/
def toState (S : List Bool) : State := fun x y z => S.getD (64 * (5 * y.val + x.val) + z.val) false

/-- 3.1.3: planes of lanes of bits -/
def ofState (A : State) : List Bool :=
  (List.finRange 5).flatMap fun y => (List.finRange 5).flatMap fun x => (List.finRange 64).map fun z => A x y z

/-! ## 3.2: the step mappings -/

/-- Algorithm 1 -/
def theta (A : State) : State :=
  let C (x : Fin 5) (z : Fin 64) := A x 0 z ^^ A x 1 z ^^ A x 2 z ^^ A x 3 z ^^ A x 4 z
  let D (x : Fin 5) (z : Fin 64) := C (x - 1) z ^^ C (x + 1) (z - 1)
  fun x y z => A x y z ^^ D x z

/-- Algorithm 2, the walk over the lanes: (1, 0), then (x, y) := (y, 2 x + 3 y) -/
def walk : Nat → Fin 5 × Fin 5
  | 0 => (1, 0)
  | t + 1 => ((walk t).2, 2 * (walk t).1 + 3 * (walk t).2)

/-- the offset of the lane reached at step `t` is (t + 1)(t + 2) / 2; lane (0, 0) is never reached -/
def offset (x y : Fin 5) : Nat :=
  match (List.range 24).find? fun t => walk t = (x, y) with
  | some t => (t + 1) * (t + 2) / 2
  | none => 0

/-- Algorithm 2 -/
def rho (A : State) : State := fun x y z => A x y (z - Fin.ofNat 64 (offset x y))

/-- Algorithm 3 -/
def pi (A : State) : State := fun x y z => A (x + 3 * y) x z

/-- Algorithm 4 -/
def chi (A : State) : State := fun x y z => A x y z ^^ ((A (x + 1) y z ^^ true) && A (x + 2) y z)

/-- Algorithm 5, one step of the shift register: R = 0 || R, then R[0], R[4], R[5], R[6] ⊕= R[8],
then Trunc8. -/
def lfsr (R : List Bool) : List Bool :=
  let R := false :: R
  let b (i : Nat) := R.getD i false
  [b 0 ^^ b 8, b 1, b 2, b 3, b 4 ^^ b 8, b 5 ^^ b 8, b 6 ^^ b 8, b 7]

/-- Algorithm 5 -/
def rc (t : Nat) : Bool :=
  ((List.range (t % 255)).foldl (fun R _ => lfsr R)
    [true, false, false, false, false, false, false, false]).getD 0 false

/-- Algorithm 6: RC[2^j - 1] = rc(j + 7 ir) for j from 0 to 6, the other bits are 0 -/
def RC (ir : Nat) (z : Nat) : Bool :=
  match (List.range 7).find? fun j => 2 ^ j - 1 = z with
  | some j => rc (j + 7 * ir)
  | none => false

/-- Algorithm 6 -/
def iota (ir : Nat) (A : State) : State := fun x y z => if x = 0 ∧ y = 0 then A x y z ^^ RC ir z.val else A x y z

/-- 3.3 -/
def rnd (ir : Nat) (A : State) : State := iota ir (chi (pi (rho (theta A))))

/-- 3.4: KECCAK-f[1600] = KECCAK-p[1600, 24] -/
def keccakF (S : List Bool) : List Bool :=
  ofState ((List.range 24).foldl (fun A ir => rnd ir A) (toState S))

/-! ## 4, 5: the sponge -/

/-- 5.1: pad10*1(x, m) = 1 || 0^j || 1 with j = (-m - 2) mod x -/
def pad101 (x m : Nat) : List Bool :=
  [true] ++ List.replicate ((x - (m + 2) % x) % x) false ++ [true]

/-- Algorithm 8, steps 1-6: the state after absorbing the padded string -/
def absorb (r : Nat) (N : List Bool) : List Bool :=
  let P := N ++ pad101 r N.length
  let n := P.length / r
  (List.range n).foldl (fun S i =>
    keccakF (List.zipWith xor S ((P.drop (r * i)).take r ++ List.replicate (1600 - r) false)))
    (List.replicate 1600 false)

/-- Algorithm 8: SPONGE[KECCAK-f, pad10*1, r](N, d);
Z = Trunc_r(S) || Trunc_r(f(S)) || Trunc_r(f(f(S))) || ..., until it has d bits -/
def sponge (r : Nat) (N : List Bool) (d : Nat) : List Bool :=
  ((List.range (d / r + 1)).flatMap fun i => ((Nat.repeat keccakF i (absorb r N)).take r)).take d

/-- 5.2 -/
def keccak (c : Nat) (N : List Bool) (d : Nat) : List Bool := sponge (1600 - c) N d

/-! ## B.1: byte strings and bit strings -/

/-- least significant bit first -/
def bits (M : List Byte) : List Bool := M.flatMap fun b => (List.range 8).map fun i => b.getLsbD i

def bytes : List Bool → List Byte
  | b0 :: b1 :: b2 :: b3 :: b4 :: b5 :: b6 :: b7 :: l =>
    BitVec.ofNat 8 (b0.toNat + 2 * b1.toNat + 4 * b2.toNat + 8 * b3.toNat +
      16 * b4.toNat + 32 * b5.toNat + 64 * b6.toNat + 128 * b7.toNat) :: bytes l
  | _ => []

/-! ## 6: the functions; output lengths `n` are in bytes -/

def sha3 (n : Nat) (M : List Byte) : List Byte :=
  bytes (keccak (2 * (8 * n)) (bits M ++ [false, true]) (8 * n))

def sha3_224 : List Byte → List Byte := sha3 28
def sha3_256 : List Byte → List Byte := sha3 32
def sha3_384 : List Byte → List Byte := sha3 48
def sha3_512 : List Byte → List Byte := sha3 64

def shake128 (M : List Byte) (n : Nat) : List Byte := bytes (keccak 256 (bits M ++ [true, true, true, true]) (8 * n))
def shake256 (M : List Byte) (n : Nat) : List Byte := bytes (keccak 512 (bits M ++ [true, true, true, true]) (8 * n))

end Verif.Spec.Keccak
