import Verif.Spec.Bytes

/-! # Tiger (R. Anderson, E. Biham, "Tiger: A Fast New Hash Function") and Tiger2

The S-boxes are not copied from anywhere: they are defined by the designers' generation procedure
(the program published with the paper), which uses the compression function itself. -/

namespace Verif.Spec.Tiger

abbrev Word := BitVec 64
/-- (a, b, c) -/
abbrev State := Word × Word × Word
/-- `S k i`: entry `i` (0 .. 255) of S-box number `k` (0 .. 3) -/
abbrev SBox := Nat → Nat → Word

/-- byte number `n` of a word, counted from the least significant -/
def byte (c : Word) (n : Nat) : Nat := c.toNat / 256 ^ n % 256

/-- One round. The paper's `round(a, b, c, x, mul)` is followed by the same with the names rotated;
here the rotation is part of the round, so the result is (b, c, a). -/
def round (S : SBox) (q : State) (x mul : Word) : State :=
  let (a, b, c) := q
  let c := c ^^^ x
  let a := a - (S 0 (byte c 0) ^^^ S 1 (byte c 2) ^^^ S 2 (byte c 4) ^^^ S 3 (byte c 6))
  let b := (b + (S 3 (byte c 1) ^^^ S 2 (byte c 3) ^^^ S 1 (byte c 5) ^^^ S 0 (byte c 7))) * mul
  (b, c, a)

/-- Key schedule on (x0, .., x7). -/
def keySchedule (x : List Word) : List Word :=
  match x with
  | [x0, x1, x2, x3, x4, x5, x6, x7] =>
    let x0 := x0 - (x7 ^^^ 0xA5A5A5A5A5A5A5A5)
    let x1 := x1 ^^^ x0
    let x2 := x2 + x1
    let x3 := x3 - (x2 ^^^ ((~~~x1) <<< 19))
    let x4 := x4 ^^^ x3
    let x5 := x5 + x4
    let x6 := x6 - (x5 ^^^ ((~~~x4) >>> 23))
    let x7 := x7 ^^^ x6
    let x0 := x0 + x7
    let x1 := x1 - (x0 ^^^ ((~~~x7) <<< 19))
    let x2 := x2 ^^^ x1
    let x3 := x3 + x2
    let x4 := x4 - (x3 ^^^ ((~~~x2) >>> 23))
    let x5 := x5 ^^^ x4
    let x6 := x6 + x5
    let x7 := x7 - (x6 ^^^ 0x0123456789ABCDEF)
    [x0, x1, x2, x3, x4, x5, x6, x7]
  | _ => []

/-- A pass: eight rounds with the eight words. -/
def pass (S : SBox) (x : List Word) (mul : Word) (q : State) : State :=
  x.foldl (fun q x => round S q x mul) q

/-- The compression function: passes with multipliers 5, 7, 9, the words passed through the key
schedule in between, and the feedforward. 24 rounds bring the names back in place. -/
def compress (S : SBox) (q : State) (block : List Byte) : State :=
  let x := (List.range 8).map (wordLE 64 block)
  let y := keySchedule x
  let z := keySchedule y
  let (a, b, c) := pass S z 9 (pass S y 7 (pass S x 5 q))
  (a ^^^ q.1, b - q.2.1, c + q.2.2)

def init : State := (0x0123456789ABCDEF, 0xFEDCBA9876543210, 0xF096A5B4C3B2E187)

/-! ## The S-boxes -/

/-- `w` with byte `n` replaced by byte `n` of `v` -/
def withByte (w v : Word) (n : Nat) : Word :=
  let m : Word := BitVec.ofNat 64 (255 * 256 ^ n)
  (w &&& ~~~m) ||| (v &&& m)

/-- exchange byte `n` of entries `i` and `j` of S-box `k` -/
def swapByte (S : SBox) (k i j n : Nat) : SBox := fun k' e =>
  if k' = k then
    if e = i then withByte (S k i) (S k j) n
    else if e = j then withByte (S k j) (S k i) n
    else S k e
  else S k' e

/-- the string the S-boxes are generated from: "Tiger - A Fast New Hash Function, by Ross Anderson
and Eli Biham" -/
def genString : List Byte :=
  ("Tiger - A Fast New Hash Function, by Ross Anderson and Eli Biham".toList).map
    fun c => BitVec.ofNat 8 c.toNat

/-- Step `n` of the generation (five passes over the 256 entries of the four boxes): every third
step computes a new state with the current boxes; the bytes of word `n % 3` of the state say with
which entry each byte of entry `n / 4 % 256` of box `n % 4` is exchanged. -/
def genStep (p : SBox × State) (n : Nat) : SBox × State :=
  let h := if n % 3 = 0 then compress p.1 p.2 genString else p.2
  let w := if n % 3 = 0 then h.1 else if n % 3 = 1 then h.2.1 else h.2.2
  ((List.range 8).foldl (fun S c => swapByte S (n % 4) (n / 4 % 256) (byte w c) c) p.1, h)

/-- initially every byte of entry `i` is `i` -/
def S0 : SBox := fun _ i => BitVec.ofNat 64 (i * 0x0101010101010101)

/-- The S-boxes of Tiger. -/
def S : SBox := ((List.range (5 * 256 * 4)).foldl genStep (S0, init)).1

/-! ## The hash functions -/

/-- MD4 padding with the given first byte: 0x01 for Tiger, 0x80 for Tiger2. -/
def pad (first : Byte) (M : List Byte) : List Byte :=
  M ++ [first] ++ List.replicate ((64 - (M.length + 1 + 8) % 64) % 64) 0 ++ toLE 8 (8 * M.length)

def hash (S : SBox) (first : Byte) (M : List Byte) : List Byte :=
  let (a, b, c) := (blocks 64 (pad first M)).foldl (compress S) init
  bytesLE [a, b, c]

/-- Tiger/192, Tiger2/192; the shorter variants are prefixes of 16 and 20 bytes. -/
def tiger (M : List Byte) : List Byte := hash S 0x01 M
def tiger2 (M : List Byte) : List Byte := hash S 0x80 M

end Verif.Spec.Tiger
