import Verif.Model.CRC32
import Verif.Model.MD2
import Verif.Model.Tiger
import Verif.Model.Whirlpool

/-!
# Which elements of the constant tables are read

crc_32.h, md2.h, tiger.h and whirlpool.h index constant tables with bytes computed from the message.  The block functions
are written here a second time, over a monad in which reading an element of a table is an operation of its own, so that
the sequence of elements read can be spoken about.  `Proof/Lookups.lean` proves that they compute what the functions of
`Model/` compute.
-/

namespace Verif.Model

/-- Code that reads elements (of type `V`) of constant tables: `look t i k` reads element `i` of table `t` and goes on
with `k` of the value read. Not in /repo: the language in which the code below is written. -/
inductive Look (V α : Type) where
  | ret (a : α)
  | look (t : Nat) (i : Byte) (k : V → Look V α)

namespace Look

variable {V α β : Type}

/-- the second piece of code after the first; not in /repo -/
def bind : Look V α → (α → Look V β) → Look V β
  | .ret a, f => f a
  | .look t i k, f => .look t i fun v => (k v).bind f

instance : Monad (Look V) where
  pure := .ret
  bind := bind

/-- an element of a table; not in /repo -/
def elem (t : Nat) (i : Byte) : Look V V := .look t i .ret

/-- the result, the tables holding `tab`; not in /repo -/
def value (tab : Nat → Byte → V) : Look V α → α
  | .ret a => a
  | .look t i k => (k (tab t i)).value tab

/-- the elements read, in their order: table and index; not in /repo -/
def places (tab : Nat → Byte → V) : Look V α → List (Nat × Byte)
  | .ret _ => []
  | .look t i k => (t, i) :: (k (tab t i)).places tab

/-- the code of a loop: a list of things is taken in one after the other; not in /repo -/
def loop {σ β : Type} (step : σ → β → Look V σ) : σ → List β → Look V σ
  | s, [] => .ret s
  | s, b :: bs => (step s b).bind fun s => loop step s bs

end Look

open Look

namespace CRC32

/-- `crc32LUT[row][index]` (crc_32.h:145-699), row `row` being `lut<row>` -/
def table (row : Nat) (i : Byte) : W32 :=
  match row with
  | 0 => lut0[i.toNat] | 1 => lut1[i.toNat] | 2 => lut2[i.toNat] | 3 => lut3[i.toNat]
  | 4 => lut4[i.toNat] | 5 => lut5[i.toNat] | 6 => lut6[i.toNat] | 7 => lut7[i.toNat]
  | 8 => lut8[i.toNat] | 9 => lut9[i.toNat] | 10 => lut10[i.toNat] | 11 => lut11[i.toNat]
  | 12 => lut12[i.toNat] | 13 => lut13[i.toNat] | 14 => lut14[i.toNat] | _ => lut15[i.toNat]

/-- loop body of the 16-byte stride (crc_32.h:849-875). The order of the reads within the expression is the textual one;
C++ leaves it open. -/
def bodyLook (h : W32) (m : Block 16) : Look W32 W32 := do
  let a := loadLE32 m 0 ^^^ h
  let b := loadLE32 m 1
  let c := loadLE32 m 2
  let d := loadLE32 m 3
  let x0 ← elem 0 (ror 8 d 24)
  let x1 ← elem 1 (ror 8 d 16)
  let x2 ← elem 2 (ror 8 d 8)
  let x3 ← elem 3 (ror 8 d 0)
  let x4 ← elem 4 (ror 8 c 24)
  let x5 ← elem 5 (ror 8 c 16)
  let x6 ← elem 6 (ror 8 c 8)
  let x7 ← elem 7 (ror 8 c 0)
  let x8 ← elem 8 (ror 8 b 24)
  let x9 ← elem 9 (ror 8 b 16)
  let x10 ← elem 10 (ror 8 b 8)
  let x11 ← elem 11 (ror 8 b 0)
  let x12 ← elem 12 (ror 8 a 24)
  let x13 ← elem 13 (ror 8 a 16)
  let x14 ← elem 14 (ror 8 a 8)
  let x15 ← elem 15 (ror 8 a 0)
  return x0 ^^^ x1 ^^^ x2 ^^^ x3 ^^^ x4 ^^^ x5 ^^^ x6 ^^^ x7 ^^^ x8 ^^^ x9 ^^^ x10 ^^^ x11 ^^^ x12 ^^^ x13 ^^^ x14 ^^^ x15

/-- body of the loop over the remaining bytes (crc_32.h:880-884) -/
def tailLook (h : W32) (x : Byte) : Look W32 W32 := do
  let v ← elem 0 (ror 8 h 0 ^^^ x)
  return (h >>> 8) ^^^ v

end CRC32

namespace MD2

/-- `piSubst[i]`, the only table of md2.h (md2.h:250) -/
def table (_ : Nat) (i : Byte) : Byte := pi i

/-- checksum loop (md2.h:416-420), from `j` on; `n` is the number of turns left. -/
def checksumLook (m : Block 16) : (n j : Nat) → n + j = 16 → Vector Byte 16 × Byte → Look Byte (Vector Byte 16 × Byte)
  | 0, _, _, s => .ret s
  | n + 1, j, h, s => do
    let v ← elem 0 (m[j] ^^^ s.2)
    let c := s.1.set j (s.1[j] ^^^ v)
    checksumLook m n (j + 1) (by omega) (c, c[j])

/-- inner loop (md2.h:432-436), from `k` on -/
def innerLook : (n k : Nat) → n + k = 48 → Vector Byte 48 × Byte → Look Byte (Vector Byte 48 × Byte)
  | 0, _, _, s => .ret s
  | n + 1, k, h, s => do
    let v ← elem 0 s.2
    let x := s.1.set k (s.1[k] ^^^ v)
    innerLook n (k + 1) (by omega) (x, x[k])

/-- md2.h:429-438, from `j` on -/
def mixLook : (n j : Nat) → n + j = 18 → Vector Byte 48 × Byte → Look Byte (Vector Byte 48 × Byte)
  | 0, _, _, s => .ret s
  | n + 1, j, h, s => do
    let s ← innerLook 48 0 rfl s
    mixLook n (j + 1) (by omega) (s.1, s.2 + BitVec.ofNat 8 j)

/-- Body of the block loop of `addDataImpl` (md2.h:408-439) -/
def bodyLook (s : St) (m : Block 16) : Look Byte St := do
  let c ← checksumLook m 16 0 rfl (s.checksum, s.checksumL)
  let x := loadLoop m s.x
  let x ← mixLook 18 0 rfl (x, 0)
  return ⟨x.1, c.1, c.2⟩

end MD2

namespace Tiger

/-- `tTable[k][i]` (tiger.h:260) -/
def table (k : Nat) (i : Byte) : W64 :=
  match k with
  | 0 => t0 i | 1 => t1 i | 2 => t2 i | _ => t3 i

/-- lambda `round` (tiger.h:625-631) -/
def roundLook (a b c x mul : W64) : Look W64 (W64 × W64 × W64) := do
  let c := c ^^^ x
  let x0 ← elem 0 (ror 8 c (0 * 8))
  let x1 ← elem 1 (ror 8 c (2 * 8))
  let x2 ← elem 2 (ror 8 c (4 * 8))
  let x3 ← elem 3 (ror 8 c (6 * 8))
  let a := a - (x0 ^^^ x1 ^^^ x2 ^^^ x3)
  let y0 ← elem 3 (ror 8 c (1 * 8))
  let y1 ← elem 2 (ror 8 c (3 * 8))
  let y2 ← elem 1 (ror 8 c (5 * 8))
  let y3 ← elem 0 (ror 8 c (7 * 8))
  let b := b + (y0 ^^^ y1 ^^^ y2 ^^^ y3)
  let b := b * mul
  return (a, b, c)

/-- lambda `pass` (tiger.h:623-641) -/
def passLook (x : Vector W64 8) (a b c mul : W64) : Look W64 (W64 × W64 × W64) := do
  let (a, b, c) ← roundLook a b c x[0] mul
  let (b, c, a) ← roundLook b c a x[1] mul
  let (c, a, b) ← roundLook c a b x[2] mul
  let (a, b, c) ← roundLook a b c x[3] mul
  let (b, c, a) ← roundLook b c a x[4] mul
  let (c, a, b) ← roundLook c a b x[5] mul
  let (a, b, c) ← roundLook a b c x[6] mul
  let (b, c, a) ← roundLook b c a x[7] mul
  return (a, b, c)

/-- Body of the block loop of `addDataImpl` (tiger.h:615-682) -/
def compressLook (h : Vector W64 3) (m : Block 64) : Look W64 (Vector W64 3) := do
  let x := #v[loadLE64 m 0, loadLE64 m 1, loadLE64 m 2, loadLE64 m 3,
    loadLE64 m 4, loadLE64 m 5, loadLE64 m 6, loadLE64 m 7]
  let (a, b, c) ← passLook x h[0] h[1] h[2] 5
  let x := keySchedule x
  let (c, a, b) ← passLook x c a b 7
  let x := keySchedule x
  let (b, c, a) ← passLook x b c a 9
  return #v[a ^^^ h[0], b - h[1], c + h[2]]

end Tiger

namespace Whirlpool

/-- `cTable[k][i]` (whirlpool.h:314) -/
def table (k : Nat) (i : Byte) : W64 :=
  match k with
  | 0 => c0 i | 1 => c1 i | 2 => c2 i | 3 => c3 i | 4 => c4 i | 5 => c5 i | 6 => c6 i | _ => c7 i

/-- lambda `func` (whirlpool.h:829-835) -/
def funcLook (x : Vector W64 8) (a b c d e f g h : Fin 8) : Look W64 W64 := do
  let v0 ← elem 0 (ror 8 x[a] 56)
  let v1 ← elem 1 (ror 8 x[b] 48)
  let v2 ← elem 2 (ror 8 x[c] 40)
  let v3 ← elem 3 (ror 8 x[d] 32)
  let v4 ← elem 4 (ror 8 x[e] 24)
  let v5 ← elem 5 (ror 8 x[f] 16)
  let v6 ← elem 6 (ror 8 x[g] 8)
  let v7 ← elem 7 (ror 8 x[h] 0)
  return v0 ^^^ v1 ^^^ v2 ^^^ v3 ^^^ v4 ^^^ v5 ^^^ v6 ^^^ v7

/-- the eight calls of `func` in the initialiser of an array (whirlpool.h:838-847 and 859-866) -/
def columnsLook (x : Vector W64 8) : Look W64 (Vector W64 8) := do
  let y0 ← funcLook x 0 7 6 5 4 3 2 1
  let y1 ← funcLook x 1 0 7 6 5 4 3 2
  let y2 ← funcLook x 2 1 0 7 6 5 4 3
  let y3 ← funcLook x 3 2 1 0 7 6 5 4
  let y4 ← funcLook x 4 3 2 1 0 7 6 5
  let y5 ← funcLook x 5 4 3 2 1 0 7 6
  let y6 ← funcLook x 6 5 4 3 2 1 0 7
  let y7 ← funcLook x 7 6 5 4 3 2 1 0
  return #v[y0, y1, y2, y3, y4, y5, y6, y7]

/-- lambda `round` (whirlpool.h:819-876) -/
def roundLook (s : Vector W64 8 × Vector W64 8) (r : Fin 10) : Look W64 (Vector W64 8 × Vector W64 8) := do
  let k ← columnsLook s.1
  let roundKey := k.set 0 (k[0] ^^^ roundConstant[r])
  let y ← columnsLook s.2
  return (roundKey, Vector.ofFn fun j : Fin 8 => y[j] ^^^ roundKey[j])

/-- Body of the block loop of `addDataImpl` (whirlpool.h:793-883) -/
def compressLook (h : Vector W64 8) (m : Block 64) : Look W64 (Vector W64 8) := do
  let state := Vector.ofFn fun j : Fin 8 => loadBE64 m j ^^^ h[j]
  let s ← loop roundLook (h, state) (List.finRange 10)
  return Vector.ofFn fun j : Fin 8 => s.2[j] ^^^ h[j] ^^^ loadBE64 m j

end Whirlpool

end Verif.Model
