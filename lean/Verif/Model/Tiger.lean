import Verif.Core.Stream
import Verif.Model.TigerTables

/-! # tiger.h -/

namespace Verif.Model.Tiger

/-- `tTable[k][i]` for `k` = 0 .. 3; the index is a `Byte`, so it is in range. tiger.h:260. -/
def t0 (i : Byte) : W64 := tTable0[i.toNat]
/-- `tTable[1][i]` (tiger.h:260) -/
def t1 (i : Byte) : W64 := tTable1[i.toNat]
/-- `tTable[2][i]` (tiger.h:260) -/
def t2 (i : Byte) : W64 := tTable2[i.toNat]
/-- `tTable[3][i]` (tiger.h:260) -/
def t3 (i : Byte) : W64 := tTable3[i.toNat]

/-- lambda `round` (tiger.h:625-631); `a`, `b`, `c` are references: their new values are returned.
`b *= mul` multiplies a `uint64_t` by an `unsigned int`. -/
def round (a b c x mul : W64) : W64 × W64 × W64 :=
  let c := c ^^^ x
  let a := a - (t0 (ror 8 c (0 * 8)) ^^^ t1 (ror 8 c (2 * 8)) ^^^ t2 (ror 8 c (4 * 8)) ^^^ t3 (ror 8 c (6 * 8)))
  let b := b + (t3 (ror 8 c (1 * 8)) ^^^ t2 (ror 8 c (3 * 8)) ^^^ t1 (ror 8 c (5 * 8)) ^^^ t0 (ror 8 c (7 * 8)))
  let b := b * mul
  (a, b, c)

/-- lambda `pass` (tiger.h:623-641) -/
def pass (x : Vector W64 8) (a b c mul : W64) : W64 × W64 × W64 :=
  let (a, b, c) := round a b c x[0] mul
  let (b, c, a) := round b c a x[1] mul
  let (c, a, b) := round c a b x[2] mul
  let (a, b, c) := round a b c x[3] mul
  let (b, c, a) := round b c a x[4] mul
  let (c, a, b) := round c a b x[5] mul
  let (a, b, c) := round a b c x[6] mul
  let (b, c, a) := round b c a x[7] mul
  (a, b, c)

/-- lambda `keySchedule` (tiger.h:643-661) -/
def keySchedule (x : Vector W64 8) : Vector W64 8 :=
  let x := x.set 0 (x[0] - (x[7] ^^^ 0xA5A5A5A5A5A5A5A5))
  let x := x.set 1 (x[1] ^^^ x[0])
  let x := x.set 2 (x[2] + x[1])
  let x := x.set 3 (x[3] - (x[2] ^^^ ((~~~x[1]) <<< 19)))
  let x := x.set 4 (x[4] ^^^ x[3])
  let x := x.set 5 (x[5] + x[4])
  let x := x.set 6 (x[6] - (x[5] ^^^ ((~~~x[4]) >>> 23)))
  let x := x.set 7 (x[7] ^^^ x[6])
  let x := x.set 0 (x[0] + x[7])
  let x := x.set 1 (x[1] - (x[0] ^^^ ((~~~x[7]) <<< 19)))
  let x := x.set 2 (x[2] ^^^ x[1])
  let x := x.set 3 (x[3] + x[2])
  let x := x.set 4 (x[4] - (x[3] ^^^ ((~~~x[2]) >>> 23)))
  let x := x.set 5 (x[5] ^^^ x[4])
  let x := x.set 6 (x[6] + x[5])
  x.set 7 (x[7] - (x[6] ^^^ 0x0123456789ABCDEF))

/-- Body of the block loop of `addDataImpl` (tiger.h:615-682). The loop filling `x`
(tiger.h:619-621) is written out. -/
def compress (h : Vector W64 3) (m : Block 64) : Vector W64 3 :=
  let x := #v[loadLE64 m 0, loadLE64 m 1, loadLE64 m 2, loadLE64 m 3,
    loadLE64 m 4, loadLE64 m 5, loadLE64 m 6, loadLE64 m 7]
  let (a, b, c) := (h[0], h[1], h[2])
  let (aa, bb, cc) := (h[0], h[1], h[2])
  let (a, b, c) := pass x a b c 5
  let x := keySchedule x
  let (c, a, b) := pass x c a b 7
  let x := keySchedule x
  let (b, c, a) := pass x b c a 9
  #v[a ^^^ aa, b - bb, c + cc]

/-- tiger.h:451-453 -/
def iv : Vector W64 3 := #v[0x0123456789ABCDEF, 0xFEDCBA9876543210, 0xF096A5B4C3B2E187]

/-- `toArray()` (tiger.h:511-525): all three words, 24 bytes, are written into a
`std::array<Byte, (D / 8)>` whatever `D` is. -/
def toArray (D : Nat) (h : Vector W64 3) : Except Fault (List Byte) :=
  resultArray (D / 8) (h.toList.flatMap (storeLE 8))

/-- `operator==` (tiger.h:235-243) -/
def eq (l r : Obj (2 * 64) (MDState W64 (Vector W64 3))) : Bool := l.chain.h == r.chain.h

/-- `class Tiger<V, D>`: BLOCK_SIZE 64, 8-byte little-endian length (tiger.h:456-482). -/
def Tiger (V D : Nat) : API (Obj (2 * 64) (MDState W64 (Vector W64 3))) :=
  mdApi 64 8 (if V = 1 then 1 else 1 <<< 7) counterLE64 compress iv (toArray D)

/-- tiger.h:687-693 -/
def Tiger1_128 := Tiger 1 128
/-- `Tiger1_160` (tiger.h:687) -/
def Tiger1_160 := Tiger 1 160
/-- `Tiger1_192` (tiger.h:688) -/
def Tiger1_192 := Tiger 1 192
/-- `Tiger2_128` (tiger.h:690) -/
def Tiger2_128 := Tiger 2 128
/-- `Tiger2_160` (tiger.h:691) -/
def Tiger2_160 := Tiger 2 160
/-- `Tiger2_192` (tiger.h:692) -/
def Tiger2_192 := Tiger 2 192

end Verif.Model.Tiger
