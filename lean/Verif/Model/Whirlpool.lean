import Verif.Core.Stream
import Verif.Model.WhirlpoolTables

/-! # whirlpool.h -/

namespace Verif.Model.Whirlpool

/-- `cTable[k][i]`; the second index is a `Byte`, so it is in range. whirlpool.h:314-588. -/
def c0 (i : Byte) : W64 := cTable0[i.toNat]
/-- `cTable[1][i]` (whirlpool.h:350-383) -/
def c1 (i : Byte) : W64 := cTable1[i.toNat]
/-- `cTable[2][i]` (whirlpool.h:384-417) -/
def c2 (i : Byte) : W64 := cTable2[i.toNat]
/-- `cTable[3][i]` (whirlpool.h:418-451) -/
def c3 (i : Byte) : W64 := cTable3[i.toNat]
/-- `cTable[4][i]` (whirlpool.h:452-485) -/
def c4 (i : Byte) : W64 := cTable4[i.toNat]
/-- `cTable[5][i]` (whirlpool.h:486-519) -/
def c5 (i : Byte) : W64 := cTable5[i.toNat]
/-- `cTable[6][i]` (whirlpool.h:520-553) -/
def c6 (i : Byte) : W64 := cTable6[i.toNat]
/-- `cTable[7][i]` (whirlpool.h:554-587) -/
def c7 (i : Byte) : W64 := cTable7[i.toNat]

/-- lambda `func` (whirlpool.h:829-835) -/
def func (x : Vector W64 8) (a b c d e f g h : Fin 8) : W64 :=
  c0 (ror 8 x[a] 56) ^^^ c1 (ror 8 x[b] 48)
  ^^^ c2 (ror 8 x[c] 40) ^^^ c3 (ror 8 x[d] 32)
  ^^^ c4 (ror 8 x[e] 24) ^^^ c5 (ror 8 x[f] 16)
  ^^^ c6 (ror 8 x[g] 8) ^^^ c7 (ror 8 x[h] 0)

/-- lambda `round` (whirlpool.h:819-876); `round` is below `ROUND` = 10. -/
def round (roundKey state : Vector W64 8) (r : Fin 10) : Vector W64 8 × Vector W64 8 :=
  let roundKey := #v[
    func roundKey 0 7 6 5 4 3 2 1 ^^^ roundConstant[r],
    func roundKey 1 0 7 6 5 4 3 2,
    func roundKey 2 1 0 7 6 5 4 3,
    func roundKey 3 2 1 0 7 6 5 4,
    func roundKey 4 3 2 1 0 7 6 5,
    func roundKey 5 4 3 2 1 0 7 6,
    func roundKey 6 5 4 3 2 1 0 7,
    func roundKey 7 6 5 4 3 2 1 0]
  let state := #v[
    func state 0 7 6 5 4 3 2 1 ^^^ roundKey[0],
    func state 1 0 7 6 5 4 3 2 ^^^ roundKey[1],
    func state 2 1 0 7 6 5 4 3 ^^^ roundKey[2],
    func state 3 2 1 0 7 6 5 4 ^^^ roundKey[3],
    func state 4 3 2 1 0 7 6 5 ^^^ roundKey[4],
    func state 5 4 3 2 1 0 7 6 ^^^ roundKey[5],
    func state 6 5 4 3 2 1 0 7 ^^^ roundKey[6],
    func state 7 6 5 4 3 2 1 0 ^^^ roundKey[7]]
  (roundKey, state)

/-- `for (int j = 0; j < ROUND; ++j) round(j);` (whirlpool.h:877-878) -/
def rounds (roundKey state : Vector W64 8) : Vector W64 8 × Vector W64 8 :=
  (List.finRange 10).foldl (fun s r => round s.1 s.2 r) (roundKey, state)

/-- Body of the block loop of `addDataImpl` (whirlpool.h:793-883). -/
def compress (h : Vector W64 8) (m : Block 64) : Vector W64 8 :=
  let roundKey := h
  let state := Vector.ofFn fun j : Fin 8 => loadBE64 m j ^^^ roundKey[j]
  let state := (rounds roundKey state).2
  Vector.ofFn fun j : Fin 8 => state[j] ^^^ h[j] ^^^ loadBE64 m j

/-- whirlpool.h:642-643 -/
def iv : Vector W64 8 := #v[0, 0, 0, 0, 0, 0, 0, 0]

/-- `toArray()` (whirlpool.h:697-711) -/
def toArray (h : Vector W64 8) : Except Fault (List Byte) :=
  resultArray 64 (h.toList.flatMap (storeBE 8))

/-- `operator==` (whirlpool.h:289-297) -/
def eq (l r : Obj (2 * 64) (MDState Uint128 (Vector W64 8))) : Bool := l.chain.h == r.chain.h

/-- `class Whirlpool`: BLOCK_SIZE 64, 32-byte length field of which the counter fills the last 16
bytes (whirlpool.h:645-671). The stores (whirlpool.h:660-664) are those of `counterBE128`. -/
def Whirlpool : API (Obj (2 * 64) (MDState Uint128 (Vector W64 8))) :=
  mdApi 64 32 (1 <<< 7) counterBE128 compress iv toArray

end Verif.Model.Whirlpool
