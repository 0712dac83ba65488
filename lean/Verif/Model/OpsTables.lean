import Verif.Model.Ops
import Verif.Model.CRC32
import Verif.Model.MD2
import Verif.Model.Tiger
import Verif.Model.Whirlpool

/-!
# The block functions with table lookups, with the operations they execute

As Model/Ops.lean, for the classes that read constant tables at an index computed from the data.
-/

namespace Verif.Model
open Ops

namespace CRC32

/-- crc_32.h:849-875 -/
def bodyO (h : W32) (m : Block 16) : Ops W32 := do
  let a ← Ops.loadLE32 m 0 ^^^ var h
  let b ← Ops.loadLE32 m 1
  let c ← Ops.loadLE32 m 2
  let d ← Ops.loadLE32 m 3
  lookup "crc32LUT[0]" lut0 (Ops.ror 8 (var d) 24)
    ^^^ lookup "crc32LUT[1]" lut1 (Ops.ror 8 (var d) 16)
    ^^^ lookup "crc32LUT[2]" lut2 (Ops.ror 8 (var d) 8)
    ^^^ lookup "crc32LUT[3]" lut3 (Ops.ror 8 (var d) 0)
    ^^^ lookup "crc32LUT[4]" lut4 (Ops.ror 8 (var c) 24)
    ^^^ lookup "crc32LUT[5]" lut5 (Ops.ror 8 (var c) 16)
    ^^^ lookup "crc32LUT[6]" lut6 (Ops.ror 8 (var c) 8)
    ^^^ lookup "crc32LUT[7]" lut7 (Ops.ror 8 (var c) 0)
    ^^^ lookup "crc32LUT[8]" lut8 (Ops.ror 8 (var b) 24)
    ^^^ lookup "crc32LUT[9]" lut9 (Ops.ror 8 (var b) 16)
    ^^^ lookup "crc32LUT[10]" lut10 (Ops.ror 8 (var b) 8)
    ^^^ lookup "crc32LUT[11]" lut11 (Ops.ror 8 (var b) 0)
    ^^^ lookup "crc32LUT[12]" lut12 (Ops.ror 8 (var a) 24)
    ^^^ lookup "crc32LUT[13]" lut13 (Ops.ror 8 (var a) 16)
    ^^^ lookup "crc32LUT[14]" lut14 (Ops.ror 8 (var a) 8)
    ^^^ lookup "crc32LUT[15]" lut15 (Ops.ror 8 (var a) 0)

/-- crc_32.h:880-884; `data[processed]` is the byte -/
def tailByteO (h : W32) (x : Byte) : Ops W32 :=
  (var h >>> (8 : Nat)) ^^^ lookup "crc32LUT[0]" lut0 (Ops.ror 8 (var h) 0 ^^^ var x)

/-- crc_32.h:877-885 -/
def tailLoopO (data : List Byte) : (fuel processed : Nat) → W32 × List Instr → Except Fault (W32 × List Instr)
  | 0, processed, h => if processed < data.length then .error .assertion else .ok h
  | fuel + 1, processed, h =>
    if processed < data.length then
      match data[processed]? with
      | some x => tailLoopO data fuel (processed + 1) (logged tailByteO h x)
      | none => .error .spanBounds
    else .ok h

/-- crc_32.h:824-886 -/
def addDataO (h : W32 × List Instr) (data : List Byte) : Except Fault (W32 × List Instr) := do
  let h ← forBlocks 16 (logged bodyO) data h
  tailLoopO data data.length (data.length / 16 * 16) h

/-- `class CRC_32` with the log; the complements of `reset()` and `finalize()` are not in it (crc_32.h:92-692) -/
def CRC_32O : API (W32 × List Instr) where
  fresh := (reset 0, [])
  reset := fun h => (reset h.1, h.2)
  addData := addDataO
  finalize := fun h => .ok (~~~ h.1, h.2)
  toArray := fun h => resultArray 4 (storeBE 4 h.1)

end CRC32

namespace MD2

/-- md2.h:416-420 -/
def checksumLoopO (m : Block 16) (c : Vector Byte 16) (l : Byte) : Ops (Vector Byte 16 × Byte) :=
  Ops.forRange 0 16 (c, l) fun j _ _ s => do
    let c ← wr "m_checksum" s.1 j (rd "m_checksum" s.1 j ^^^ lookup "piSubst" piSubst (byte 8 m j ^^^ var s.2))
    let l ← rd "m_checksum" c j
    pure (c, l)

/-- md2.h:423-427 -/
def loadLoopO (m : Block 16) (x : Vector Byte 48) : Ops (Vector Byte 48) :=
  Ops.forRange 0 16 x fun j _ _ x => do
    let x ← wr "m_x" x (j + 16) (byte 8 m j)
    wr "m_x" x (j + 32) (rd "m_x" x (j + 16) ^^^ rd "m_x" x j)

/-- md2.h:432-436 -/
def innerLoopO (x : Vector Byte 48) (t : Byte) : Ops (Vector Byte 48 × Byte) :=
  Ops.forRange 0 48 (x, t) fun k _ _ s => do
    let x ← wr "m_x" s.1 k (rd "m_x" s.1 k ^^^ lookup "piSubst" piSubst (var s.2))
    let t ← rd "m_x" x k
    pure (x, t)

/-- md2.h:429-438 -/
def mixLoopO (x : Vector Byte 48) : Ops (Vector Byte 48 × Byte) :=
  Ops.forRange 0 18 (x, 0) fun j _ _ s => do
    let s ← innerLoopO s.1 s.2
    let t ← var s.2 + var (BitVec.ofNat 8 j)
    pure (s.1, t)

/-- md2.h:408-439 -/
def bodyO (s : St) (m : Block 16) : Ops St := do
  let c ← checksumLoopO m s.checksum s.checksumL
  let x ← loadLoopO m s.x
  let x ← mixLoopO x
  pure ⟨x.1, c.1, c.2⟩

/-- md2.h:406-440 -/
def implO (s : St × List Instr) (data : List Byte) : Except Fault (St × List Instr) := forBlocks 16 (logged bodyO) data s

/-- md2.h:288-302 -/
def finalizeO (o : Obj (2 * 16) (St × List Instr)) : Except Fault (Obj (2 * 16) (St × List Instr)) := do
  let len := 16 - o.buffer.size % 16
  let b ← o.buffer.fill (BitVec.ofNat 8 len) len
  let c ← implO o.chain b.contents
  let c ← implO c c.1.checksum.toList
  return ⟨b.clear, c⟩

/-- `class MD2` with the log (md2.h:188-269) -/
def MD2O : API (Obj (2 * 16) (St × List Instr)) :=
  { blockApi 16 implO (init, []) finalizeO (fun o => toArray o.unlogged) with
    reset := fun o => ⟨o.buffer.clear, (init, o.chain.2)⟩ }

end MD2

namespace Tiger

/-- tiger.h:625-631 -/
def roundO (a b c : W64) (x : Ops W64) (mul : W64) : Ops (W64 × W64 × W64) := do
  let x ← x
  let c ← var c ^^^ var x
  let a ← var a - (lookup "tTable[0]" tTable0 (Ops.ror 8 (var c) (0 * 8)) ^^^ lookup "tTable[1]" tTable1 (Ops.ror 8 (var c) (2 * 8)) ^^^
    lookup "tTable[2]" tTable2 (Ops.ror 8 (var c) (4 * 8)) ^^^ lookup "tTable[3]" tTable3 (Ops.ror 8 (var c) (6 * 8)))
  let b ← var b + (lookup "tTable[3]" tTable3 (Ops.ror 8 (var c) (1 * 8)) ^^^ lookup "tTable[2]" tTable2 (Ops.ror 8 (var c) (3 * 8)) ^^^
    lookup "tTable[1]" tTable1 (Ops.ror 8 (var c) (5 * 8)) ^^^ lookup "tTable[0]" tTable0 (Ops.ror 8 (var c) (7 * 8)))
  let b ← var b * var mul
  pure (a, b, c)

/-- tiger.h:623-641 -/
def passO (x : Vector W64 8) (a b c mul : W64) : Ops (W64 × W64 × W64) := do
  let p ← roundO a b c (rd "x" x 0) mul
  let p ← roundO p.2.1 p.2.2 p.1 (rd "x" x 1) mul
  let p ← roundO p.2.1 p.2.2 p.1 (rd "x" x 2) mul
  let p ← roundO p.2.1 p.2.2 p.1 (rd "x" x 3) mul
  let p ← roundO p.2.1 p.2.2 p.1 (rd "x" x 4) mul
  let p ← roundO p.2.1 p.2.2 p.1 (rd "x" x 5) mul
  let p ← roundO p.2.1 p.2.2 p.1 (rd "x" x 6) mul
  let p ← roundO p.2.1 p.2.2 p.1 (rd "x" x 7) mul
  pure (p.2.2, p.1, p.2.1)

/-- tiger.h:643-661 -/
def keyScheduleO (x : Vector W64 8) : Ops (Vector W64 8) := do
  let x ← wr "x" x 0 (rd "x" x 0 - (rd "x" x 7 ^^^ var 0xA5A5A5A5A5A5A5A5))
  let x ← wr "x" x 1 (rd "x" x 1 ^^^ rd "x" x 0)
  let x ← wr "x" x 2 (rd "x" x 2 + rd "x" x 1)
  let x ← wr "x" x 3 (rd "x" x 3 - (rd "x" x 2 ^^^ ((~~~rd "x" x 1) <<< (19 : Nat))))
  let x ← wr "x" x 4 (rd "x" x 4 ^^^ rd "x" x 3)
  let x ← wr "x" x 5 (rd "x" x 5 + rd "x" x 4)
  let x ← wr "x" x 6 (rd "x" x 6 - (rd "x" x 5 ^^^ ((~~~rd "x" x 4) >>> (23 : Nat))))
  let x ← wr "x" x 7 (rd "x" x 7 ^^^ rd "x" x 6)
  let x ← wr "x" x 0 (rd "x" x 0 + rd "x" x 7)
  let x ← wr "x" x 1 (rd "x" x 1 - (rd "x" x 0 ^^^ ((~~~rd "x" x 7) <<< (19 : Nat))))
  let x ← wr "x" x 2 (rd "x" x 2 ^^^ rd "x" x 1)
  let x ← wr "x" x 3 (rd "x" x 3 + rd "x" x 2)
  let x ← wr "x" x 4 (rd "x" x 4 - (rd "x" x 3 ^^^ ((~~~rd "x" x 2) >>> (23 : Nat))))
  let x ← wr "x" x 5 (rd "x" x 5 ^^^ rd "x" x 4)
  let x ← wr "x" x 6 (rd "x" x 6 + rd "x" x 5)
  wr "x" x 7 (rd "x" x 7 - (rd "x" x 6 ^^^ var 0x0123456789ABCDEF))

/-- tiger.h:619-621 -/
def loadO (m : Block 64) : Ops (Vector W64 8) := do
  stores "x" [
    Ops.loadLE64 m 0,
    Ops.loadLE64 m 1,
    Ops.loadLE64 m 2,
    Ops.loadLE64 m 3,
    Ops.loadLE64 m 4,
    Ops.loadLE64 m 5,
    Ops.loadLE64 m 6,
    Ops.loadLE64 m 7]

/-- tiger.h:615-682 -/
def compressO (h : Vector W64 3) (m : Block 64) : Ops (Vector W64 3) := do
  let x ← loadO m
  let a ← rd "m_h" h 0
  let b ← rd "m_h" h 1
  let c ← rd "m_h" h 2
  let aa ← rd "m_h" h 0
  let bb ← rd "m_h" h 1
  let cc ← rd "m_h" h 2
  let p ← passO x a b c 5
  let x ← keyScheduleO x
  let p ← passO x p.2.2 p.1 p.2.1 7
  let x ← keyScheduleO x
  let p ← passO x p.2.2 p.1 p.2.1 9
  stores "m_h" [
    var p.2.2 ^^^ var aa,
    var p.1 - var bb,
    var p.2.1 + var cc]

end Tiger

namespace Whirlpool

/-- whirlpool.h:829-835 -/
def funcO (name : String) (x : Vector W64 8) (a b c d e f g h : Fin 8) : Ops W64 :=
  lookup "cTable[0]" cTable0 (Ops.ror 8 (rd name x a) 56) ^^^ lookup "cTable[1]" cTable1 (Ops.ror 8 (rd name x b) 48)
  ^^^ lookup "cTable[2]" cTable2 (Ops.ror 8 (rd name x c) 40) ^^^ lookup "cTable[3]" cTable3 (Ops.ror 8 (rd name x d) 32)
  ^^^ lookup "cTable[4]" cTable4 (Ops.ror 8 (rd name x e) 24) ^^^ lookup "cTable[5]" cTable5 (Ops.ror 8 (rd name x f) 16)
  ^^^ lookup "cTable[6]" cTable6 (Ops.ror 8 (rd name x g) 8) ^^^ lookup "cTable[7]" cTable7 (Ops.ror 8 (rd name x h) 0)

/-- `a[0] = tmp[0]; ..; a[7] = tmp[7];` (whirlpool.h:849-856, 868-875) -/
def copyO (name : String) (tmp : Vector W64 8) : Ops (Vector W64 8) :=
  Ops.forRange 0 8 tmp fun j _ _ t => wr name t j (rd "tmp" tmp j)

/-- whirlpool.h:819-876 -/
def roundO (roundKey state : Vector W64 8) (r : Fin 10) : Ops (Vector W64 8 × Vector W64 8) := do
  let tmp ← stores "tmp" [
    funcO "roundKey" roundKey 0 7 6 5 4 3 2 1 ^^^ rd "roundConstant" roundConstant r,
    funcO "roundKey" roundKey 1 0 7 6 5 4 3 2,
    funcO "roundKey" roundKey 2 1 0 7 6 5 4 3,
    funcO "roundKey" roundKey 3 2 1 0 7 6 5 4,
    funcO "roundKey" roundKey 4 3 2 1 0 7 6 5,
    funcO "roundKey" roundKey 5 4 3 2 1 0 7 6,
    funcO "roundKey" roundKey 6 5 4 3 2 1 0 7,
    funcO "roundKey" roundKey 7 6 5 4 3 2 1 0]
  let roundKey ← copyO "roundKey" tmp
  let tmp ← stores "tmp" [
    funcO "state" state 0 7 6 5 4 3 2 1 ^^^ rd "roundKey" roundKey 0,
    funcO "state" state 1 0 7 6 5 4 3 2 ^^^ rd "roundKey" roundKey 1,
    funcO "state" state 2 1 0 7 6 5 4 3 ^^^ rd "roundKey" roundKey 2,
    funcO "state" state 3 2 1 0 7 6 5 4 ^^^ rd "roundKey" roundKey 3,
    funcO "state" state 4 3 2 1 0 7 6 5 ^^^ rd "roundKey" roundKey 4,
    funcO "state" state 5 4 3 2 1 0 7 6 ^^^ rd "roundKey" roundKey 5,
    funcO "state" state 6 5 4 3 2 1 0 7 ^^^ rd "roundKey" roundKey 6,
    funcO "state" state 7 6 5 4 3 2 1 0 ^^^ rd "roundKey" roundKey 7]
  let state ← copyO "state" tmp
  pure (roundKey, state)

/-- whirlpool.h:810-817: `roundKey` and `state` -/
def startO (h : Vector W64 8) (m : Block 64) : Ops (Vector W64 8 × Vector W64 8) :=
  Ops.forRange 0 8 (Vector.replicate 8 0, Vector.replicate 8 0) fun j _ _ s => do
    let k ← wr "roundKey" s.1 j (rd "m_h" h j)
    let t ← wr "state" s.2 j (Ops.loadBE64 m j ^^^ rd "roundKey" k j)
    pure (k, t)

/-- whirlpool.h:793-883 -/
def compressO (h : Vector W64 8) (m : Block 64) : Ops (Vector W64 8) := do
  let s ← startO h m
  let s ← fold (fun s r => roundO s.1 s.2 r) (List.finRange 10) s
  Ops.forRange 0 8 h fun j _ _ h => wr "m_h" h j (rd "state" s.2 j ^^^ rd "m_h" h j ^^^ Ops.loadBE64 m j)

end Whirlpool

end Verif.Model
