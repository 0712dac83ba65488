import Verif.Core.Stream
import Verif.Model.CRC32Table

/-! # crc_32.h -/

namespace Verif.Model.CRC32

/-- loop body of the 16-byte stride (crc_32.h:849-875); an index of type `Byte` is in range of a
table row. -/
def body (h : W32) (m : Block 16) : W32 :=
  let a := loadLE32 m 0 ^^^ h
  let b := loadLE32 m 1
  let c := loadLE32 m 2
  let d := loadLE32 m 3
  lut0[(ror 8 d 24).toNat]
  ^^^ lut1[(ror 8 d 16).toNat]
  ^^^ lut2[(ror 8 d 8).toNat]
  ^^^ lut3[(ror 8 d 0).toNat]
  ^^^ lut4[(ror 8 c 24).toNat]
  ^^^ lut5[(ror 8 c 16).toNat]
  ^^^ lut6[(ror 8 c 8).toNat]
  ^^^ lut7[(ror 8 c 0).toNat]
  ^^^ lut8[(ror 8 b 24).toNat]
  ^^^ lut9[(ror 8 b 16).toNat]
  ^^^ lut10[(ror 8 b 8).toNat]
  ^^^ lut11[(ror 8 b 0).toNat]
  ^^^ lut12[(ror 8 a 24).toNat]
  ^^^ lut13[(ror 8 a 16).toNat]
  ^^^ lut14[(ror 8 a 8).toNat]
  ^^^ lut15[(ror 8 a 0).toNat]

/-- body of the loop over the remaining bytes (crc_32.h:880-884) -/
def tailByte (h : W32) (x : Byte) : W32 :=
  (h >>> 8) ^^^ lut0[(ror 8 h 0 ^^^ x).toNat]

/-- the loop over the remaining bytes, `processed` counting up to `data.size()`
(crc_32.h:877-885); `fuel` is at least the number of iterations. -/
def tailLoop (data : List Byte) : (fuel processed : Nat) → W32 → Except Fault W32
  | 0, processed, h => if processed < data.length then .error .assertion else .ok h
  | fuel + 1, processed, h =>
    if processed < data.length then
      match data[processed]? with
      | some x => tailLoop data fuel (processed + 1) (tailByte h x)
      | none => .error .spanBounds
    else .ok h

/-- `addDataImpl` (crc_32.h:824-886) and `addData(Span)` (crc_32.h:794-798) -/
def addData (h : W32) (data : List Byte) : Except Fault W32 := do
  let h ← forBlocks 16 body data h
  tailLoop data data.length (data.length / 16 * 16) h

/-- `reset()` (crc_32.h:730-734) -/
def reset (_h : W32) : W32 := ~~~ (0 : W32)

/-- `class CRC_32`: constructor (crc_32.h:724-728), `finalize()` (crc_32.h:736-740), `toArray()`
(crc_32.h:767-777). The only data member is `m_h` (crc_32.h:143). -/
def CRC_32 : API W32 where
  fresh := reset 0
  reset := reset
  addData := addData
  finalize := fun h => .ok (~~~ h)
  toArray := fun h => resultArray 4 (storeBE 4 h)

/-- `operator==` (crc_32.h:129-132) -/
def eq (l r : W32) : Bool := l == r

end Verif.Model.CRC32
