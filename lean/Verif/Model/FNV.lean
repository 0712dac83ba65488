import Verif.Core.API

/-!
# fnv.h

The template parameters `DigestType` and `Variant` of `FNVHash` are the width `w` (in bits) and a
number. The only member is `m_hash` (fnv.h:133), so an object is a `BitVec w`.
-/

namespace Verif.Model.FNV

/-- the lambda `multiplyPrime` (fnv.h:275-301) -/
def multiplyPrime {w : Nat} (h : BitVec w) : BitVec w :=
  if w / 8 = 4 then h * 0x01000193
  else if w / 8 = 8 then h * 0x00000100000001b3
  else h

/-- body of the loop of `addDataImpl` (fnv.h:302-315) -/
def body {w : Nat} (variant : Nat) (h : BitVec w) (dataPart : Byte) : BitVec w :=
  let h := if variant ≤ 1 then multiplyPrime h ^^^ dataPart.setWidth w else h
  if variant = 2 then multiplyPrime (h ^^^ dataPart.setWidth w) else h

/-- `addDataImpl` (fnv.h:273-316) and `addData` (fnv.h:237-242) -/
def addData {w : Nat} (variant : Nat) (h : BitVec w) (data : List Byte) : Except Fault (BitVec w) :=
  .ok (data.foldl (body variant) h)

/-- `reset()` (fnv.h:147-175): nothing happens for variant 0. -/
def reset {w : Nat} (variant : Nat) (h : BitVec w) : BitVec w :=
  if 1 ≤ variant then
    if w / 8 = 4 then 0x811c9dc5
    else if w / 8 = 8 then 0xcbf29ce484222325
    else h
  else h

/-- `FNVHash<DigestType, Variant>`: the constructor calls `reset()` on a zero member
(fnv.h:133, 138-142); `finalize()` does nothing (fnv.h:176-180); `toArray()` (fnv.h:210-219). -/
def FNVHash (w variant : Nat) : API (BitVec w) where
  fresh := reset variant 0
  reset := reset variant
  addData := addData variant
  finalize := fun h => .ok h
  toArray := fun h => resultArray (w / 8) (storeBE (w / 8) h)

/-- fnv.h:319-324 -/
def FNV32_0 : API W32 := FNVHash 32 0
/-- `FNV32_1` (fnv.h:320) -/
def FNV32_1 : API W32 := FNVHash 32 1
/-- `FNV32_1a` (fnv.h:321) -/
def FNV32_1a : API W32 := FNVHash 32 2
/-- `FNV64_0` (fnv.h:322) -/
def FNV64_0 : API W64 := FNVHash 64 0
/-- `FNV64_1` (fnv.h:323) -/
def FNV64_1 : API W64 := FNVHash 64 1
/-- `FNV64_1a` (fnv.h:324) -/
def FNV64_1a : API W64 := FNVHash 64 2

/-- `operator==` (fnv.h:121-124) -/
def eq {w : Nat} (l r : BitVec w) : Bool := l == r

end Verif.Model.FNV
