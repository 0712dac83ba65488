import Verif.Core.Stream
import Verif.Model.MD2Table

/-! # md2.h -/

namespace Verif.Model.MD2

/-- the members other than `m_buffer` (md2.h:248-250) -/
structure St where
  x : Vector Byte 48
  checksum : Vector Byte 16
  checksumL : Byte
  deriving DecidableEq

/-- `piSubst[i]`; the index is a `Byte` (md2.h:250) -/
def pi (i : Byte) : Byte := piSubst[i.toNat]

/-- checksum loop (md2.h:416-420) -/
def checksumLoop (m : Block 16) (c : Vector Byte 16) (l : Byte) : Vector Byte 16 × Byte :=
  forRange 0 16 (c, l) fun j _ _ s =>
    let c := s.1.set j (s.1[j] ^^^ pi (m[j] ^^^ s.2))
    (c, c[j])

/-- md2.h:423-427 -/
def loadLoop (m : Block 16) (x : Vector Byte 48) : Vector Byte 48 :=
  forRange 0 16 x fun j _ _ x =>
    let x := x.set (j + 16) m[j]
    x.set (j + 32) (x[j + 16] ^^^ x[j])

/-- inner loop (md2.h:432-436) -/
def innerLoop (x : Vector Byte 48) (t : Byte) : Vector Byte 48 × Byte :=
  forRange 0 48 (x, t) fun k _ _ s =>
    let x := s.1.set k (s.1[k] ^^^ pi s.2)
    (x, x[k])

/-- md2.h:429-438 -/
def mixLoop (x : Vector Byte 48) : Vector Byte 48 × Byte :=
  forRange 0 18 (x, 0) fun j _ _ s =>
    let s := innerLoop s.1 s.2
    (s.1, s.2 + BitVec.ofNat 8 j)

/-- Body of the block loop of `addDataImpl` (md2.h:408-439). -/
def body (s : St) (m : Block 16) : St :=
  let c := checksumLoop m s.checksum s.checksumL
  let x := loadLoop m s.x
  ⟨(mixLoop x).1, c.1, c.2⟩

/-- `addDataImpl` (md2.h:406-440): no assertion here. -/
def impl (s : St) (data : List Byte) : Except Fault St := forBlocks 16 body data s

/-- `reset()` (md2.h:279-286) -/
def init : St := ⟨Vector.replicate 48 0, Vector.replicate 16 0, 0⟩

/-- `finalize()` (md2.h:288-302) -/
def finalize (o : Obj (2 * 16) St) : Except Fault (Obj (2 * 16) St) := do
  let len := 16 - o.buffer.size % 16
  let b ← o.buffer.fill (BitVec.ofNat 8 len) len
  let c ← impl o.chain b.contents
  let c ← impl c c.checksum.toList
  return ⟨b.clear, c⟩

/-- `toArray()` (md2.h:328-331) -/
def toArray (o : Obj (2 * 16) St) : Except Fault (List Byte) :=
  let x := o.chain.x
  .ok [x[0], x[1], x[2], x[3], x[4], x[5], x[6], x[7], x[8], x[9], x[10], x[11], x[12], x[13], x[14], x[15]]

/-- `operator==` (md2.h:225-233) -/
def eq (l r : Obj (2 * 16) St) : Bool := l.chain.x == r.chain.x

/-- `class MD2` (md2.h:188-269) -/
def MD2 : API (Obj (2 * 16) St) := blockApi 16 impl init finalize toArray

end Verif.Model.MD2
