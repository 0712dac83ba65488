import Verif.Core.Stream
import Verif.Model.MD5Calls

/-! # md5.h -/

namespace Verif.Model.MD5

/-- The lambdas `f`, `g`, `h`, `ii` (md5.h:458-473). -/
def Fn.apply (x y z : W32) : Fn → W32
  | .f => (x &&& (y ^^^ z)) ^^^ z
  | .g => y ^^^ ((x ^^^ y) &&& z)
  | .h => x ^^^ y ^^^ z
  | .ii => y ^^^ (x ||| ~~~z)

/-- One call of the lambda `round` (md5.h:480-483). -/
def exec (x : Block 64) (r : Vector W32 4) (q : Call) : Vector W32 4 :=
  r.set q.a
    (r[q.b] + rotl (r[q.a] + q.func.apply r[q.b] r[q.c] r[q.d] + loadLE32 x q.k + q.t) q.s)

/-- Body of the block loop of `addDataImpl` (md5.h:454-558). -/
def compress (h : Vector W32 4) (m : Block 64) : Vector W32 4 :=
  let r := calls.foldl (exec m) #v[h[0], h[1], h[2], h[3]]
  #v[h[0] + r[0], h[1] + r[1], h[2] + r[2], h[3] + r[3]]

/-- md5.h:301-304 -/
def iv : Vector W32 4 := #v[0x67452301, 0xefcdab89, 0x98badcfe, 0x10325476]

/-- `toArray()` (md5.h:359-373) -/
def toArray (h : Vector W32 4) : Except Fault (List Byte) :=
  resultArray 16 (h.toList.flatMap (storeLE 4))

/-- `operator==` (md5.h:229-237): compares `m_state` only. -/
def eq (l r : Obj (2 * 64) (MDState W64 (Vector W32 4))) : Bool := l.chain.h == r.chain.h

/-- `class MD5`: BLOCK_SIZE 64, 8-byte little-endian length (md5.h:307-331). -/
def MD5 : API (Obj (2 * 64) (MDState W64 (Vector W32 4))) :=
  mdApi 64 8 0x80 counterLE64 compress iv toArray

end Verif.Model.MD5
