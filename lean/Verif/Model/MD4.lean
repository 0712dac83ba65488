import Verif.Core.Stream
import Verif.Model.MD4Calls

/-! # md4.h -/

namespace Verif.Model.MD4

/-- One call of `round1`, `round2` or `round3` (md4.h:457-461, 479-483, 501-505): `a` becomes .. -/
def newA (x : Block 64) (r : Vector W32 4) (q : Call) : W32 :=
  let a := r[q.a]
  let b := r[q.b]
  let c := r[q.c]
  let d := r[q.d]
  match q.rnd with
  | .round1 => rotl (a + ((b &&& (c ^^^ d)) ^^^ d) + loadLE32 x q.k) q.s
  | .round2 => rotl (a + ((b &&& c) ||| ((b ||| c) &&& d)) + loadLE32 x q.k + 0x5A827999) q.s
  | .round3 => rotl (a + (b ^^^ c ^^^ d) + loadLE32 x q.k + 0x6ED9EBA1) q.s

/-- The effect of one call on the local variables. md4.h:457-521. -/
def exec (x : Block 64) (r : Vector W32 4) (q : Call) : Vector W32 4 := r.set q.a (newA x r q)

/-- Body of the block loop of `addDataImpl` (md4.h:448-528). -/
def compress (h : Vector W32 4) (m : Block 64) : Vector W32 4 :=
  let r := calls.foldl (exec m) #v[h[0], h[1], h[2], h[3]]
  #v[h[0] + r[0], h[1] + r[1], h[2] + r[2], h[3] + r[3]]

/-- md4.h:295-298 -/
def iv : Vector W32 4 := #v[0x67452301, 0xefcdab89, 0x98badcfe, 0x10325476]

/-- `toArray()` (md4.h:353-367) -/
def toArray (h : Vector W32 4) : Except Fault (List Byte) :=
  resultArray 16 (h.toList.flatMap (storeLE 4))

/-- `operator==` (md4.h:229-237): compares `m_state` only. -/
def eq (l r : Obj (2 * 64) (MDState W64 (Vector W32 4))) : Bool := l.chain.h == r.chain.h

/-- `class MD4`: BLOCK_SIZE 64, 8-byte little-endian length (md4.h:301-325). -/
def MD4 : API (Obj (2 * 64) (MDState W64 (Vector W32 4))) :=
  mdApi 64 8 0x80 counterLE64 compress iv toArray

end Verif.Model.MD4
