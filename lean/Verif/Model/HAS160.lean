import Verif.Core.Stream
import Verif.Model.HAS160Calls

/-! # has_160.h -/

namespace Verif.Model.HAS160

/-- `for (j = 0; j < 16; ++j) xTable[j] = x[j]` (has_160.h:461-463). `xTable[16..19]` are
uninitialised in the C++ at this point; the model starts from zeros. They are assigned by
`extendXTable` before any use. -/
def loadX (x : Block 64) : Vector W32 20 :=
  forRange 0 16 (Vector.replicate 20 0) fun j _ h xt => xt.set j (loadLE32 x j)

/-- lambda `extendXTable` (has_160.h:465-471) -/
def extend (n : Nat) (h : n + 19 < 80) (xt : Vector W32 20) : Vector W32 20 :=
  let xt := xt.set 16 (xt[lTable[n + 1]] ^^^ xt[lTable[n + 2]] ^^^ xt[lTable[n + 3]] ^^^ xt[lTable[n + 4]])
  let xt := xt.set 17 (xt[lTable[n + 6]] ^^^ xt[lTable[n + 7]] ^^^ xt[lTable[n + 8]] ^^^ xt[lTable[n + 9]])
  let xt := xt.set 18 (xt[lTable[n + 11]] ^^^ xt[lTable[n + 12]] ^^^ xt[lTable[n + 13]] ^^^ xt[lTable[n + 14]])
  xt.set 19 (xt[lTable[n + 16]] ^^^ xt[lTable[n + 17]] ^^^ xt[lTable[n + 18]] ^^^ xt[lTable[n + 19]])

/-- `f` in `round1` .. `round4` (has_160.h:481, 510, 539, 568) -/
def fn (rnd : Round) (b c d : W32) : W32 :=
  match rnd with
  | .r1 => (b &&& (c ^^^ d)) ^^^ d
  | .r2 => b ^^^ c ^^^ d
  | .r3 => c ^^^ (b ||| ~~~d)
  | .r4 => b ^^^ c ^^^ d

/-- the additive constant in `round1` .. `round4` (has_160.h:482, 510, 538, 566) -/
def konst : Round → W32
  | .r1 => 0x00000000
  | .r2 => 0x5A827999
  | .r3 => 0x6ED9EBA1
  | .r4 => 0x8F1BBCDC

/-- the rotation of `b` in `round1` .. `round4` (has_160.h:483, 511, 539, 567) -/
def rotB : Round → Nat
  | .r1 => 10
  | .r2 => 17
  | .r3 => 25
  | .r4 => 30

/-- One call of `round1` .. `round4` (has_160.h:479-484). -/
def exec (xt : Vector W32 20) (r : Vector W32 5) (q : Call) : Vector W32 5 :=
  let e := rotl r[q.a] q.s1 + fn q.rnd r[q.b] r[q.c] r[q.d] + r[q.e] + xt[lTable[q.t]] + konst q.rnd
  let r := r.set q.e e
  r.set q.b (rotl r[q.b] (rotB q.rnd))

/-- The table extensions and rounds (has_160.h:485-591) on the local variables `a` .. `e`. -/
def rounds (xt : Vector W32 20) (r : Vector W32 5) : Vector W32 5 :=
  let xt := extend 0 (by decide) xt
  let r := seg0.foldl (exec xt) r
  let xt := extend 20 (by decide) xt
  let r := seg1.foldl (exec xt) r
  let xt := extend 40 (by decide) xt
  let r := seg2.foldl (exec xt) r
  let xt := extend 60 (by decide) xt
  seg3.foldl (exec xt) r

/-- Body of the block loop of `addDataImpl` (has_160.h:449-597). -/
def compress (h : Vector W32 5) (x : Block 64) : Vector W32 5 :=
  let r := rounds (loadX x) #v[h[0], h[1], h[2], h[3], h[4]]
  #v[h[0] + r[0], h[1] + r[1], h[2] + r[2], h[3] + r[3], h[4] + r[4]]

/-- has_160.h:295-299 -/
def iv : Vector W32 5 := #v[0x67452301, 0xEFCDAB89, 0x98BADCFE, 0x10325476, 0xC3D2E1F0]

/-- `toArray()` (has_160.h:354-368) -/
def toArray (h : Vector W32 5) : Except Fault (List Byte) :=
  resultArray 20 (h.toList.flatMap (storeLE 4))

/-- `operator==` (has_160.h:229-237): compares `m_h` only. -/
def eq (l r : Obj (2 * 64) (MDState W64 (Vector W32 5))) : Bool := l.chain.h == r.chain.h

/-- `class HAS_160`: BLOCK_SIZE 64, 8-byte little-endian length (has_160.h:302-328). -/
def HAS_160 : API (Obj (2 * 64) (MDState W64 (Vector W32 5))) :=
  mdApi 64 8 0x80 counterLE64 compress iv toArray

end Verif.Model.HAS160
