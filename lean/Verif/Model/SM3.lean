import Verif.Core.Stream
import Verif.Model.SM3Calls

/-! # sm3.h -/

namespace Verif.Model.SM3

/-- lambda `permutation1` (sm3.h:456-459) -/
def permutation1 (x : W32) : W32 := x ^^^ rotl x 15 ^^^ rotl x 23
/-- lambda `permutation0` (sm3.h:479-482) -/
def permutation0 (x : W32) : W32 := x ^^^ rotl x 9 ^^^ rotl x 17

/-- the array `expanedMsg` (sm3.h:461-468) -/
def expand (m : Block 64) : Vector W32 68 :=
  let w := forRange 0 16 (Vector.replicate 68 0) fun t _ h w => w.set t (loadBE32 m t)
  forRange 16 68 w fun t h1 h2 w =>
    w.set t (permutation1 (rotl w[t - 3] 15 ^^^ w[t - 9] ^^^ w[t - 16]) ^^^ rotl w[t - 13] 7 ^^^ w[t - 6])

/-- the boolean functions in `tt1`, `tt2` (sm3.h:490-491, 525-526) -/
def ff (rnd : Round) (a b c : W32) : W32 :=
  match rnd with
  | .r1 => a ^^^ b ^^^ c
  | .r2 => (a &&& b) ||| (c &&& (a ||| b))
/-- `gg` (sm3.h:491, 523) -/
def gg (rnd : Round) (e f g : W32) : W32 :=
  match rnd with
  | .r1 => e ^^^ f ^^^ g
  | .r2 => g ^^^ (e &&& (f ^^^ g))

/-- One call of `sm3Round1` or `sm3Round2` (sm3.h:483-497, 518-532). The first vector holds the
variables `a` .. `d`, the second `e` .. `h`. -/
def exec (w : Vector W32 68) (r : Vector W32 4 × Vector W32 4) (q : Call) :
    Vector W32 4 × Vector W32 4 :=
  let wPrime := w[q.t.val] ^^^ w[q.t.val + 4]
  let tmpA := rotl r.1[q.a] 12
  let ss1 := rotl (tmpA + r.2[q.e] + q.k) 7
  let ss2 := ss1 ^^^ tmpA
  let tt1 := ff q.rnd r.1[q.a] r.1[q.b] r.1[q.c] + r.1[q.d] + ss2 + wPrime
  let tt2 := gg q.rnd r.2[q.e] r.2[q.f] r.2[q.g] + r.2[q.h] + ss1 + w[q.t.val]
  ((r.1.set q.b (rotl r.1[q.b] 9)).set q.d tt1, (r.2.set q.f (rotl r.2[q.f] 19)).set q.h (permutation0 tt2))

/-- Body of the block loop of `addDataImpl` (sm3.h:452-590). -/
def compress (v : Vector W32 8) (m : Block 64) : Vector W32 8 :=
  let w := expand m
  let r := calls.foldl (exec w) (#v[v[0], v[1], v[2], v[3]], #v[v[4], v[5], v[6], v[7]])
  #v[v[0] ^^^ r.1[0], v[1] ^^^ r.1[1], v[2] ^^^ r.1[2], v[3] ^^^ r.1[3],
    v[4] ^^^ r.2[0], v[5] ^^^ r.2[1], v[6] ^^^ r.2[2], v[7] ^^^ r.2[3]]

/-- sm3.h:295-302 -/
def iv : Vector W32 8 := #v[0x7380166f, 0x4914b2b9, 0x172442d7, 0xda8a0600, 0xa96f30bc, 0x163138aa,
  0xe38dee4d, 0xb0fb0e4e]

/-- `toArray()` (sm3.h:357-371) -/
def toArray (v : Vector W32 8) : Except Fault (List Byte) :=
  resultArray 32 (v.toList.flatMap (storeBE 4))

/-- `operator==` (sm3.h:229-237): compares `m_v` only. -/
def eq (l r : Obj (2 * 64) (MDState W64 (Vector W32 8))) : Bool := l.chain.h == r.chain.h

/-- `class SM3`: BLOCK_SIZE 64, 8-byte big-endian length (sm3.h:305-330). -/
def SM3 : API (Obj (2 * 64) (MDState W64 (Vector W32 8))) :=
  mdApi 64 8 0x80 counterBE64 compress iv toArray

end Verif.Model.SM3
