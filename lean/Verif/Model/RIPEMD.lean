import Verif.Core.Stream
import Verif.Model.RIPEMDCalls

/-! # ripemd_128.h, ripemd_160.h, ripemd_256.h, ripemd_320.h -/

namespace Verif.Model.RIPEMD

/-- The lambdas `f1` .. `f5` (ripemd_160.h:453-472, ripemd_320.h:459-478; `f1` .. `f4` also
ripemd_128.h:452-467, ripemd_256.h:457-472). -/
def fn (f : Fn) (x y z : W32) : W32 :=
  match f with
  | .f1 => x ^^^ y ^^^ z
  | .f2 => (x &&& (y ^^^ z)) ^^^ z
  | .f3 => (x ||| ~~~y) ^^^ z
  | .f4 => ((x ^^^ y) &&& z) ^^^ y
  | .f5 => x ^^^ (y ||| ~~~z)

/-- `lineLeft` of the four-register classes (ripemd_128.h:473-476, ripemd_256.h:478-481);
`lineRight` is the same lambda. -/
def line4 (x : Block 64) (v : Vector W32 4) (q : Call4) : Vector W32 4 :=
  v.set q.a (rotl (v[q.a] + fn q.f v[q.b] v[q.c] v[q.d] + loadLE32 x q.r + q.k) q.s)

/-- `lineLeft` of the five-register classes (ripemd_160.h:479-483, ripemd_320.h:485-489). -/
def line5 (x : Block 64) (v : Vector W32 5) (q : Call5) : Vector W32 5 :=
  let v := v.set q.a (rotl (v[q.a] + fn q.f v[q.b] v[q.c] v[q.d] + loadLE32 x q.r + q.k) q.s + v[q.e])
  v.set q.c (rotl v[q.c] 10)

/-- One call statement: `lineLeft` works on `a, b, ..`, `lineRight` on `aa, bb, ..`. ripemd_128.h:473-611,
ripemd_160.h:479-651, ripemd_256.h:478-630, ripemd_320.h:485-673. -/
def exec {C V : Type} (line : V → C → V) (s : V × V) : Stmt C → V × V
  | .left q => (line s.1 q, s.2)
  | .right q => (s.1, line s.2 q)

/-- `swap(a, aa)` etc. (ripemd_256.h:489-495, ripemd_320.h:499-505): `i` names the variable. -/
def swap {n : Nat} (i : Fin n) (s : Vector W32 n × Vector W32 n) : Vector W32 n × Vector W32 n :=
  (s.1.set i s.2[i], s.2.set i s.1[i])

/-- Body of the block loop of `RIPEMD_128::addDataImpl` (ripemd_128.h:447-617). -/
def compress128 (h : Vector W32 4) (x : Block 64) : Vector W32 4 :=
  let l := #v[h[0], h[1], h[2], h[3]]
  let s := (seg4_0 ++ seg4_1 ++ seg4_2 ++ seg4_3).foldl (exec (line4 x)) (l, l)
  let t := h[1] + s.1[2] + s.2[3]
  let h := h.set 1 (h[2] + s.1[3] + s.2[0])
  let h := h.set 2 (h[3] + s.1[0] + s.2[1])
  let h := h.set 3 (h[0] + s.1[1] + s.2[2])
  h.set 0 t

/-- Body of the block loop of `RIPEMD_160::addDataImpl` (ripemd_160.h:448-658). -/
def compress160 (h : Vector W32 5) (x : Block 64) : Vector W32 5 :=
  let l := #v[h[0], h[1], h[2], h[3], h[4]]
  let s := (seg5_0 ++ seg5_1 ++ seg5_2 ++ seg5_3 ++ seg5_4).foldl (exec (line5 x)) (l, l)
  let t := h[1] + s.1[2] + s.2[3]
  let h := h.set 1 (h[2] + s.1[3] + s.2[4])
  let h := h.set 2 (h[3] + s.1[4] + s.2[0])
  let h := h.set 3 (h[4] + s.1[0] + s.2[1])
  let h := h.set 4 (h[0] + s.1[1] + s.2[2])
  h.set 0 t

/-- Body of the block loop of `RIPEMD_256::addDataImpl` (ripemd_256.h:452-640). -/
def compress256 (h : Vector W32 8) (x : Block 64) : Vector W32 8 :=
  let s := (#v[h[0], h[1], h[2], h[3]], #v[h[4], h[5], h[6], h[7]])
  let s := swap 0 (seg4_0.foldl (exec (line4 x)) s)
  let s := swap 1 (seg4_1.foldl (exec (line4 x)) s)
  let s := swap 2 (seg4_2.foldl (exec (line4 x)) s)
  let s := swap 3 (seg4_3.foldl (exec (line4 x)) s)
  #v[h[0] + s.1[0], h[1] + s.1[1], h[2] + s.1[2], h[3] + s.1[3],
    h[4] + s.2[0], h[5] + s.2[1], h[6] + s.2[2], h[7] + s.2[3]]

/-- Body of the block loop of `RIPEMD_320::addDataImpl` (ripemd_320.h:454-685). -/
def compress320 (h : Vector W32 10) (x : Block 64) : Vector W32 10 :=
  let s := (#v[h[0], h[1], h[2], h[3], h[4]], #v[h[5], h[6], h[7], h[8], h[9]])
  let s := swap 0 (seg5_0.foldl (exec (line5 x)) s)
  let s := swap 1 (seg5_1.foldl (exec (line5 x)) s)
  let s := swap 2 (seg5_2.foldl (exec (line5 x)) s)
  let s := swap 3 (seg5_3.foldl (exec (line5 x)) s)
  let s := swap 4 (seg5_4.foldl (exec (line5 x)) s)
  #v[h[0] + s.1[0], h[1] + s.1[1], h[2] + s.1[2], h[3] + s.1[3], h[4] + s.1[4],
    h[5] + s.2[0], h[6] + s.2[1], h[7] + s.2[2], h[8] + s.2[3], h[9] + s.2[4]]

/-- ripemd_128.h:295-298 -/
def iv128 : Vector W32 4 := #v[0x67452301, 0xEFCDAB89, 0x98BADCFE, 0x10325476]
/-- ripemd_160.h:295-299 -/
def iv160 : Vector W32 5 := #v[0x67452301, 0xEFCDAB89, 0x98BADCFE, 0x10325476, 0xC3D2E1F0]
/-- ripemd_256.h:296-303 -/
def iv256 : Vector W32 8 := #v[0x67452301, 0xEFCDAB89, 0x98BADCFE, 0x10325476,
  0x76543210, 0xFEDCBA98, 0x89ABCDEF, 0x01234567]
/-- ripemd_320.h:296-305 -/
def iv320 : Vector W32 10 := #v[0x67452301, 0xEFCDAB89, 0x98BADCFE, 0x10325476, 0xC3D2E1F0,
  0x76543210, 0xFEDCBA98, 0x89ABCDEF, 0x01234567, 0x3C2D1E0F]

/-- `toArray()` (ripemd_128.h:353-367, ripemd_160.h:354-368, ripemd_256.h:358-372,
ripemd_320.h:360-374): `n` words into `std::array<Byte, 4 * n>`. -/
def toArray {n : Nat} (h : Vector W32 n) : Except Fault (List Byte) :=
  resultArray (4 * n) (h.toList.flatMap (storeLE 4))

/-- `class RIPEMD_128`: BLOCK_SIZE 64, 8-byte little-endian length (ripemd_128.h:301-325). -/
def RIPEMD_128 : API (Obj (2 * 64) (MDState W64 (Vector W32 4))) :=
  mdApi 64 8 0x80 counterLE64 compress128 iv128 toArray
/-- `class RIPEMD_160` (ripemd_160.h:302-326) -/
def RIPEMD_160 : API (Obj (2 * 64) (MDState W64 (Vector W32 5))) :=
  mdApi 64 8 0x80 counterLE64 compress160 iv160 toArray
/-- `class RIPEMD_256` (ripemd_256.h:306-330) -/
def RIPEMD_256 : API (Obj (2 * 64) (MDState W64 (Vector W32 8))) :=
  mdApi 64 8 0x80 counterLE64 compress256 iv256 toArray
/-- `class RIPEMD_320` (ripemd_320.h:308-332) -/
def RIPEMD_320 : API (Obj (2 * 64) (MDState W64 (Vector W32 10))) :=
  mdApi 64 8 0x80 counterLE64 compress320 iv320 toArray

/-- `operator==` (ripemd_128.h:229-237 and the like): compares `m_h` only. -/
def eq {n : Nat} (l r : Obj (2 * 64) (MDState W64 (Vector W32 n))) : Bool := l.chain.h == r.chain.h

end Verif.Model.RIPEMD
