import Verif.Core.Stream
import Verif.Core.API
import Verif.Core.Loops
import Verif.Model.SHA2Tables

/-!
# sha2_224.h, sha2_256.h, sha2_384.h, sha2_512.h, sha2_512_224.h, sha2_512_256.h

The six headers have the same text up to: word size and rotation amounts, number of rounds,
`kTable`, initial values, size of the length field and result truncation (checked with `diff`).
The text is transcribed once with those as parameters (`Cfg`); line numbers are of sha2_256.h
for the 32-bit and of sha2_512.h for the 64-bit classes.
-/

namespace Verif.Model.SHA2

/-- What differs between the 32-bit and the 64-bit headers. sha2_256.h:201-309, 475-561, sha2_512.h:264-380, 546-632. -/
structure Cfg (w B : Nat) where
  /-- number of iterations of the 8-round loop (8 or 10) -/
  loops : Nat
  /-- sha2_256.h:263-281 / sha2_512.h:325-347 -/
  kTable : Vector (BitVec w) (8 * loops)
  /-- `Loader` -/
  load : (m : Block B) → (t : Nat) → t < 16 → BitVec w
  /-- the lambdas `ssig0`, `ssig1` (sha2_256.h:487-494 / sha2_512.h:558-565) -/
  ssig0 : BitVec w → BitVec w
  ssig1 : BitVec w → BitVec w
  /-- the lambdas `bsig0`, `bsig1` (sha2_256.h:527-534 / sha2_512.h:598-605) -/
  bsig0 : BitVec w → BitVec w
  bsig1 : BitVec w → BitVec w

variable {w B : Nat}

/-- lambda `ch` (sha2_256.h:519-522) -/
def ch (x y z : BitVec w) : BitVec w := (x &&& (y ^^^ z)) ^^^ z

/-- lambda `maj` (sha2_256.h:523-526) -/
def maj (x y z : BitVec w) : BitVec w := (x &&& (y ||| z)) ||| (y &&& z)

/-- `wTable` (sha2_256.h:495-499): two loops filling a zeroed local array. -/
def wTable (c : Cfg w B) (hl : 16 ≤ 8 * c.loops) (m : Block B) : Vector (BitVec w) (8 * c.loops) :=
  let w0 : Vector (BitVec w) (8 * c.loops) := Vector.replicate _ 0
  let w1 := forRange 0 16 w0 fun t _ h2 wt => wt.set t (c.load m t h2)
  forRange 16 (8 * c.loops) w1 fun t h1 h2 wt =>
    wt.set t (c.ssig1 wt[t - 2] + wt[t - 7] + c.ssig0 wt[t - 15] + wt[t - 16])

/-- lambda `round` (sha2_256.h:511-542): only the references `d` and `h` are modified; their new
values are returned. `kt`, `wt` are `kTable[t]`, `wTable[t]`. -/
def round (c : Cfg w B) (a b c' d e f g h kt wt : BitVec w) : BitVec w × BitVec w :=
  let t1 := h + c.bsig1 e + ch e f g + kt + wt
  let t2 := c.bsig0 a + maj a b c'
  let h := t1
  let d := d + h
  let h := h + t2
  (d, h)

/-- The local variables `a` .. `h`. sha2_256.h:501-508, sha2_512.h:572-579. -/
structure Regs (w : Nat) where
  (a b c d e f g h : BitVec w)
  deriving DecidableEq

/-- One iteration of the round loop (sha2_256.h:543-553). -/
def eightRounds (c : Cfg w B) (wt : Vector (BitVec w) (8 * c.loops)) (t : Nat) (ht : t < c.loops)
    (s : Regs w) : Regs w :=
  let { a, b, c := c', d, e, f, g, h } := s
  let (d, h) := round c a b c' d e f g h c.kTable[8 * t + 0] wt[8 * t + 0]
  let (c', g) := round c h a b c' d e f g c.kTable[8 * t + 1] wt[8 * t + 1]
  let (b, f) := round c g h a b c' d e f c.kTable[8 * t + 2] wt[8 * t + 2]
  let (a, e) := round c f g h a b c' d e c.kTable[8 * t + 3] wt[8 * t + 3]
  let (h, d) := round c e f g h a b c' d c.kTable[8 * t + 4] wt[8 * t + 4]
  let (g, c') := round c d e f g h a b c' c.kTable[8 * t + 5] wt[8 * t + 5]
  let (f, b) := round c c' d e f g h a b c.kTable[8 * t + 6] wt[8 * t + 6]
  let (e, a) := round c b c' d e f g h a c.kTable[8 * t + 7] wt[8 * t + 7]
  { a, b, c := c', d, e, f, g, h }

/-- Body of the block loop of `addDataImpl` (sha2_256.h:481-563): `m_h` before and after. -/
def compress (c : Cfg w B) (hl : 16 ≤ 8 * c.loops) (mh : Vector (BitVec w) 8) (m : Block B) :
    Vector (BitVec w) 8 :=
  let wt := wTable c hl m
  let s : Regs w := ⟨mh[0], mh[1], mh[2], mh[3], mh[4], mh[5], mh[6], mh[7]⟩
  let s := forRange 0 c.loops s fun t _ ht s => eightRounds c wt t ht s
  #v[mh[0] + s.a, mh[1] + s.b, mh[2] + s.c, mh[3] + s.d,
     mh[4] + s.e, mh[5] + s.f, mh[6] + s.g, mh[7] + s.h]

/-- sha2_256.h configuration. sha2_256.h:201-309, 475-561. -/
def cfg32 : Cfg 32 64 where
  loops := 8
  kTable := kTable32
  load := fun m t h => loadBE32 m t
  ssig0 := fun x => rotr x 7 ^^^ rotr x 18 ^^^ ror 32 x 3
  ssig1 := fun x => rotr x 17 ^^^ rotr x 19 ^^^ ror 32 x 10
  bsig0 := fun x => rotr x 2 ^^^ rotr x 13 ^^^ rotr x 22
  bsig1 := fun x => rotr x 6 ^^^ rotr x 11 ^^^ rotr x 25

/-- sha2_512.h configuration. sha2_512.h:264-380, 546-632. -/
def cfg64 : Cfg 64 128 where
  loops := 10
  kTable := kTable64
  load := fun m t h => loadBE64 m t
  ssig0 := fun x => rotr x 1 ^^^ rotr x 8 ^^^ ror 64 x 7
  ssig1 := fun x => rotr x 19 ^^^ rotr x 61 ^^^ ror 64 x 6
  bsig0 := fun x => rotr x 28 ^^^ rotr x 34 ^^^ rotr x 39
  bsig1 := fun x => rotr x 14 ^^^ rotr x 18 ^^^ rotr x 41

/-- Objects of the 32-bit and 64-bit classes. sha2_256.h:257-260, sha2_512.h:320-323. -/
abbrev Obj32 := Obj (2 * 64) (MDState W64 (Vector W32 8))
/-- see `Obj32` (sha2_512.h:320-323) -/
abbrev Obj64 := Obj (2 * 128) (MDState Uint128 (Vector W64 8))

/-- `toArray()` (sha2_256.h:386-400): the span covers the first `n` words of `m_h`. -/
def toArray (bytesPerWord n size : Nat) (extra : Vector (BitVec w) 8 → List Byte)
    (mh : Vector (BitVec w) 8) : Except Fault (List Byte) :=
  resultArray size (((mh.toList.take n).flatMap (storeBE bytesPerWord)) ++ extra mh)

/-- `operator==` (sha2_256.h:238-246): compares the eight words of `m_h` and nothing else. -/
def eq32 (l r : Obj32) : Bool := l.chain.h == r.chain.h
/-- `operator==` (sha2_512.h:301-309) -/
def eq64 (l r : Obj64) : Bool := l.chain.h == r.chain.h

/-- sha2_224.h:324-331 -/
def iv224 : Vector W32 8 := #v[0xc1059ed8, 0x367cd507, 0x3070dd17, 0xf70e5939,
  0xffc00b31, 0x68581511, 0x64f98fa7, 0xbefa4fa4]
/-- sha2_256.h:324-331 -/
def iv256 : Vector W32 8 := #v[0x6a09e667, 0xbb67ae85, 0x3c6ef372, 0xa54ff53a,
  0x510e527f, 0x9b05688c, 0x1f83d9ab, 0x5be0cd19]
/-- sha2_384.h:395-402 -/
def iv384 : Vector W64 8 := #v[0xcbbb9d5dc1059ed8, 0x629a292a367cd507, 0x9159015a3070dd17,
  0x152fecd8f70e5939, 0x67332667ffc00b31, 0x8eb44a8768581511, 0xdb0c2e0d64f98fa7, 0x47b5481dbefa4fa4]
/-- sha2_512.h:395-402 -/
def iv512 : Vector W64 8 := #v[0x6a09e667f3bcc908, 0xbb67ae8584caa73b, 0x3c6ef372fe94f82b,
  0xa54ff53a5f1d36f1, 0x510e527fade682d1, 0x9b05688c2b3e6c1f, 0x1f83d9abfb41bd6b, 0x5be0cd19137e2179]
/-- sha2_512_224.h:395-402 -/
def iv512_224 : Vector W64 8 := #v[0x8C3D37C819544DA2, 0x73E1996689DCD4D6, 0x1DFAB7AE32FF9C82,
  0x679DD514582F9FCF, 0x0F6D2B697BD44DA8, 0x77E36F7304C48942, 0x3F9D85A86A1D36C8, 0x1112E6AD91D692A1]
/-- sha2_512_256.h:395-402 -/
def iv512_256 : Vector W64 8 := #v[0x22312194FC2BF72C, 0x9F555FA3C84C64C2, 0x2393B86B6F53B151,
  0x963877195940EABD, 0x96283EE2A88EFFE3, 0xBE5E1E2553863992, 0x2B0199FC2C85B8AA, 0x0EB72DDC81C52CA2]

/-- A 32-bit class (sha2_256.h). sha2_224.h:201-281, sha2_256.h:201-281. -/
def api32 (iv : Vector W32 8) (words size : Nat) : API Obj32 :=
  mdApi 64 8 0x80 counterBE64 (compress cfg32 (by decide)) iv (toArray 4 words size (fun _ => []))

/-- A 64-bit class (sha2_512.h). sha2_384.h:264-348, sha2_512.h:264-348, sha2_512_224.h:264-348, sha2_512_256.h:264-348. -/
def api64 (iv : Vector W64 8) (words size : Nat)
    (extra : Vector W64 8 → List Byte := fun _ => []) : API Obj64 :=
  mdApi 128 16 0x80 counterBE128 (compress cfg64 (by decide)) iv (toArray 8 words size extra)

/-- `class SHA2_224`; `toArray` uses `m_h[0..6]` (sha2_224.h:386-400). -/
def SHA2_224 : API Obj32 := api32 iv224 7 28
/-- `class SHA2_256` (sha2_256.h:201-281) -/
def SHA2_256 : API Obj32 := api32 iv256 8 32
/-- `class SHA2_384`; `toArray` uses `m_h[0..5]` (sha2_384.h:457-471). -/
def SHA2_384 : API Obj64 := api64 iv384 6 48
/-- `class SHA2_512` (sha2_512.h:264-348) -/
def SHA2_512 : API Obj64 := api64 iv512 8 64
/-- `class SHA2_512_224`; `toArray` uses `m_h[0..2]` and the upper half of `m_h[3]`
(sha2_512_224.h:457-476). -/
def SHA2_512_224 : API Obj64 := api64 iv512_224 3 28 fun mh =>
  [ror 8 mh[3] 56, ror 8 mh[3] 48, ror 8 mh[3] 40, ror 8 mh[3] 32]
/-- `class SHA2_512_256`; `toArray` uses `m_h[0..3]` (sha2_512_256.h:457-471). -/
def SHA2_512_256 : API Obj64 := api64 iv512_256 4 32

end Verif.Model.SHA2
