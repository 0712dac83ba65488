import Verif.Core.Stream
import Verif.Model.BLAKECalls

/-!
# blake1_224.h, blake1_256.h, blake1_384.h, blake1_512.h

The four headers have the same text up to: word size and rotation amounts, the unrolled mixing
calls, initial values, size of the length field, the marker bit, the type of the local variable
`nonPaddingBits`, the type of the size counter, and result truncation (checked with `diff`). The
text is transcribed once with those as parameters; line numbers are of blake1_256.h for the 32-bit
and of blake1_512.h for the 64-bit classes.
-/

namespace Verif.Model.BLAKE

/-- What differs between the headers in `addDataImpl`. blake1_224.h:451-631, blake1_256.h:453-633,
blake1_384.h:518-716, blake1_512.h:520-718. -/
structure Cfg (w B : Nat) (C : Type) where
  /-- `Loader` -/
  load : (m : Block B) → (t : Fin 16) → BitVec w
  /-- blake1_256.h:253-257 / blake1_512.h:316-322 -/
  cTable : Vector (BitVec w) 16
  /-- blake1_256.h:495-619 / blake1_512.h:562-704 -/
  calls : List Call
  /-- rotation amounts in the macro `blakeMix` (blake1_256.h:484-492 / blake1_512.h:551-559) -/
  (r1 r2 r3 r4 : Nat)
  /-- `m_sizeCounter += nonPaddingBits` for `nonPaddingBits` initialised from the given `int` -/
  addBits : C → Int → C
  /-- `nonPaddingBits > 0` for `nonPaddingBits` initialised from the given `int` -/
  positive : Int → Bool
  /-- the locals `t0`, `t1` (blake1_256.h:473-474 / blake1_512.h:540-541) -/
  t0 : C → BitVec w
  t1 : C → BitVec w

variable {w B : Nat} {C : Type}

/-- macro `blakeMix` (blake1_256.h:484-492): eight assignments. -/
def mix (c : Cfg w B C) (m : Block B) (v : Vector (BitVec w) 16) (k : Call) : Vector (BitVec w) 16 :=
  let v := v.set k.a (v[k.a] + v[k.b] + (c.load m k.x ^^^ c.cTable[k.k1]))
  let v := v.set k.d (rotr (v[k.d] ^^^ v[k.a]) c.r1)
  let v := v.set k.c (v[k.c] + v[k.d])
  let v := v.set k.b (rotr (v[k.b] ^^^ v[k.c]) c.r2)
  let v := v.set k.a (v[k.a] + v[k.b] + (c.load m k.y ^^^ c.cTable[k.k2]))
  let v := v.set k.d (rotr (v[k.d] ^^^ v[k.a]) c.r3)
  let v := v.set k.c (v[k.c] + v[k.d])
  v.set k.b (rotr (v[k.b] ^^^ v[k.c]) c.r4)

/-- Body of the block loop of `addDataImpl` (blake1_256.h:459-631). -/
def body (c : Cfg w B C) (paddingLen : Nat) (s : MDState C (Vector (BitVec w) 8)) (m : Block B) :
    MDState C (Vector (BitVec w) 8) :=
  let mh := s.h
  let ct := c.cTable
  let v : Vector (BitVec w) 16 := #v[mh[0], mh[1], mh[2], mh[3], mh[4], mh[5], mh[6], mh[7],
    ct[0], ct[1], ct[2], ct[3], ct[4], ct[5], ct[6], ct[7]]
  let nonPaddingBits : Int := (B - paddingLen) * 8
  let sizeCounter := c.addBits s.sizeCounter nonPaddingBits
  let v :=
    if c.positive nonPaddingBits then
      let t0 := c.t0 sizeCounter
      let t1 := c.t1 sizeCounter
      let v := v.set 12 (v[12] ^^^ t0)
      let v := v.set 13 (v[13] ^^^ t0)
      let v := v.set 14 (v[14] ^^^ t1)
      v.set 15 (v[15] ^^^ t1)
    else v
  let v := c.calls.foldl (mix c m) v
  ⟨sizeCounter, #v[mh[0] ^^^ (v[0] ^^^ v[8]), mh[1] ^^^ (v[1] ^^^ v[9]), mh[2] ^^^ (v[2] ^^^ v[10]),
    mh[3] ^^^ (v[3] ^^^ v[11]), mh[4] ^^^ (v[4] ^^^ v[12]), mh[5] ^^^ (v[5] ^^^ v[13]),
    mh[6] ^^^ (v[6] ^^^ v[14]), mh[7] ^^^ (v[7] ^^^ v[15])]⟩

/-- `addDataImpl(data, paddingLen = 0)` (blake1_256.h:453-633) -/
def impl (c : Cfg w B C) (paddingLen : Nat) (s : MDState C (Vector (BitVec w) 8))
    (data : List Byte) : Except Fault (MDState C (Vector (BitVec w) 8)) := do
  if data.length % B ≠ 0 then throw .assertion
  forBlocks B (body c paddingLen) data s

/-- `m_buffer[m_buffer.size() - (L + 1)] |= 1` (blake1_256.h:324 / blake1_512.h:391); the statement
is absent from blake1_224.h and blake1_384.h. -/
def markLast {N : Nat} (L : Nat) (marker : Bool) (b : Buffer N) : Except Fault (Buffer N) :=
  if marker then do
    let x ← b.getAt (b.size - (L + 1))
    b.setAt (b.size - (L + 1)) (x ||| 1)
  else .ok b

/-- `finalize()` (blake1_256.h:311-337 / blake1_512.h:378-404): `L` is the size of the length
field, `marker` says whether the statement `m_buffer[m_buffer.size() - (L + 1)] |= 1` is there,
`total` is `m_sizeCounter + n`. -/
def finalize (c : Cfg w B C) (L : Nat) (marker : Bool) (total : C → Nat → C)
    (writes : Nat → C → List (Nat × Byte)) (o : Obj (2 * B) (MDState C (Vector (BitVec w) 8))) :
    Except Fault (Obj (2 * B) (MDState C (Vector (BitVec w) 8))) := do
  let sizeCounterBits := total o.chain.sizeCounter (o.buffer.size * 8)
  let b ← o.buffer.fill 0x80
  let len := (2 * B - (b.size + L)) % B
  let b ← b.fill 0 (len + L)
  let b ← markLast L marker b
  let b ← writeLoop b (writes b.size sizeCounterBits)
  let s ← impl c (len + (L + 1)) o.chain b.contents
  return ⟨b.clear, s⟩

/-- `toArray()` (blake1_256.h:364-378): the span covers the first `n` words of `m_h`. -/
def toArray (bytesPerWord n size : Nat) (o : Obj (2 * B) (MDState C (Vector (BitVec w) 8))) :
    Except Fault (List Byte) :=
  resultArray size ((o.chain.h.toList.take n).flatMap (storeBE bytesPerWord))

/-- blake1_256.h:253-257 -/
def cTable32 : Vector W32 16 := #v[
  0x243f6a88, 0x85a308d3, 0x13198a2e, 0x03707344, 0xa4093822, 0x299f31d0, 0x082efa98, 0xec4e6c89,
  0x452821e6, 0x38d01377, 0xbe5466cf, 0x34e90c6c, 0xc0ac29b7, 0xc97c50dd, 0x3f84d5b5, 0xb5470917]

/-- blake1_512.h:316-322 -/
def cTable64 : Vector W64 16 := #v[
  0x243f6a8885a308d3, 0x13198a2e03707344, 0xa4093822299f31d0, 0x082efa98ec4e6c89,
  0x452821e638d01377, 0xbe5466cf34e90c6c, 0xc0ac29b7c97c50dd, 0x3f84d5b5b5470917,
  0x9216d5d98979fb1b, 0xd1310ba698dfb5ac, 0x2ffd72dbd01adfb7, 0xb8e1afed6a267e96,
  0xba7c9045f12c7f99, 0x24a19947b3916cf7, 0x0801f2e2858efc16, 0x636920d871574e69]

/-- blake1_256.h: `nonPaddingBits` is an `int` (line 469), converted to `uint64_t` for `+=`. blake1_256.h:192-286,
453-633. -/
def cfg256 : Cfg 32 64 W64 where
  load := fun m t => loadBE32 m t
  cTable := cTable32
  calls := calls32
  r1 := 16
  r2 := 12
  r3 := 8
  r4 := 7
  addBits := fun c n => c + BitVec.ofInt 64 n
  positive := fun n => decide (n > 0)
  t0 := fun c => ror 32 c 0
  t1 := fun c => ror 32 c 32

/-- blake1_224.h: `nonPaddingBits` is a `uint32_t` (line 467). blake1_224.h:192-286, 451-631. -/
def cfg224 : Cfg 32 64 W64 :=
  { cfg256 with
    addBits := fun c n => c + (BitVec.ofInt 32 n).setWidth 64
    positive := fun n => decide ((BitVec.ofInt 32 n).toNat > 0) }

/-- blake1_384.h, blake1_512.h: `nonPaddingBits` is an `int` (blake1_512.h:536), converted to
`uint64_t` for `Uint128::operator+=`. -/
def cfg512 : Cfg 64 128 Uint128 where
  load := fun m t => loadBE64 m t
  cTable := cTable64
  calls := calls64
  r1 := 32
  r2 := 25
  r3 := 16
  r4 := 11
  addBits := fun c n => c.add (BitVec.ofInt 64 n)
  positive := fun n => decide (n > 0)
  t0 := fun c => c.lo
  t1 := fun c => c.hi

/-- blake1_224.h:301-308 -/
def iv224 : Vector W32 8 := #v[0xc1059ed8, 0x367cd507, 0x3070dd17, 0xf70e5939,
  0xffc00b31, 0x68581511, 0x64f98fa7, 0xbefa4fa4]
/-- blake1_256.h:301-308 -/
def iv256 : Vector W32 8 := #v[0x6a09e667, 0xbb67ae85, 0x3c6ef372, 0xa54ff53a,
  0x510e527f, 0x9b05688c, 0x1f83d9ab, 0x5be0cd19]
/-- blake1_384.h:368-375 -/
def iv384 : Vector W64 8 := #v[0xcbbb9d5dc1059ed8, 0x629a292a367cd507, 0x9159015a3070dd17,
  0x152fecd8f70e5939, 0x67332667ffc00b31, 0x8eb44a8768581511, 0xdb0c2e0d64f98fa7, 0x47b5481dbefa4fa4]
/-- blake1_512.h:368-375 -/
def iv512 : Vector W64 8 := #v[0x6a09e667f3bcc908, 0xbb67ae8584caa73b, 0x3c6ef372fe94f82b,
  0xa54ff53a5f1d36f1, 0x510e527fade682d1, 0x9b05688c2b3e6c1f, 0x1f83d9abfb41bd6b, 0x5be0cd19137e2179]

/-- the members of the 32-bit classes (blake1_256.h:248-251) -/
abbrev Obj32 := Obj (2 * 64) (MDState W64 (Vector W32 8))
/-- the members of the 64-bit classes (blake1_512.h:311-314) -/
abbrev Obj64 := Obj (2 * 128) (MDState Uint128 (Vector W64 8))

/-- A 32-bit class. blake1_224.h:192-258, blake1_256.h:192-258. -/
def api32 (c : Cfg 32 64 W64) (marker : Bool) (iv : Vector W32 8) (words size : Nat) : API Obj32 :=
  blockApi 64 (impl c 0) ⟨0, iv⟩ (finalize c 8 marker cntAdd64 lenWritesBE64) (toArray 4 words size)

/-- A 64-bit class. blake1_384.h:255-321, blake1_512.h:255-321. -/
def api64 (c : Cfg 64 128 Uint128) (marker : Bool) (iv : Vector W64 8) (words size : Nat) :
    API Obj64 :=
  blockApi 128 (impl c 0) ⟨{}, iv⟩ (finalize c 16 marker cntAdd128 lenWritesBE128) (toArray 8 words size)

/-- `class Blake1_224`; `toArray` uses `m_h[0..6]` (blake1_224.h:362-376). -/
def Blake1_224 : API Obj32 := api32 cfg224 false iv224 7 28
/-- `class Blake1_256` (blake1_256.h:192-258) -/
def Blake1_256 : API Obj32 := api32 cfg256 true iv256 8 32
/-- `class Blake1_384`; `toArray` uses `m_h[0..5]` (blake1_384.h:429-443). -/
def Blake1_384 : API Obj64 := api64 cfg512 false iv384 6 48
/-- `class Blake1_512` (blake1_512.h:255-321) -/
def Blake1_512 : API Obj64 := api64 cfg512 true iv512 8 64

/-- `operator==` (blake1_256.h:229-237): compares the eight words of `m_h` and nothing else. -/
def eq32 (l r : Obj32) : Bool := l.chain.h == r.chain.h
/-- `operator==` (blake1_512.h:292-300) -/
def eq64 (l r : Obj64) : Bool := l.chain.h == r.chain.h

end Verif.Model.BLAKE
