import Verif.Core.Stream
import Verif.Model.BLAKE2Calls

/-!
# blake2.h, blake2s.h

The two headers have the same text up to word size, block size, rotation amounts, initial values,
the unrolled mixing calls and the type of the size counter. The text is transcribed once; line
numbers are of blake2.h, with those of blake2s.h after a slash.
-/

namespace Verif.Model.BLAKE2

/-- What differs between the headers. blake2.h:255-352, blake2s.h:192-286. -/
structure Cfg (w B : Nat) (C : Type) where
  /-- `Loader` (blake2.h:325-353 / blake2s.h:263-286) -/
  load : (m : Block B) → (t : Fin 16) → BitVec w
  /-- `m_initializationVector` (blake2.h:315-319 / blake2s.h:252-256) -/
  iv : Vector (BitVec w) 8
  /-- blake2.h:534-629 / blake2s.h:468-547 -/
  calls : List Call
  /-- rotation amounts in the macro `blakeMix` (blake2.h:523-531 / blake2s.h:457-465) -/
  (r1 r2 r3 r4 : Nat)
  zero : C
  /-- `m_sizeCounter += n` for the `int` `n` -/
  addBytes : C → Int → C
  /-- the two words of the counter as used in `v[12]`, `v[13]` (blake2.h:514-515 / blake2s.h:448-449) -/
  t0 : C → BitVec w
  t1 : C → BitVec w
  /-- the digest size in `reset` (blake2.h:370 / blake2s.h:304) -/
  nn : Nat

variable {w B : Nat} {C : Type}

/-- `m_sizeCounter` and `m_h` (blake2.h:312-314, blake2s.h:249-251) -/
abbrev State (w : Nat) (C : Type) := MDState C (Vector (BitVec w) 8)

/-- macro `blakeMix` (blake2.h:523-531) -/
def mix (c : Cfg w B C) (m : Block B) (v : Vector (BitVec w) 16) (k : Call) : Vector (BitVec w) 16 :=
  let v := v.set k.a (v[k.a] + v[k.b] + c.load m k.x)
  let v := v.set k.d (rotr (v[k.d] ^^^ v[k.a]) c.r1)
  let v := v.set k.c (v[k.c] + v[k.d])
  let v := v.set k.b (rotr (v[k.b] ^^^ v[k.c]) c.r2)
  let v := v.set k.a (v[k.a] + v[k.b] + c.load m k.y)
  let v := v.set k.d (rotr (v[k.d] ^^^ v[k.a]) c.r3)
  let v := v.set k.c (v[k.c] + v[k.d])
  v.set k.b (rotr (v[k.b] ^^^ v[k.c]) c.r4)

/-- Body of the block loop of `addDataImpl` (blake2.h:506-641 / blake2s.h:440-559). -/
def body (c : Cfg w B C) (isFinal : Bool) (paddingLen : Nat) (s : State w C) (m : Block B) :
    State w C :=
  let mh := s.h
  let sizeCounter := c.addBytes s.sizeCounter ((B : Int) - paddingLen)
  let v : Vector (BitVec w) 16 := #v[mh[0], mh[1], mh[2], mh[3], mh[4], mh[5], mh[6], mh[7],
    c.iv[0], c.iv[1], c.iv[2], c.iv[3], c.iv[4] ^^^ c.t0 sizeCounter, c.iv[5] ^^^ c.t1 sizeCounter,
    if isFinal then ~~~c.iv[6] else c.iv[6], c.iv[7]]
  let v := c.calls.foldl (mix c m) v
  ⟨sizeCounter, #v[mh[0] ^^^ (v[0] ^^^ v[8]), mh[1] ^^^ (v[1] ^^^ v[9]), mh[2] ^^^ (v[2] ^^^ v[10]),
    mh[3] ^^^ (v[3] ^^^ v[11]), mh[4] ^^^ (v[4] ^^^ v[12]), mh[5] ^^^ (v[5] ^^^ v[13]),
    mh[6] ^^^ (v[6] ^^^ v[14]), mh[7] ^^^ (v[7] ^^^ v[15])]⟩

/-- `addDataImpl(data, isFinal, paddingLen = 0)` (blake2.h:500-643 / blake2s.h:434-561) -/
def impl (c : Cfg w B C) (isFinal : Bool) (paddingLen : Nat) (s : State w C) (data : List Byte) :
    Except Fault (State w C) := do
  if data.length % B ≠ 0 then throw .assertion
  forBlocks B (body c isFinal paddingLen) data s

/-- `reset()` stores in the members other than the buffer (blake2.h:365-370 / blake2s.h:299-304) -/
def init (c : Cfg w B C) : State w C :=
  ⟨c.zero, c.iv.set 0 (c.iv[0] ^^^ BitVec.ofNat w (0x01010000 ^^^ (0 <<< 8) ^^^ c.nn))⟩

/-- last part of `addData(Span)`, reached with an empty buffer (blake2.h:463-473 / blake2s.h:397-407) -/
def addDataTail {S : Type} (B : Nat) (impl : S → List Byte → Except Fault S) (o : Obj B S)
    (data : List Byte) : Except Fault (Obj B S) := do
  let dataSize := data.length
  let remainder := if dataSize % B ≠ 0 then dataSize % B else B
  let len := dataSize - remainder
  let s ← impl o.chain (← spanFirst data len)
  let b ← Buffer.ofRange (data.drop (dataSize - remainder))
  return ⟨b, s⟩

/-- `addData(Span)` (blake2.h:441-474 / blake2s.h:375-408), with `impl` for `addDataImpl(_, false)`.
The test `len = 0` is not in the code: it says when the recursion would not shorten the data, which
needs a buffer holding more bytes than its capacity, something no buffer does; it makes the
recursion well-founded in Lean. -/
def addData {S : Type} (B : Nat) (impl : S → List Byte → Except Fault S) (o : Obj B S)
    (inData : List Byte) : Except Fault (Obj B S) :=
  if inData.isEmpty then .ok o
  else if o.buffer.size = B then do
    let s ← impl o.chain o.buffer.contents
    addDataTail B impl ⟨o.buffer.clear, s⟩ inData
  else if !o.buffer.empty then
    let len := min (B - o.buffer.size) inData.length
    if len = 0 then .error .bufferOverrun
    else match o.buffer.pushBack (inData.take len) with
      | .error e => .error e
      | .ok b => addData B impl { o with buffer := b } (inData.drop len)
  else addDataTail B impl o inData
termination_by inData.length
decreasing_by simp only [List.length_drop]; omega

/-- `finalize()` (blake2.h:373-383 / blake2s.h:307-317) -/
def finalize (c : Cfg w B C) (o : Obj B (State w C)) : Except Fault (Obj B (State w C)) := do
  let len := B - o.buffer.size
  let b ← o.buffer.fill 0 len
  let s ← impl c true len o.chain b.contents
  return ⟨b.clear, s⟩

/-- `toArray()` (blake2.h:410-424 / blake2s.h:344-358) -/
def toArray (bytesPerWord size : Nat) (o : Obj B (State w C)) : Except Fault (List Byte) :=
  resultArray size (o.chain.h.toList.flatMap (storeLE bytesPerWord))

/-- The constructor calls `reset()` on zeroed members (blake2.h:356-371 / blake2s.h:290-305). -/
def api (c : Cfg w B C) (bytesPerWord size : Nat) : API (Obj B (State w C)) where
  fresh := ⟨{}, init c⟩
  reset := fun o => ⟨o.buffer.clear, init c⟩
  addData := addData B (impl c false 0)
  finalize := finalize c
  toArray := toArray bytesPerWord size

/-- blake2.h:255-352, 500-643 -/
def cfg2 : Cfg 64 128 Uint128 where
  load := fun m t => loadLE64 m t
  iv := #v[0x6a09e667f3bcc908, 0xbb67ae8584caa73b, 0x3c6ef372fe94f82b, 0xa54ff53a5f1d36f1,
    0x510e527fade682d1, 0x9b05688c2b3e6c1f, 0x1f83d9abfb41bd6b, 0x5be0cd19137e2179]
  calls := calls64
  r1 := 32
  r2 := 24
  r3 := 16
  r4 := 63
  zero := {}
  addBytes := fun c n => c.add (BitVec.ofInt 64 n)
  t0 := fun c => c.lo
  t1 := fun c => c.hi
  nn := 64

/-- blake2s.h:192-286, 434-561 -/
def cfg2s : Cfg 32 64 W64 where
  load := fun m t => loadLE32 m t
  iv := #v[0x6a09e667, 0xbb67ae85, 0x3c6ef372, 0xa54ff53a, 0x510e527f, 0x9b05688c, 0x1f83d9ab,
    0x5be0cd19]
  calls := calls32
  r1 := 16
  r2 := 12
  r3 := 8
  r4 := 7
  zero := 0
  addBytes := fun c n => c + BitVec.ofInt 64 n
  t0 := fun c => ror 32 c 0
  t1 := fun c => ror 32 c 32
  nn := 32

/-- the members of `Blake2` (blake2.h:311-314) -/
abbrev Obj2 := Obj 128 (State 64 Uint128)
/-- the members of `Blake2s` (blake2s.h:248-251) -/
abbrev Obj2s := Obj 64 (State 32 W64)

/-- `class Blake2` (blake2.h:255-320) -/
def Blake2 : API Obj2 := api cfg2 8 64
/-- `class Blake2s` (blake2s.h:192-257) -/
def Blake2s : API Obj2s := api cfg2s 4 32

/-- `operator==` (blake2.h:292-300): compares the eight words of `m_h` and nothing else. -/
def eq2 (l r : Obj2) : Bool := l.chain.h == r.chain.h
/-- `operator==` (blake2s.h:229-237) -/
def eq2s (l r : Obj2s) : Bool := l.chain.h == r.chain.h

end Verif.Model.BLAKE2
