import Verif.Core.Work
import Verif.Model.BLAKE
import Verif.Model.BLAKE2
import Verif.Model.MD2
import Verif.Model.SHA3
import Verif.Model.SipHash
import Verif.Model.CRC32
import Verif.Model.FNV

/-!
# The classes with a count of the runs of their block functions

Each definition is the one of the same name without the `W`, with the loop body replaced by `tick` of it.
-/

namespace Verif

/-- a Merkle-Damgård style class with the block function `comp` (sha2_256.h:475-563) counted -/
def mdApiW {C H : Type} (B L : Nat) (padByte : Byte) (cnt : Counter C) (comp : H → Block B → H)
    (iv : H) (out : H → Except Fault (List Byte)) : API (Obj (2 * B) (MDState C (H × Nat))) :=
  mdApi B L padByte cnt (tick comp) (iv, 0) fun h => out h.1

/-- the object without the count; not in /repo -/
def mdReal {N : Nat} {C H : Type} (o : Obj N (MDState C (H × Nat))) : Obj N (MDState C H) :=
  ⟨o.buffer, ⟨o.chain.sizeCounter, o.chain.h.1⟩⟩

namespace Model

namespace SHA3

/-- sha3.h:467-583 -/
def absorbW (R : Nat) [RateOK R] (s : State × Nat) (data : List Byte) : Except Fault (State × Nat) := do
  if data.length % R ≠ 0 then throw .assertion
  forBlocks R (tick body) data s

/-- sha3.h:467-583 -/
def implW (R : Nat) [RateOK R] (s : KState × Nat) (data : List Byte) : Except Fault (KState × Nat) := do
  let st ← absorbW R (s.1.state, s.2) data
  return ({ s.1 with state := st.1 }, st.2)

/-- the squeeze loop (sha3.h:348-357) -/
def squeezeW (R : Nat) [hR : RateOK R] (digestLength : Nat) (s : KState × Nat) : Except Fault (KState × Nat) :=
  let state := stateToVector s.1.state
  if _h : R ≤ state.length then
    let final := s.1.final ++ state.take R
    if _hf : final.length ≥ digestLength then .ok (⟨s.1.state, final⟩, s.2)
    else
      match absorbW R (s.1.state, s.2) (List.replicate R 0) with
      | .error e => .error e
      | .ok st => squeezeW R digestLength (⟨st.1, final⟩, st.2)
  else .error .spanBounds
termination_by digestLength - s.1.final.length
decreasing_by
  have := hR.pos
  have := hR.le
  have := stateToVector_length s.1.state
  simp only [ge_iff_le, Nat.not_le, final, List.length_append, List.length_take, state] at *
  omega

/-- `finalize()` (sha3.h:334-361) -/
def finalizeW (R : Nat) [RateOK R] (P : Byte) (digestLength : Nat) (o : Obj R (KState × Nat)) :
    Except Fault (Obj R (KState × Nat)) := do
  let b ← o.buffer.fill P
  let len := (2 * R - b.size) % R
  let b ← b.fill 0 len
  let last ← b.getAt (b.size - 1)
  let b ← b.setAt (b.size - 1) (last ||| 0x80)
  let c ← implW R o.chain b.contents
  let c ← squeezeW R digestLength c
  let final := c.1.final.take digestLength ++ List.replicate (digestLength - c.1.final.length) 0
  return ⟨b.clear, ({ c.1 with final := final }, c.2)⟩

/-- `Keccak<R, P>(digestLength)` (sha3.h:309-320) -/
def KeccakW (R : Nat) [RateOK R] (P : Byte) (digestLength : Nat) : API (Obj R (KState × Nat)) :=
  blockApi R (implW R) (init, 0) (finalizeW R P digestLength) fun o => toVector o.real

end SHA3

namespace BLAKE
variable {w B : Nat} {C : Type}

/-- `addDataImpl` (blake1_256.h:453-633) -/
def implW (c : Cfg w B C) (paddingLen : Nat) (s : MDState C (Vector (BitVec w) 8) × Nat)
    (data : List Byte) : Except Fault (MDState C (Vector (BitVec w) 8) × Nat) := do
  if data.length % B ≠ 0 then throw .assertion
  forBlocks B (tick (body c paddingLen)) data s

/-- `finalize()` (blake1_256.h:311-337) -/
def finalizeW (c : Cfg w B C) (L : Nat) (marker : Bool) (total : C → Nat → C)
    (writes : Nat → C → List (Nat × Byte)) (o : Obj (2 * B) (MDState C (Vector (BitVec w) 8) × Nat)) :
    Except Fault (Obj (2 * B) (MDState C (Vector (BitVec w) 8) × Nat)) := do
  let sizeCounterBits := total o.chain.1.sizeCounter (o.buffer.size * 8)
  let b ← o.buffer.fill 0x80
  let len := (2 * B - (b.size + L)) % B
  let b ← b.fill 0 (len + L)
  let b ← markLast L marker b
  let b ← writeLoop b (writes b.size sizeCounterBits)
  let s ← implW c (len + (L + 1)) o.chain b.contents
  return ⟨b.clear, s⟩

/-- `api32` and `api64` (blake2.h:255-320, blake2s.h:192-257) -/
def apiW (c : Cfg w B C) (L : Nat) (marker : Bool) (total : C → Nat → C) (writes : Nat → C → List (Nat × Byte))
    (init : MDState C (Vector (BitVec w) 8)) (k words size : Nat) :
    API (Obj (2 * B) (MDState C (Vector (BitVec w) 8) × Nat)) :=
  blockApi B (implW c 0) (init, 0) (finalizeW c L marker total writes) fun o => toArray k words size o.real

end BLAKE

namespace BLAKE2
variable {w B : Nat} {C : Type}

/-- `addDataImpl(data, isFinal, paddingLen = 0)` (blake2.h:500-643) -/
def implW (c : Cfg w B C) (isFinal : Bool) (paddingLen : Nat) (s : State w C × Nat) (data : List Byte) :
    Except Fault (State w C × Nat) := do
  if data.length % B ≠ 0 then throw .assertion
  forBlocks B (tick (body c isFinal paddingLen)) data s

/-- `finalize()` (blake2.h:373-383) -/
def finalizeW (c : Cfg w B C) (o : Obj B (State w C × Nat)) : Except Fault (Obj B (State w C × Nat)) := do
  let len := B - o.buffer.size
  let b ← o.buffer.fill 0 len
  let s ← implW c true len o.chain b.contents
  return ⟨b.clear, s⟩

/-- blake2.h:356-371 -/
def apiW (c : Cfg w B C) (bytesPerWord size : Nat) : API (Obj B (State w C × Nat)) where
  fresh := ⟨{}, (init c, 0)⟩
  reset := fun o => ⟨o.buffer.clear, (init c, 0)⟩
  addData := addData B (implW c false 0)
  finalize := finalizeW c
  toArray := fun o => toArray bytesPerWord size o.real

end BLAKE2

namespace MD2

/-- `addDataImpl` (md2.h:406-440) -/
def implW (s : St × Nat) (data : List Byte) : Except Fault (St × Nat) := forBlocks 16 (tick body) data s

/-- `finalize()` (md2.h:288-302) -/
def finalizeW (o : Obj (2 * 16) (St × Nat)) : Except Fault (Obj (2 * 16) (St × Nat)) := do
  let len := 16 - o.buffer.size % 16
  let b ← o.buffer.fill (BitVec.ofNat 8 len) len
  let c ← implW o.chain b.contents
  let c ← implW c c.1.checksum.toList
  return ⟨b.clear, c⟩

/-- `class MD2` (md2.h:188-269) -/
def MD2W : API (Obj (2 * 16) (St × Nat)) := blockApi 16 implW (init, 0) finalizeW fun o => toArray o.real

end MD2

namespace SipHash

/-- `addDataImpl` (siphash.h:459-474) -/
def implW (C : Nat) (s : State × Nat) (data : List Byte) : Except Fault (State × Nat) := do
  if data.length % 8 ≠ 0 then throw .assertion
  let c := s.1.sizeCounter + BitVec.ofNat 8 data.length
  let v ← forBlocks 8 (tick (body C)) data (s.1.state, s.2)
  return ({ s.1 with sizeCounter := c, state := v.1 }, v.2)

/-- `finalize()` (siphash.h:317-336) -/
def finalizeW (C D : Nat) (o : Obj 16 (State × Nat)) : Except Fault (Obj 16 (State × Nat)) := do
  let cnt := o.chain.1.sizeCounter + BitVec.ofNat 8 o.buffer.size
  let len := 8 - 1 - o.buffer.size
  let b ← o.buffer.fill 0 len
  let b ← b.fill cnt 1
  let s ← implW C ({ o.chain.1 with sizeCounter := cnt }, o.chain.2) b.contents
  let v := s.1.state.set 2 (s.1.state[2] ^^^ 0xff)
  return ⟨b.clear, ({ s.1 with state := rounds D v }, s.2)⟩

/-- `SipHash<C, D>` objects constructed with the given key (siphash.h:193-255) -/
def SipHashCDW (C D : Nat) (key : Block 16) : API (Obj 16 (State × Nat)) where
  fresh := ⟨(constructKey key).buffer, ((constructKey key).chain, 0)⟩
  reset := fun o => ⟨o.buffer.clear, (resetState o.chain.1, 0)⟩
  addData := addData 8 (implW C)
  finalize := finalizeW C D
  toArray := fun o => toArray o.real

end SipHash

namespace CRC32

/-- the loop over the remaining bytes (crc_32.h:877-885) -/
def tailLoopW (data : List Byte) : (fuel processed : Nat) → W32 × Nat → Except Fault (W32 × Nat)
  | 0, processed, h => if processed < data.length then .error .assertion else .ok h
  | fuel + 1, processed, h =>
    if processed < data.length then
      match data[processed]? with
      | some x => tailLoopW data fuel (processed + 1) (tick tailByte h x)
      | none => .error .spanBounds
    else .ok h

/-- crc_32.h:824-886 -/
def addDataW (h : W32 × Nat) (data : List Byte) : Except Fault (W32 × Nat) := do
  let h ← forBlocks 16 (tick body) data h
  tailLoopW data data.length (data.length / 16 * 16) h

/-- `class CRC_32`; both loops are counted (crc_32.h:92-692) -/
def CRC_32W : API (W32 × Nat) where
  fresh := (reset 0, 0)
  reset := fun h => (reset h.1, 0)
  addData := addDataW
  finalize := fun h => .ok (~~~ h.1, h.2)
  toArray := fun h => resultArray 4 (storeBE 4 h.1)

end CRC32

namespace FNV

/-- `FNVHash<DigestType, Variant>` with the runs of the loop of `addDataImpl` (fnv.h:273-316) counted -/
def FNVHashW (w variant : Nat) : API (BitVec w × Nat) where
  fresh := (reset variant 0, 0)
  reset := fun h => (reset variant h.1, 0)
  addData := fun h data => .ok (data.foldl (tick (body variant)) h)
  finalize := fun h => .ok h
  toArray := fun h => resultArray (w / 8) (storeBE (w / 8) h.1)

end FNV

end Model
end Verif
