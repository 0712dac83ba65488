import Verif.Core.Stream
import Verif.Model.SHA3Tables

/-! # sha3.h: `Keccak<R, P>` and its aliases -/

namespace Verif.Model.SHA3

/-- What `R` must satisfy for the accesses of the code to stay inside `m_state` (200 bytes) and for
the squeeze loop to make progress; true of every alias at the end of sha3.h and cshake.h. sha3.h:614-630,
cshake.h:345-346. -/
class RateOK (R : Nat) : Prop where
  pos : 0 < R
  le : R ≤ 200

instance : RateOK 144 := ⟨by decide, by decide⟩
instance : RateOK 136 := ⟨by decide, by decide⟩
instance : RateOK 104 := ⟨by decide, by decide⟩
instance : RateOK 72 := ⟨by decide, by decide⟩
instance : RateOK 168 := ⟨by decide, by decide⟩

/-- `m_state[5][5]`, flattened: `m_state[y][x]` is entry `5 y + x`, as `statePtr` and `stateToVector`
see it (sha3.h:274, 476-477, 588). -/
abbrev State := Vector W64 25

/-- theta (sha3.h:482-511) -/
def theta (s : State) : State :=
  let c : Vector W64 5 := #v[
    s[5 * 0 + 0] ^^^ s[5 * 1 + 0] ^^^ s[5 * 2 + 0] ^^^ s[5 * 3 + 0] ^^^ s[5 * 4 + 0],
    s[5 * 0 + 1] ^^^ s[5 * 1 + 1] ^^^ s[5 * 2 + 1] ^^^ s[5 * 3 + 1] ^^^ s[5 * 4 + 1],
    s[5 * 0 + 2] ^^^ s[5 * 1 + 2] ^^^ s[5 * 2 + 2] ^^^ s[5 * 3 + 2] ^^^ s[5 * 4 + 2],
    s[5 * 0 + 3] ^^^ s[5 * 1 + 3] ^^^ s[5 * 2 + 3] ^^^ s[5 * 3 + 3] ^^^ s[5 * 4 + 3],
    s[5 * 0 + 4] ^^^ s[5 * 1 + 4] ^^^ s[5 * 2 + 4] ^^^ s[5 * 3 + 4] ^^^ s[5 * 4 + 4]]
  let d : Vector W64 5 := #v[
    c[4] ^^^ rotl c[1] 1,
    c[0] ^^^ rotl c[2] 1,
    c[1] ^^^ rotl c[3] 1,
    c[2] ^^^ rotl c[4] 1,
    c[3] ^^^ rotl c[0] 1]
  forRange 0 5 s fun y _ _ s =>
    let s := s.set (5 * y + 0) (s[5 * y + 0] ^^^ d[0])
    let s := s.set (5 * y + 1) (s[5 * y + 1] ^^^ d[1])
    let s := s.set (5 * y + 2) (s[5 * y + 2] ^^^ d[2])
    let s := s.set (5 * y + 3) (s[5 * y + 3] ^^^ d[3])
    s.set (5 * y + 4) (s[5 * y + 4] ^^^ d[4])

/-- rho, pi and chi (sha3.h:512-561) -/
def rhoPiChi (s : State) : State :=
  let t := tmp s
  forRange 0 5 s fun y _ _ s =>
    let s := s.set (5 * y + 0) (t[5 * y + 0] ^^^ ((~~~ t[5 * y + 1]) &&& t[5 * y + 2]))
    let s := s.set (5 * y + 1) (t[5 * y + 1] ^^^ ((~~~ t[5 * y + 2]) &&& t[5 * y + 3]))
    let s := s.set (5 * y + 2) (t[5 * y + 2] ^^^ ((~~~ t[5 * y + 3]) &&& t[5 * y + 4]))
    let s := s.set (5 * y + 3) (t[5 * y + 3] ^^^ ((~~~ t[5 * y + 4]) &&& t[5 * y + 0]))
    s.set (5 * y + 4) (t[5 * y + 4] ^^^ ((~~~ t[5 * y + 0]) &&& t[5 * y + 1]))

/-- iota (sha3.h:562-573) -/
def iota (indexRound : Nat) (h : indexRound < 24) (s : State) : State :=
  s.set 0 (s[0] ^^^ roundConstantTable[indexRound])

/-- the 24 rounds (sha3.h:480, 575-581) -/
def permute (s : State) : State :=
  forRange 0 24 s fun i _ h s => iota i h (rhoPiChi (theta s))

/-- the xor loop (sha3.h:474-478) -/
def xorBlock {R : Nat} [hR : RateOK R] (s : State) (m : Block R) : State :=
  forRange 0 (R / 8) s fun i _ h s =>
    have := hR.le
    s.set i (s[i] ^^^ loadLE64 m i)

/-- body of the block loop of `addDataImpl` (sha3.h:472-582) -/
def body {R : Nat} [RateOK R] (s : State) (m : Block R) : State := permute (xorBlock s m)

/-- `addDataImpl` as a function of `m_state` (sha3.h:467-583) -/
def absorb (R : Nat) [RateOK R] (s : State) (data : List Byte) : Except Fault State := do
  if data.length % R ≠ 0 then throw .assertion
  forBlocks R body data s

/-- `m_state` and `m_final` (sha3.h:270-272) -/
structure KState where
  state : State
  final : List Byte
  deriving DecidableEq

/-- `addDataImpl` (sha3.h:467-583) -/
def impl (R : Nat) [RateOK R] (s : KState) (data : List Byte) : Except Fault KState := do
  let st ← absorb R s.state data
  return { s with state := st }

/-- `stateToVector()` (sha3.h:585-600) -/
def stateToVector (s : State) : List Byte := s.toList.flatMap (storeLE 8)

theorem stateToVector_length (s : State) : (stateToVector s).length = 200 := by
  unfold stateToVector
  rw [List.length_flatMap]
  have : (List.map (fun a : W64 => (storeLE 8 a).length) s.toList) = List.replicate 25 8 := by
    rw [List.eq_replicate_iff]
    simp [storeLE]
  rw [this]
  rfl

/-- the squeeze loop of `finalize()` (sha3.h:348-357) -/
def squeeze (R : Nat) [hR : RateOK R] (digestLength : Nat) (s : KState) : Except Fault KState :=
  let state := stateToVector s.state
  -- state.begin() + R must not go past the end
  if _h : R ≤ state.length then
    let final := s.final ++ state.take R
    if _hf : final.length ≥ digestLength then .ok ⟨s.state, final⟩
    else
      match absorb R s.state (List.replicate R 0) with
      | .error e => .error e
      | .ok st => squeeze R digestLength ⟨st, final⟩
  else .error .spanBounds
termination_by digestLength - s.final.length
decreasing_by
  have := hR.pos
  have := hR.le
  have := stateToVector_length s.state
  simp only [ge_iff_le, Nat.not_le, final, List.length_append, List.length_take, state] at *
  omega

/-- `finalize()` (sha3.h:334-361); `m_digestLength` is not negative here, see `construct` -/
def finalize (R : Nat) [RateOK R] (P : Byte) (digestLength : Nat) (o : Obj R KState) :
    Except Fault (Obj R KState) := do
  let b ← o.buffer.fill P
  let len := (2 * R - b.size) % R
  let b ← b.fill 0 len
  let last ← b.getAt (b.size - 1)
  let b ← b.setAt (b.size - 1) (last ||| 0x80)
  let c ← impl R o.chain b.contents
  let c ← squeeze R digestLength c
  -- m_final.resize(m_digestLength)
  let final := c.final.take digestLength ++ List.replicate (digestLength - c.final.length) 0
  return ⟨b.clear, { c with final := final }⟩

/-- `reset()` (sha3.h:322-331) -/
def init : KState := ⟨Vector.replicate 25 0, []⟩

/-- `toVector()` (sha3.h:384-388) -/
def toVector {N : Nat} (o : Obj N KState) : Except Fault (List Byte) := .ok o.chain.final

/-- `operator==` (sha3.h:234-245) -/
def eq {N : Nat} (l r : Obj N KState) : Bool := l.chain.state == r.chain.state

/-- `Keccak<R, P>(digestLength)` (sha3.h:309-320), for a digest length that is not negative -/
def Keccak (R : Nat) [RateOK R] (P : Byte) (digestLength : Nat) : API (Obj R KState) :=
  blockApi R (impl R) init (finalize R P digestLength) toVector

/-- The constructor (sha3.h:309-320): `m_final.reserve(m_digestLength)` throws `length_error` when the
negative `int` becomes a huge `size_t`. -/
def construct (R : Nat) [RateOK R] (P : Byte) (digestLength : Int) : Except Fault (API (Obj R KState)) :=
  if digestLength < 0 then .error .badLength else .ok (Keccak R P digestLength.toNat)

/-! sha3.h:614-617, 629-630 -/
/-- `SHA3_224` (sha3.h:614) -/
def SHA3_224 : API (Obj 144 KState) := Keccak 144 0x06 28
/-- `SHA3_256` (sha3.h:615) -/
def SHA3_256 : API (Obj 136 KState) := Keccak 136 0x06 32
/-- `SHA3_384` (sha3.h:616) -/
def SHA3_384 : API (Obj 104 KState) := Keccak 104 0x06 48
/-- `SHA3_512` (sha3.h:617) -/
def SHA3_512 : API (Obj 72 KState) := Keccak 72 0x06 64
/-- `SHAKE_128` (sha3.h:629) -/
def SHAKE_128 (d : Nat) : API (Obj 168 KState) := Keccak 168 0x1F d
/-- `SHAKE_256` (sha3.h:630) -/
def SHAKE_256 (d : Nat) : API (Obj 136 KState) := Keccak 136 0x1F d

end Verif.Model.SHA3
