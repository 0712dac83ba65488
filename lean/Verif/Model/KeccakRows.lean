import Verif.Model.SHA3

/-!
# sha3.h with its state as it is: five rows of five lanes

`Model/SHA3.lean` keeps the lanes in one list of 25. The class has `uint64_t m_state[5][5]` (sha3.h:272). Most accesses
name row and column. Two do not: they make a pointer to a lane out of the array of rows and count on from there
(sha3.h:477-478, 588). How far such a pointer reaches is a parameter here.
-/

namespace Verif.Model.SHA3.Rows

/-- `m_state[5][5]`, `[y][x]` (sha3.h:272) -/
abbrev Rows := Vector (Vector W64 5) 5

/-- `m_state[y][x] = v` (sha3.h:330, 504-508, 555-559, 572) -/
def put (s : Rows) (y x : Nat) (v : W64) (hy : y < 5 := by omega) (hx : x < 5 := by omega) : Rows :=
  s.set y (s[y].set x v)

/-- How many lanes can be reached from the pointer `reinterpret_cast<uint64_t *>(m_state)` (sha3.h:477, 588). -/
structure Pointer where
  reach : Nat

/-- the pointer reaches the whole object, as compilers have it. sha3.h:477, 588. -/
def wholeObject : Pointer := ⟨25⟩
/-- the pointer reaches the array its element belongs to, the first row, as the C++ standard has it ([expr.add]).
sha3.h:477, 588. -/
def oneRow : Pointer := ⟨5⟩

/-- `statePtr[i]` read (sha3.h:478, 593) -/
def Pointer.read (p : Pointer) (s : Rows) (i : Nat) : Except Fault W64 :=
  if h : i < p.reach ∧ i < 25 then
    have := h.2
    .ok (s[i / 5][i % 5])
  else .error .bufferOverrun

/-- `statePtr[i]` written (sha3.h:478) -/
def Pointer.write (p : Pointer) (s : Rows) (i : Nat) (v : W64) : Except Fault Rows :=
  if h : i < p.reach ∧ i < 25 then
    have := h.2
    .ok (put s (i / 5) (i % 5) v)
  else .error .bufferOverrun

/-- the xor loop (sha3.h:474-479) -/
def xorBlock (p : Pointer) {R : Nat} (s : Rows) (m : Block R) : Except Fault Rows :=
  forRange 0 (R / 8) (.ok s) fun i _ h acc => do
    let s ← acc
    let v ← p.read s i
    p.write s i (v ^^^ loadLE64 m i)

/-- theta (sha3.h:483-510) -/
def theta (s : Rows) : Rows :=
  let c : Vector W64 5 := #v[
    s[0][0] ^^^ s[1][0] ^^^ s[2][0] ^^^ s[3][0] ^^^ s[4][0],
    s[0][1] ^^^ s[1][1] ^^^ s[2][1] ^^^ s[3][1] ^^^ s[4][1],
    s[0][2] ^^^ s[1][2] ^^^ s[2][2] ^^^ s[3][2] ^^^ s[4][2],
    s[0][3] ^^^ s[1][3] ^^^ s[2][3] ^^^ s[3][3] ^^^ s[4][3],
    s[0][4] ^^^ s[1][4] ^^^ s[2][4] ^^^ s[3][4] ^^^ s[4][4]]
  let d : Vector W64 5 := #v[
    c[4] ^^^ rotl c[1] 1,
    c[0] ^^^ rotl c[2] 1,
    c[1] ^^^ rotl c[3] 1,
    c[2] ^^^ rotl c[4] 1,
    c[3] ^^^ rotl c[0] 1]
  forRange 0 5 s fun y _ _ s =>
    let s := put s y 0 (s[y][0] ^^^ d[0])
    let s := put s y 1 (s[y][1] ^^^ d[1])
    let s := put s y 2 (s[y][2] ^^^ d[2])
    let s := put s y 3 (s[y][3] ^^^ d[3])
    put s y 4 (s[y][4] ^^^ d[4])

/-- `tmp[5][5]` (sha3.h:514-551); `m_params.w` is 64 -/
def tmp (s : Rows) : Rows := #v[
    #v[rotl s[0][0] (0 % 64), rotl s[1][1] (300 % 64), rotl s[2][2] (171 % 64), rotl s[3][3] (21 % 64), rotl s[4][4] (78 % 64)],
    #v[rotl s[0][3] (28 % 64), rotl s[1][4] (276 % 64), rotl s[2][0] (3 % 64), rotl s[3][1] (45 % 64), rotl s[4][2] (253 % 64)],
    #v[rotl s[0][1] (1 % 64), rotl s[1][2] (6 % 64), rotl s[2][3] (153 % 64), rotl s[3][4] (136 % 64), rotl s[4][0] (210 % 64)],
    #v[rotl s[0][4] (91 % 64), rotl s[1][0] (36 % 64), rotl s[2][1] (10 % 64), rotl s[3][2] (15 % 64), rotl s[4][3] (120 % 64)],
    #v[rotl s[0][2] (190 % 64), rotl s[1][3] (55 % 64), rotl s[2][4] (231 % 64), rotl s[3][0] (105 % 64), rotl s[4][1] (66 % 64)]]

/-- rho, pi and chi (sha3.h:511-561) -/
def rhoPiChi (s : Rows) : Rows :=
  let t := tmp s
  forRange 0 5 s fun y _ _ s =>
    let s := put s y 0 (t[y][0] ^^^ ((~~~ t[y][1]) &&& t[y][2]))
    let s := put s y 1 (t[y][1] ^^^ ((~~~ t[y][2]) &&& t[y][3]))
    let s := put s y 2 (t[y][2] ^^^ ((~~~ t[y][3]) &&& t[y][4]))
    let s := put s y 3 (t[y][3] ^^^ ((~~~ t[y][4]) &&& t[y][0]))
    put s y 4 (t[y][4] ^^^ ((~~~ t[y][0]) &&& t[y][1]))

/-- iota (sha3.h:562-573) -/
def iota (indexRound : Nat) (h : indexRound < 24) (s : Rows) : Rows :=
  put s 0 0 (s[0][0] ^^^ roundConstantTable[indexRound])

/-- the 24 rounds (sha3.h:481, 575-581) -/
def permute (s : Rows) : Rows := forRange 0 24 s fun i _ h s => iota i h (rhoPiChi (theta s))

/-- `addDataImpl` as a function of `m_state` (sha3.h:467-583) -/
def absorb (p : Pointer) (R : Nat) (s : Rows) (data : List Byte) : Except Fault Rows := do
  if data.length % R ≠ 0 then throw .assertion
  (List.range (data.length / R)).foldlM (fun s i => do
    let m ← blockAt R data (i * R)
    let s ← xorBlock p s m
    return permute s) s

/-- `m_state` and `m_final` (sha3.h:270-272) -/
structure RState where
  state : Rows
  final : List Byte

/-- `addDataImpl` (sha3.h:467-583) -/
def impl (p : Pointer) (R : Nat) (s : RState) (data : List Byte) : Except Fault RState := do
  let st ← absorb p R s.state data
  return { s with state := st }

/-- `stateToVector()` (sha3.h:585-600) -/
def stateToVector (p : Pointer) (s : Rows) : Except Fault (List Byte) := do
  let lanes ← (List.range 25).mapM fun i => p.read s i
  return lanes.flatMap (storeLE 8)

/-- the squeeze loop of `finalize()` (sha3.h:348-357) -/
def squeeze (p : Pointer) (R : Nat) [hR : RateOK R] (digestLength : Nat) (s : RState) : Except Fault RState :=
  match stateToVector p s.state with
  | .error e => .error e
  | .ok state =>
    if _h : R ≤ state.length then
      let final := s.final ++ state.take R
      if _hf : final.length ≥ digestLength then .ok ⟨s.state, final⟩
      else
        match absorb p R s.state (List.replicate R 0) with
        | .error e => .error e
        | .ok st => squeeze p R digestLength ⟨st, final⟩
    else .error .spanBounds
termination_by digestLength - s.final.length
decreasing_by
  have := hR.pos
  simp only [ge_iff_le, Nat.not_le, final, List.length_append, List.length_take] at *
  omega

/-- `finalize()` (sha3.h:334-361) -/
def finalize (p : Pointer) (R : Nat) [RateOK R] (P : Byte) (digestLength : Nat) (o : Obj R RState) :
    Except Fault (Obj R RState) := do
  let b ← o.buffer.fill P
  let len := (2 * R - b.size) % R
  let b ← b.fill 0 len
  let last ← b.getAt (b.size - 1)
  let b ← b.setAt (b.size - 1) (last ||| 0x80)
  let c ← impl p R o.chain b.contents
  let c ← squeeze p R digestLength c
  let final := c.final.take digestLength ++ List.replicate (digestLength - c.final.length) 0
  return ⟨b.clear, { c with final := final }⟩

/-- `reset()` (sha3.h:322-331): the loops over `y` and `x`, on whatever is in the array -/
def zero (s : Rows) : Rows :=
  forRange 0 5 s fun y _ _ s => forRange 0 5 s fun x _ _ s => put s y x 0

/-- `m_state[5][5] = {}` (sha3.h:272) -/
def init : RState := ⟨Vector.replicate 5 (Vector.replicate 5 0), []⟩

/-- `Keccak<R, P>(digestLength)` (sha3.h:309-361, 384-388, 413-446), for a digest length that is not negative -/
def Keccak (p : Pointer) (R : Nat) [RateOK R] (P : Byte) (digestLength : Nat) : API (Obj R RState) where
  fresh := ⟨{}, init⟩
  reset := fun o => ⟨o.buffer.clear, ⟨zero o.chain.state, []⟩⟩
  addData := addData R (impl p R)
  finalize := finalize p R P digestLength
  toArray := fun o => .ok o.chain.final

/-- `operator==` (sha3.h:234-245): the loops return at the first lane that differs -/
def eq {N : Nat} (l r : Obj N RState) : Bool :=
  (List.finRange 5).all fun y => (List.finRange 5).all fun x => l.chain.state[y][x] == r.chain.state[y][x]

end Verif.Model.SHA3.Rows
