import Verif.Model.HAS160
import Verif.Model.HASV

/-!
# Variables declared without an initialiser

In the headers and the unfinished class these are: `xTable` (has_160.h:461), `xTable`, `yTable`, `ret`, `buf`
(has_v_320.cpp:127, 147, 242-243) and the members `m_sizeCounter`, `m_h` (has_v_320.h:54-56). Here an element is
`none` until something is assigned to it, and an expression that reads such an element has no value: the functions
return `none`, as the C++ is then undefined. (All other variables have initialisers or class types with a default
constructor. `crc32LUT` at crc_32.h:843 is in a disabled part, modelled as well.)
-/

namespace Verif.Model.HAS160

/-- has_160.h:461-463 -/
def loadXU (x : Block 64) : Vector (Option W32) 20 :=
  forRange 0 16 (Vector.replicate 20 none) fun j _ h xt => xt.set j (some (loadLE32 x j))

/-- `xTable[g] = xTable[lTable[a]] ^ xTable[lTable[b]] ^ xTable[lTable[c]] ^ xTable[lTable[d]]` (has_160.h:467-470) -/
def assignU (g a b c d : Nat) (hg : g < 20) (ha : a < 80) (hb : b < 80) (hc : c < 80) (hd : d < 80)
    (xt : Vector (Option W32) 20) : Option (Vector (Option W32) 20) := do
  return xt.set g (some ((← xt[lTable[a]]) ^^^ (← xt[lTable[b]]) ^^^ (← xt[lTable[c]]) ^^^ (← xt[lTable[d]])))

/-- lambda `extendXTable` (has_160.h:465-471) -/
def extendU (n : Nat) (h : n + 19 < 80) (xt : Vector (Option W32) 20) : Option (Vector (Option W32) 20) := do
  let xt ← assignU 16 (n + 1) (n + 2) (n + 3) (n + 4) (by omega) (by omega) (by omega) (by omega) (by omega) xt
  let xt ← assignU 17 (n + 6) (n + 7) (n + 8) (n + 9) (by omega) (by omega) (by omega) (by omega) (by omega) xt
  let xt ← assignU 18 (n + 11) (n + 12) (n + 13) (n + 14) (by omega) (by omega) (by omega) (by omega) (by omega) xt
  assignU 19 (n + 16) (n + 17) (n + 18) (n + 19) (by omega) (by omega) (by omega) (by omega) (by omega) xt

/-- One call of `round1` .. `round4` (has_160.h:479-484). -/
def execU (xt : Vector (Option W32) 20) (r : Vector W32 5) (q : Call) : Option (Vector W32 5) := do
  let e := rotl r[q.a] q.s1 + fn q.rnd r[q.b] r[q.c] r[q.d] + r[q.e] + (← xt[lTable[q.t]]) + konst q.rnd
  let r := r.set q.e e
  return r.set q.b (rotl r[q.b] (rotB q.rnd))

/-- has_160.h:485-591 -/
def roundsU (xt : Vector (Option W32) 20) (r : Vector W32 5) : Option (Vector W32 5) := do
  let xt ← extendU 0 (by decide) xt
  let r ← seg0.foldlM (execU xt) r
  let xt ← extendU 20 (by decide) xt
  let r ← seg1.foldlM (execU xt) r
  let xt ← extendU 40 (by decide) xt
  let r ← seg2.foldlM (execU xt) r
  let xt ← extendU 60 (by decide) xt
  seg3.foldlM (execU xt) r

/-- Body of the block loop of `addDataImpl` (has_160.h:449-597). -/
def compressU (h : Vector W32 5) (x : Block 64) : Option (Vector W32 5) := do
  let r ← roundsU (loadXU x) #v[h[0], h[1], h[2], h[3], h[4]]
  return #v[h[0] + r[0], h[1] + r[1], h[2] + r[2], h[3] + r[3], h[4] + r[4]]

end Verif.Model.HAS160

namespace Verif.Model.HASV

/-- the local variables (has_v_320.cpp:242-243, 270-286) -/
structure VarsU where
  r : Vector W32 10
  x : Vector (Option W32) 20
  y : Vector (Option W32) 20

/-- one assignment of `extendTable` (has_v_320.cpp:262-265) -/
def assignU (n : Fin 5) (g : Nat) (a b c d : Fin 16) (hg : g < 20) (t : Vector (Option W32) 20) :
    Option (Vector (Option W32) 20) := do
  let l (i : Fin 16) : Fin 16 := lut[16 * n.val + i.val]
  return t.set g (some ((← t[l a]) ^^^ (← t[l b]) ^^^ (← t[l c]) ^^^ (← t[l d])))

/-- `extendTable` (has_v_320.cpp:250-266) -/
def extendU (n : Fin 5) (t : Vector (Option W32) 20) : Option (Vector (Option W32) 20) := do
  let t ← assignU n 16 0 1 2 3 (by decide) t
  let t ← assignU n 17 4 5 6 7 (by decide) t
  let t ← assignU n 18 8 9 10 11 (by decide) t
  assignU n 19 12 13 14 15 (by decide) t

/-- `lineLeft`, `lineRight` (has_v_320.cpp:275-279, 286-290) -/
def lineU (t : Vector (Option W32) 20) (a b c d e : Fin 10) (f : Fin 5) (k : W32) (j : Fin 100) (r : Vector W32 10) :
    Option (Vector W32 10) := do
  let v := rotl r[a] (sTable[j.val % 20]'(by omega)) + fn f r[b] r[c] r[d] r[e] + (← t[mTable[j]]) + k
  let r := r.set e v
  return r.set b (rotl r[b] 30)

/-- one statement (has_v_320.cpp:250-300) -/
def execU (s : VarsU) : Stmt → Option VarsU
  | .extend false n => do return { s with x := ← extendU n s.x }
  | .extend true n => do return { s with y := ← extendU n s.y }
  | .line false a b c d e f k j => do return { s with r := ← lineU s.x a b c d e f k j s.r }
  | .line true a b c d e f k j => do return { s with r := ← lineU s.y a b c d e f k j s.r }
  | .swap => some { s with r := #v[s.r[5], s.r[6], s.r[7], s.r[8], s.r[9], s.r[0], s.r[1], s.r[2], s.r[3], s.r[4]] }

/-- has_v_320.cpp:242-248, 270-274, 281-285 -/
def startU (h : Vector W32 10) (m : Block 128) : VarsU where
  r := h
  x := forRange 0 16 (Vector.replicate 20 none) fun i _ hi t => t.set i (some (loadLE32 m (0 + i)))
  y := forRange 0 16 (Vector.replicate 20 none) fun i _ hi t => t.set i (some (loadLE32 m (16 + i)))

/-- body of the block loop of `addDataImpl` (has_v_320.cpp:203-807), as compiled -/
def compressU (h : Vector W32 10) (m : Block 128) : Option (Vector W32 10) := do
  return feed h (← active.foldlM execU (startU h m)).r

/-- the same with the part that `#if 0` disables (has_v_320.cpp:302-547) -/
def compressDisabledU (h : Vector W32 10) (m : Block 128) : Option (Vector W32 10) := do
  return feedDisabled h (← disabled.foldlM execU (startU h m)).r

/-- the members of the class (has_v_320.h:53-56); `m_buffer` has a default constructor -/
structure Members where
  buffer : List Byte
  sizeCounter : Option W64
  h : Vector (Option W32) 10

/-- `reset()` (has_v_320.cpp:73-88) -/
def resetU (o : Members) : Members :=
  let o := { o with buffer := [] }
  let o := { o with sizeCounter := some 0 }
  let o := { o with h := o.h.set 0 (some 0x67452301) }
  let o := { o with h := o.h.set 1 (some 0xEFCDAB89) }
  let o := { o with h := o.h.set 2 (some 0x98BADCFE) }
  let o := { o with h := o.h.set 3 (some 0x10325476) }
  let o := { o with h := o.h.set 4 (some 0xC3D2E1F0) }
  let o := { o with h := o.h.set 5 (some 0x8796A5B4) }
  let o := { o with h := o.h.set 6 (some 0x4B5A6978) }
  let o := { o with h := o.h.set 7 (some 0x0F1E2D3C) }
  let o := { o with h := o.h.set 8 (some 0xA0B1C2D3) }
  { o with h := o.h.set 9 (some 0x68794E5F) }

/-- the members when the body of the constructor begins (has_v_320.cpp:67) -/
def raw : Members := ⟨[], none, Vector.replicate 10 none⟩

/-- `HAS_V_320()` (has_v_320.cpp:67-71); `reserve` does not change the contents of the buffer -/
def constructU : Members := resetU raw

/-- one assignment `ret[retCounter++] = b` of `toArray()` (has_v_320.cpp:151). An index outside the array is `none`, too. -/
def putU (s : Nat × List (Option Byte)) (b : Byte) : Option (Nat × List (Option Byte)) :=
  if s.1 < s.2.length then some (s.1 + 1, s.2.set s.1 (some b)) else none

/-- `toArray()` (has_v_320.cpp:141-156): the members are read, the array returned is all read by the caller -/
def toArrayU (h : Vector (Option W32) 10) : Option (List Byte) := do
  let s ← h.toList.foldlM (fun s i => do
    let i ← i
    (List.range 4).foldlM (fun s j => putU s (ror 8 i (j * 8))) s) (0, List.replicate 40 none)
  s.2.mapM id

/-- Reading a C string: the characters before the terminating zero. `append(buf)`, has_v_320.cpp:129. -/
def cString : List (Option Char) → Option (List Char)
  | [] => none
  | none :: _ => none
  | some c :: l => if c = '\x00' then some [] else do return c :: (← cString l)

/-- `char buf[3]; snprintf(buf, sizeof(buf), "%02x", c); ret.append(buf)` (has_v_320.cpp:127-129); `snprintf` stores the
text and a zero -/
def appendHexU (ret : List Char) (c : Byte) : Option (List Char) := do
  let buf : List (Option Char) := List.replicate 3 none
  let text := (snprintf02x 3 c.toNat).map some ++ [some '\x00']
  let buf := text ++ buf.drop text.length
  return ret ++ (← cString buf)

/-- `toString()` (has_v_320.cpp:120-133) -/
def toStringU (h : Vector (Option W32) 10) : Option (List Char) := do
  (← toArrayU h).foldlM appendHexU []

end Verif.Model.HASV

namespace Verif.Model.CRC32

/-- `table[0][i]` of the disabled `generateLUT` (crc_32.h:831-834) -/
def generate0 (polynomial : W32) (i : Nat) : W32 :=
  forRange 0 8 (BitVec.ofNat 32 i) fun _ _ _ crc => (crc >>> 1) ^^^ ((crc &&& 1) * polynomial)

theorem low_lt (x : W32) : (x &&& 0xFF).toNat < 256 := by
  rw [BitVec.toNat_and]
  exact Nat.lt_of_le_of_lt Nat.and_le_right (by decide)

/-- the lambda `generateLUT` (crc_32.h:827-841), which `#if 0` disables; `table[s][i]` is element `256 s + i` of the array -/
def generateLUT (polynomial : W32) (table : Vector (Option W32) 4096) : Option (Vector (Option W32) 4096) :=
  let table := forRange 0 256 table fun i _ _ table => table.set i (some (generate0 polynomial i))
  forRange 0 256 (some table) fun i _ _ table =>
    forRange 1 16 table fun slice _ _ table => do
      let table ← table
      let before ← table[256 * (slice - 1) + i]
      let first ← table[(before &&& 0xFF).toNat]'(by have := low_lt before; omega)
      return table.set (256 * slice + i) (some ((before >>> 8) ^^^ first))

/-- `crc32LUT[s][b]` (crc_32.h:858-873, 882) -/
def entryU (table : Vector (Option W32) 4096) (s : Fin 16) (b : Byte) : Option W32 :=
  table[256 * s.val + b.toNat]'(by have := b.isLt; omega)

/-- loop body of the 16-byte stride (crc_32.h:849-875) with such a table -/
def bodyU (table : Vector (Option W32) 4096) (h : W32) (m : Block 16) : Option W32 := do
  let a := loadLE32 m 0 ^^^ h
  let b := loadLE32 m 1
  let c := loadLE32 m 2
  let d := loadLE32 m 3
  return (← entryU table 0 (ror 8 d 24))
  ^^^ (← entryU table 1 (ror 8 d 16))
  ^^^ (← entryU table 2 (ror 8 d 8))
  ^^^ (← entryU table 3 (ror 8 d 0))
  ^^^ (← entryU table 4 (ror 8 c 24))
  ^^^ (← entryU table 5 (ror 8 c 16))
  ^^^ (← entryU table 6 (ror 8 c 8))
  ^^^ (← entryU table 7 (ror 8 c 0))
  ^^^ (← entryU table 8 (ror 8 b 24))
  ^^^ (← entryU table 9 (ror 8 b 16))
  ^^^ (← entryU table 10 (ror 8 b 8))
  ^^^ (← entryU table 11 (ror 8 b 0))
  ^^^ (← entryU table 12 (ror 8 a 24))
  ^^^ (← entryU table 13 (ror 8 a 16))
  ^^^ (← entryU table 14 (ror 8 a 8))
  ^^^ (← entryU table 15 (ror 8 a 0))

/-- body of the loop over the remaining bytes (crc_32.h:880-884) with such a table -/
def tailByteU (table : Vector (Option W32) 4096) (h : W32) (x : Byte) : Option W32 := do
  return (h >>> 8) ^^^ (← entryU table 0 (ror 8 h 0 ^^^ x))

end Verif.Model.CRC32
