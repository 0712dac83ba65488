import Verif.Core.Stream
import Verif.Model.HASVCalls

/-!
# src/unfinished/has_v_320.h and has_v_320.cpp

The buffer is a `std::vector` there; it is modelled by the buffer of the other classes, with room for two blocks
(has_v_320.cpp:69 reserves that much). That this is enough is part of what C49 says.
-/

namespace Verif.Model.HASV

/-- `f0` .. `f4` (has_v_320.cpp:220-239) -/
def fn (i : Fin 5) (x y z u : W32) : W32 :=
  match i with
  | 0 => (x &&& y) ^^^ (~~~x &&& z) ^^^ (y &&& u) ^^^ (z &&& u)
  | 1 => (x &&& z) ^^^ y ^^^ u
  | 2 => (x &&& y) ^^^ (~~~x &&& u) ^^^ z
  | 3 => (y &&& z) ^^^ x ^^^ u
  | 4 => (x &&& z) ^^^ (~~~x &&& y) ^^^ (z &&& u) ^^^ (y &&& u)

/-- the local variables `a` .. `j`, `xTable` and `yTable` (has_v_320.cpp:242-243, 270-286) -/
structure Vars where
  r : Vector W32 10
  x : Vector W32 20
  y : Vector W32 20

/-- `extendTable` (has_v_320.cpp:250-266) -/
def extend (n : Fin 5) (t : Vector W32 20) : Vector W32 20 :=
  let l (i : Fin 16) : Fin 16 := lut[16 * n.val + i.val]
  let t := t.set 16 (t[l 0] ^^^ t[l 1] ^^^ t[l 2] ^^^ t[l 3])
  let t := t.set 17 (t[l 4] ^^^ t[l 5] ^^^ t[l 6] ^^^ t[l 7])
  let t := t.set 18 (t[l 8] ^^^ t[l 9] ^^^ t[l 10] ^^^ t[l 11])
  t.set 19 (t[l 12] ^^^ t[l 13] ^^^ t[l 14] ^^^ t[l 15])

/-- `lineLeft`, `lineRight` (has_v_320.cpp:275-279, 286-290) on the variables with the given numbers -/
def line (t : Vector W32 20) (a b c d e : Fin 10) (f : Fin 5) (k : W32) (j : Fin 100) (r : Vector W32 10) : Vector W32 10 :=
  let v := rotl r[a] (sTable[j.val % 20]'(by omega)) + fn f r[b] r[c] r[d] r[e] + t[mTable[j]] + k
  let r := r.set e v
  r.set b (rotl r[b] 30)

/-- one statement; `swapChainVars` is has_v_320.cpp:292-299 -/
def exec (s : Vars) : Stmt → Vars
  | .extend false n => { s with x := extend n s.x }
  | .extend true n => { s with y := extend n s.y }
  | .line false a b c d e f k j => { s with r := line s.x a b c d e f k j s.r }
  | .line true a b c d e f k j => { s with r := line s.y a b c d e f k j s.r }
  | .swap => { s with r := #v[s.r[5], s.r[6], s.r[7], s.r[8], s.r[9], s.r[0], s.r[1], s.r[2], s.r[3], s.r[4]] }

/-- The variables at the start (has_v_320.cpp:242-248, 270-274, 281-285). `xTable[16..19]`, `yTable[16..19]` are
uninitialised in the C++ at this point; the model starts from zeros. `extendTable` assigns them before any use. -/
def start (h : Vector W32 10) (m : Block 128) : Vars where
  r := h
  x := forRange 0 16 (Vector.replicate 20 0) fun i _ hi t => t.set i (loadLE32 m (0 + i))
  y := forRange 0 16 (Vector.replicate 20 0) fun i _ hi t => t.set i (loadLE32 m (16 + i))

/-- the final additions (has_v_320.cpp:793-802) -/
def feed (h r : Vector W32 10) : Vector W32 10 :=
  #v[h[0] + r[0], h[1] + r[1], h[2] + r[2], h[3] + r[3], h[4] + r[4], h[5] + r[5], h[6] + r[6], h[7] + r[7],
    h[8] + r[8], h[9] + r[9]]

/-- body of the block loop of `addDataImpl` (has_v_320.cpp:203-807), as compiled -/
def compress (h : Vector W32 10) (m : Block 128) : Vector W32 10 := feed h (active.foldl exec (start h m)).r

/-- the final additions of the disabled part (has_v_320.cpp:537-546): the other five variables are added first -/
def feedDisabled (h r : Vector W32 10) : Vector W32 10 :=
  #v[h[0] + r[5], h[1] + r[6], h[2] + r[7], h[3] + r[8], h[4] + r[9], h[5] + r[0], h[6] + r[1], h[7] + r[2],
    h[8] + r[3], h[9] + r[4]]

/-- the body of the block loop with the part that `#if 0` disables (has_v_320.cpp:302-547) -/
def compressDisabled (h : Vector W32 10) (m : Block 128) : Vector W32 10 :=
  feedDisabled h (disabled.foldl exec (start h m)).r

/-- has_v_320.cpp:78-87 -/
def iv : Vector W32 10 := #v[0x67452301, 0xEFCDAB89, 0x98BADCFE, 0x10325476, 0xC3D2E1F0, 0x8796A5B4, 0x4B5A6978,
  0x0F1E2D3C, 0xA0B1C2D3, 0x68794E5F]

/-- the stores of `finalize()` into the last nine bytes (has_v_320.cpp:101-112): the digest length in bytes, then the
number of bits -/
def counter : Counter W64 :=
  { counterLE64 with writes := fun size c => (size - 9, 40) :: counterLE64.writes size c }

/-- `toArray()` (has_v_320.cpp:141-156) -/
def toArray (h : Vector W32 10) : Except Fault (List Byte) := resultArray 40 (h.toList.flatMap (storeLE 4))

/-- `class HAS_V_320` (has_v_320.cpp:67-117, 158-192): BLOCK_SIZE 128, the marker byte, zeros, nine more bytes -/
def HAS_V_320 : API (Obj (2 * 128) (MDState W64 (Vector W32 10))) :=
  mdApi 128 9 (1 <<< 7) counter compress iv toArray

/-- the class with the disabled part (has_v_320.cpp:302-548) -/
def HAS_V_320_disabled : API (Obj (2 * 128) (MDState W64 (Vector W32 10))) :=
  mdApi 128 9 (1 <<< 7) counter compressDisabled iv toArray

/-- `snprintf(buf, size, "%02x", n)` into an array of `size` characters (has_v_320.cpp:127-128): the hexadecimal
digits of the number, zeros in front up to two characters, cut to leave room for the terminating zero. The result is
the text before that zero, which `append(buf)` reads. `Nat.toDigits 16` is taken for the conversion `%x` of the C library. -/
def snprintf02x (size n : Nat) : List Char :=
  let digits := Nat.toDigits 16 n
  (List.replicate (2 - digits.length) '0' ++ digits).take (size - 1)

/-- `toString()` (has_v_320.cpp:120-133); the loop appends to `ret` -/
def toString (o : Obj (2 * 128) (MDState W64 (Vector W32 10))) : Except Fault (List Char) := do
  let a ← HAS_V_320.toArray o
  return a.foldl (fun ret c => ret ++ snprintf02x 3 c.toNat) []

/-- `toVector()` (has_v_320.cpp:135-139) -/
def toVector (o : Obj (2 * 128) (MDState W64 (Vector W32 10))) : Except Fault (List Byte) := do
  let a ← HAS_V_320.toArray o
  return a

end Verif.Model.HASV
