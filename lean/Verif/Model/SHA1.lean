import Verif.Core.Stream
import Verif.Model.SHA1Calls

/-! # sha1.h -/

namespace Verif.Model.SHA1

/-- The local variables of the loop body: `a` .. `e` and `wTable` (sha1.h:453-459). -/
structure Locals where
  r : Vector W32 5
  w : Vector W32 80

/-- first statement of the macro: the assignment to `wTable[t]` (sha1.h:465, 492, 507, 530, 549,
580). -/
def sched (m : Block 64) (rnd : Round) (t : Fin 80) (w : Vector W32 80) : W32 :=
  match rnd with
  | .r1 => if h : t.val < 16 then loadBE32 m t.val else 0
  | .r1a => rotl (w[t.val - 3] ^^^ w[t.val - 8] ^^^ w[t.val - 14] ^^^ w[t.val - 16]) 1
  | .r2 => rotl (w[t.val - 3] ^^^ w[t.val - 8] ^^^ w[t.val - 14] ^^^ w[t.val - 16]) 1
  | .r2a => rotl (w[t.val - 6] ^^^ w[t.val - 16] ^^^ w[t.val - 28] ^^^ w[t.val - 32]) 2
  | .r3 => rotl (w[t.val - 6] ^^^ w[t.val - 16] ^^^ w[t.val - 28] ^^^ w[t.val - 32]) 2
  | .r4 => rotl (w[t.val - 6] ^^^ w[t.val - 16] ^^^ w[t.val - 28] ^^^ w[t.val - 32]) 2

/-- the boolean function in the second statement (sha1.h:466, 493, 508, 531, 550, 581) -/
def fn (rnd : Round) (b c d : W32) : W32 :=
  match rnd with
  | .r1 => (b &&& (c ^^^ d)) ^^^ d
  | .r1a => (b &&& (c ^^^ d)) ^^^ d
  | .r2 => b ^^^ c ^^^ d
  | .r2a => b ^^^ c ^^^ d
  | .r3 => (b &&& c) ||| (d &&& (b ||| c))
  | .r4 => b ^^^ c ^^^ d

/-- the additive constant in the second statement (sha1.h:466, 493, 508, 531, 550, 581) -/
def konst : Round → W32
  | .r1 => 0x5A827999
  | .r1a => 0x5A827999
  | .r2 => 0x6ED9EBA1
  | .r2a => 0x6ED9EBA1
  | .r3 => 0x8F1BBCDC
  | .r4 => 0xCA62C1D6

/-- One macro call (sha1.h:464-467). In `sched` the index of `m` is below 16 in every call
(`calls`), and `t - 3` .. `t - 32` do not go below 0 (proved: `Proof.SHA1.calls_eq`). -/
def exec (m : Block 64) (s : Locals) (q : Call) : Locals :=
  let w := s.w.set q.t (sched m q.rnd q.t s.w)
  let e := rotl s.r[q.a] 5 + fn q.rnd s.r[q.b] s.r[q.c] s.r[q.d] + s.r[q.e] + w[q.t] + konst q.rnd
  let r := s.r.set q.e e
  let r := r.set q.b (rotl r[q.b] 30)
  ⟨r, w⟩

/-- Body of the block loop of `addDataImpl` (sha1.h:449-613). -/
def compress (h : Vector W32 5) (m : Block 64) : Vector W32 5 :=
  let s := calls.foldl (exec m) ⟨#v[h[0], h[1], h[2], h[3], h[4]], Vector.replicate 80 0⟩
  #v[h[0] + s.r[0], h[1] + s.r[1], h[2] + s.r[2], h[3] + s.r[3], h[4] + s.r[4]]

/-- sha1.h:295-299 -/
def iv : Vector W32 5 := #v[0x67452301, 0xEFCDAB89, 0x98BADCFE, 0x10325476, 0xC3D2E1F0]

/-- `toArray()` (sha1.h:354-368) -/
def toArray (h : Vector W32 5) : Except Fault (List Byte) :=
  resultArray 20 (h.toList.flatMap (storeBE 4))

/-- `operator==` (sha1.h:229-237): compares `m_state` only. -/
def eq (l r : Obj (2 * 64) (MDState W64 (Vector W32 5))) : Bool := l.chain.h == r.chain.h

/-- `class SHA1`: BLOCK_SIZE 64, 8-byte big-endian length (sha1.h:302-326). -/
def SHA1 : API (Obj (2 * 64) (MDState W64 (Vector W32 5))) :=
  mdApi 64 8 0x80 counterBE64 compress iv toArray

end Verif.Model.SHA1
