import Verif.Core.Ops
import Verif.Model.SHA1
import Verif.Model.SHA2
import Verif.Model.MD4
import Verif.Model.MD5
import Verif.Model.RIPEMD
import Verif.Model.HAS160
import Verif.Model.HASV
import Verif.Model.SM3
import Verif.Model.BLAKE
import Verif.Model.BLAKE2
import Verif.Model.SHA3
import Verif.Model.SipHash
import Verif.Model.FNV

/-!
# The block functions with the operations they execute

Each definition is the one of the same name of `Model/`, statement by statement, in the monad of Core/Ops.lean. The
classes with data-dependent table lookups (CRC-32, MD2, Tiger, Whirlpool) are not here; see C53.
-/

namespace Verif
open Ops

/-- a Merkle-Damgård style class with a log of the operations of its block function; `reset()` keeps the log (the
classes of `mdApi`, e.g. sha1.h:192-252) -/
def mdApiO {C H : Type} (B L : Nat) (padByte : Byte) (cnt : Counter C) (comp : H → Block B → Ops H)
    (iv : H) (out : H → Except Fault (List Byte)) : API (Obj (2 * B) (MDState C (H × List Instr))) :=
  { mdApi B L padByte cnt (logged comp) (iv, []) (fun h => out h.1) with
    reset := fun o => ⟨o.buffer.clear, ⟨cnt.zero, (iv, o.chain.h.2)⟩⟩ }

/-- the object without the log; not in /repo -/
def mdUnlogged {N : Nat} {C H : Type} (o : Obj N (MDState C (H × List Instr))) : Obj N (MDState C H) :=
  ⟨o.buffer, ⟨o.chain.sizeCounter, o.chain.h.1⟩⟩

/-- the object without the log; not in /repo -/
def Obj.unlogged {N : Nat} {S : Type} (o : Obj N (S × List Instr)) : Obj N S := ⟨o.buffer, o.chain.1⟩

namespace Model

namespace SHA1

/-- sha1.h:465, 492, 507, 530, 549, 580 -/
def schedO (m : Block 64) (rnd : Round) (t : Fin 80) (w : Vector W32 80) : Ops W32 :=
  match rnd with
  | .r1 => if h : t.val < 16 then Ops.loadBE32 m t.val else var 0
  | .r1a | .r2 => Ops.rotl (rd "wTable" w (t.val - 3) ^^^ rd "wTable" w (t.val - 8) ^^^ rd "wTable" w (t.val - 14) ^^^
      rd "wTable" w (t.val - 16)) 1
  | .r2a | .r3 | .r4 => Ops.rotl (rd "wTable" w (t.val - 6) ^^^ rd "wTable" w (t.val - 16) ^^^ rd "wTable" w (t.val - 28) ^^^
      rd "wTable" w (t.val - 32)) 2

/-- sha1.h:466, 493, 508, 531, 550, 581 -/
def fnO (rnd : Round) (b c d : Ops W32) : Ops W32 :=
  match rnd with
  | .r1 | .r1a => (b &&& (c ^^^ d)) ^^^ d
  | .r2 | .r2a | .r4 => b ^^^ c ^^^ d
  | .r3 => (b &&& c) ||| (d &&& (b ||| c))

/-- sha1.h:464-467 -/
def execO (m : Block 64) (s : Locals) (q : Call) : Ops Locals := do
  let w ← wr "wTable" s.w q.t (schedO m q.rnd q.t s.w)
  let e ← Ops.rotl (var s.r[q.a]) 5 + fnO q.rnd (var s.r[q.b]) (var s.r[q.c]) (var s.r[q.d]) + var s.r[q.e] +
    rd "wTable" w q.t + var (konst q.rnd)
  let r := s.r.set q.e e
  let b ← Ops.rotl (var r[q.b]) 30
  pure ⟨r.set q.b b, w⟩

/-- sha1.h:449-613 -/
def compressO (h : Vector W32 5) (m : Block 64) : Ops (Vector W32 5) := do
  let a ← rd "m_state" h 0
  let b ← rd "m_state" h 1
  let c ← rd "m_state" h 2
  let d ← rd "m_state" h 3
  let e ← rd "m_state" h 4
  let s ← fold (execO m) calls ⟨#v[a, b, c, d, e], Vector.replicate 80 0⟩
  stores "m_state" [
    rd "m_state" h 0 + var s.r[0],
    rd "m_state" h 1 + var s.r[1],
    rd "m_state" h 2 + var s.r[2],
    rd "m_state" h 3 + var s.r[3],
    rd "m_state" h 4 + var s.r[4]]

end SHA1

namespace SHA2
variable {w B : Nat}

/-- the parts of `Cfg` that compute (sha2_256.h:475-561, sha2_512.h:546-632) -/
structure CfgO (c : Cfg w B) where
  load : (m : Block B) → (t : Nat) → t < 16 → Ops (BitVec w)
  ssig0 : BitVec w → Ops (BitVec w)
  ssig1 : BitVec w → Ops (BitVec w)
  bsig0 : BitVec w → Ops (BitVec w)
  bsig1 : BitVec w → Ops (BitVec w)

/-- sha2_256.h:519-522 -/
def chO (x y z : BitVec w) : Ops (BitVec w) := (var x &&& (var y ^^^ var z)) ^^^ var z

/-- sha2_256.h:523-526 -/
def majO (x y z : BitVec w) : Ops (BitVec w) := (var x &&& (var y ||| var z)) ||| (var y &&& var z)

/-- sha2_256.h:495-499 -/
def wTableO {c : Cfg w B} (k : CfgO c) (hl : 16 ≤ 8 * c.loops) (m : Block B) : Ops (Vector (BitVec w) (8 * c.loops)) := do
  let wt ← Ops.forRange 0 16 (Vector.replicate _ 0) fun t _ h2 wt => wr "wTable" wt t (k.load m t h2)
  Ops.forRange 16 (8 * c.loops) wt fun t h1 h2 wt =>
    wr "wTable" wt t ((rd "wTable" wt (t - 2) >>= k.ssig1) + rd "wTable" wt (t - 7) + (rd "wTable" wt (t - 15) >>= k.ssig0) +
      rd "wTable" wt (t - 16))

/-- sha2_256.h:511-542: the new values of `d` and `h` -/
def roundO {c : Cfg w B} (k : CfgO c) (a b c' d e f g h : BitVec w) (t : Nat) (ht : t < 8 * c.loops)
    (wt : Vector (BitVec w) (8 * c.loops)) : Ops (BitVec w × BitVec w) := do
  let t1 ← var h + k.bsig1 e + chO e f g + rd "kTable" c.kTable t + rd "wTable" wt t
  let t2 ← k.bsig0 a + majO a b c'
  let h := t1
  let d ← var d + var h
  let h ← var h + var t2
  pure (d, h)

/-- sha2_256.h:543-553 -/
def eightRoundsO {c : Cfg w B} (k : CfgO c) (wt : Vector (BitVec w) (8 * c.loops)) (t : Nat) (ht : t < c.loops)
    (s : Regs w) : Ops (Regs w) := do
  let p0 ← roundO k s.a s.b s.c s.d s.e s.f s.g s.h (8 * t + 0) (by omega) wt
  let p1 ← roundO k p0.2 s.a s.b s.c p0.1 s.e s.f s.g (8 * t + 1) (by omega) wt
  let p2 ← roundO k p1.2 p0.2 s.a s.b p1.1 p0.1 s.e s.f (8 * t + 2) (by omega) wt
  let p3 ← roundO k p2.2 p1.2 p0.2 s.a p2.1 p1.1 p0.1 s.e (8 * t + 3) (by omega) wt
  let p4 ← roundO k p3.2 p2.2 p1.2 p0.2 p3.1 p2.1 p1.1 p0.1 (8 * t + 4) (by omega) wt
  let p5 ← roundO k p4.2 p3.2 p2.2 p1.2 p4.1 p3.1 p2.1 p1.1 (8 * t + 5) (by omega) wt
  let p6 ← roundO k p5.2 p4.2 p3.2 p2.2 p5.1 p4.1 p3.1 p2.1 (8 * t + 6) (by omega) wt
  let p7 ← roundO k p6.2 p5.2 p4.2 p3.2 p6.1 p5.1 p4.1 p3.1 (8 * t + 7) (by omega) wt
  pure ⟨p7.2, p6.2, p5.2, p4.2, p7.1, p6.1, p5.1, p4.1⟩

/-- sha2_256.h:481-563 -/
def compressO {c : Cfg w B} (k : CfgO c) (hl : 16 ≤ 8 * c.loops) (mh : Vector (BitVec w) 8) (m : Block B) :
    Ops (Vector (BitVec w) 8) := do
  let wt ← wTableO k hl m
  let a ← rd "m_h" mh 0
  let b ← rd "m_h" mh 1
  let c' ← rd "m_h" mh 2
  let d ← rd "m_h" mh 3
  let e ← rd "m_h" mh 4
  let f ← rd "m_h" mh 5
  let g ← rd "m_h" mh 6
  let h ← rd "m_h" mh 7
  let s ← Ops.forRange 0 c.loops (⟨a, b, c', d, e, f, g, h⟩ : Regs w) fun t _ ht s => eightRoundsO k wt t ht s
  stores "m_h" [
    rd "m_h" mh 0 + var s.a,
    rd "m_h" mh 1 + var s.b,
    rd "m_h" mh 2 + var s.c,
    rd "m_h" mh 3 + var s.d,
    rd "m_h" mh 4 + var s.e,
    rd "m_h" mh 5 + var s.f,
    rd "m_h" mh 6 + var s.g,
    rd "m_h" mh 7 + var s.h]

/-- sha2_256.h:286-309, 475-561 -/
def cfgO32 : CfgO cfg32 where
  load := fun m t h => Ops.loadBE32 m t
  ssig0 := fun x => Ops.rotr (var x) 7 ^^^ Ops.rotr (var x) 18 ^^^ Ops.ror 32 (var x) 3
  ssig1 := fun x => Ops.rotr (var x) 17 ^^^ Ops.rotr (var x) 19 ^^^ Ops.ror 32 (var x) 10
  bsig0 := fun x => Ops.rotr (var x) 2 ^^^ Ops.rotr (var x) 13 ^^^ Ops.rotr (var x) 22
  bsig1 := fun x => Ops.rotr (var x) 6 ^^^ Ops.rotr (var x) 11 ^^^ Ops.rotr (var x) 25

/-- sha2_512.h:353-380, 546-632 -/
def cfgO64 : CfgO cfg64 where
  load := fun m t h => Ops.loadBE64 m t
  ssig0 := fun x => Ops.rotr (var x) 1 ^^^ Ops.rotr (var x) 8 ^^^ Ops.ror 64 (var x) 7
  ssig1 := fun x => Ops.rotr (var x) 19 ^^^ Ops.rotr (var x) 61 ^^^ Ops.ror 64 (var x) 6
  bsig0 := fun x => Ops.rotr (var x) 28 ^^^ Ops.rotr (var x) 34 ^^^ Ops.rotr (var x) 39
  bsig1 := fun x => Ops.rotr (var x) 14 ^^^ Ops.rotr (var x) 18 ^^^ Ops.rotr (var x) 41

end SHA2

namespace MD4

/-- md4.h:457-461, 479-483, 501-505 -/
def execO (x : Block 64) (r : Vector W32 4) (q : Call) : Ops (Vector W32 4) :=
  let a := var r[q.a]
  let b := var r[q.b]
  let c := var r[q.c]
  let d := var r[q.d]
  match q.rnd with
  | .round1 => do
    let f ← (b &&& (c ^^^ d)) ^^^ d
    let a ← Ops.rotl (a + var f + Ops.loadLE32 x q.k) q.s
    pure (r.set q.a a)
  | .round2 => do
    let g ← (b &&& c) ||| ((b ||| c) &&& d)
    let a ← Ops.rotl (a + var g + Ops.loadLE32 x q.k + var 0x5A827999) q.s
    pure (r.set q.a a)
  | .round3 => do
    let h ← b ^^^ c ^^^ d
    let a ← Ops.rotl (a + var h + Ops.loadLE32 x q.k + var 0x6ED9EBA1) q.s
    pure (r.set q.a a)

/-- md4.h:448-528 -/
def compressO (h : Vector W32 4) (m : Block 64) : Ops (Vector W32 4) := do
  let a ← rd "m_state" h 0
  let b ← rd "m_state" h 1
  let c ← rd "m_state" h 2
  let d ← rd "m_state" h 3
  let r ← fold (execO m) calls #v[a, b, c, d]
  stores "m_state" [
    rd "m_state" h 0 + var r[0],
    rd "m_state" h 1 + var r[1],
    rd "m_state" h 2 + var r[2],
    rd "m_state" h 3 + var r[3]]

end MD4

namespace MD5

/-- md5.h:458-473 -/
def Fn.applyO (x y z : W32) : Fn → Ops W32
  | .f => (var x &&& (var y ^^^ var z)) ^^^ var z
  | .g => var y ^^^ ((var x ^^^ var y) &&& var z)
  | .h => var x ^^^ var y ^^^ var z
  | .ii => var y ^^^ (var x ||| ~~~(var z))

/-- md5.h:480-483 -/
def execO (x : Block 64) (r : Vector W32 4) (q : Call) : Ops (Vector W32 4) := do
  let a ← var r[q.b] + Ops.rotl (var r[q.a] + q.func.applyO r[q.b] r[q.c] r[q.d] + Ops.loadLE32 x q.k + var q.t) q.s
  pure (r.set q.a a)

/-- md5.h:454-558 -/
def compressO (h : Vector W32 4) (m : Block 64) : Ops (Vector W32 4) := do
  let a ← rd "m_state" h 0
  let b ← rd "m_state" h 1
  let c ← rd "m_state" h 2
  let d ← rd "m_state" h 3
  let r ← fold (execO m) calls #v[a, b, c, d]
  stores "m_state" [
    rd "m_state" h 0 + var r[0],
    rd "m_state" h 1 + var r[1],
    rd "m_state" h 2 + var r[2],
    rd "m_state" h 3 + var r[3]]

end MD5

namespace RIPEMD

/-- ripemd_160.h:453-472 -/
def fnO (f : Fn) (x y z : W32) : Ops W32 :=
  match f with
  | .f1 => var x ^^^ var y ^^^ var z
  | .f2 => (var x &&& (var y ^^^ var z)) ^^^ var z
  | .f3 => (var x ||| ~~~(var y)) ^^^ var z
  | .f4 => ((var x ^^^ var y) &&& var z) ^^^ var y
  | .f5 => var x ^^^ (var y ||| ~~~(var z))

/-- ripemd_128.h:473-476 -/
def line4O (x : Block 64) (v : Vector W32 4) (q : Call4) : Ops (Vector W32 4) := do
  let a ← Ops.rotl (var v[q.a] + fnO q.f v[q.b] v[q.c] v[q.d] + Ops.loadLE32 x q.r + var q.k) q.s
  pure (v.set q.a a)

/-- ripemd_160.h:479-483 -/
def line5O (x : Block 64) (v : Vector W32 5) (q : Call5) : Ops (Vector W32 5) := do
  let a ← Ops.rotl (var v[q.a] + fnO q.f v[q.b] v[q.c] v[q.d] + Ops.loadLE32 x q.r + var q.k) q.s + var v[q.e]
  let v := v.set q.a a
  let c ← Ops.rotl (var v[q.c]) 10
  pure (v.set q.c c)

/-- one call statement (ripemd_128.h:473-611 and the other RIPEMD headers) -/
def execO {C V : Type} (line : V → C → Ops V) (s : V × V) : Stmt C → Ops (V × V)
  | .left q => do
    let l ← line s.1 q
    pure (l, s.2)
  | .right q => do
    let r ← line s.2 q
    pure (s.1, r)

/-- ripemd_128.h:447-617 -/
def compress128O (h : Vector W32 4) (x : Block 64) : Ops (Vector W32 4) := do
  let a ← rd "m_h" h 0
  let b ← rd "m_h" h 1
  let c ← rd "m_h" h 2
  let d ← rd "m_h" h 3
  let aa ← rd "m_h" h 0
  let bb ← rd "m_h" h 1
  let cc ← rd "m_h" h 2
  let dd ← rd "m_h" h 3
  let s ← fold (execO (line4O x)) (seg4_0 ++ seg4_1 ++ seg4_2 ++ seg4_3) (#v[a, b, c, d], #v[aa, bb, cc, dd])
  let t ← rd "m_h" h 1 + var s.1[2] + var s.2[3]
  let h ← wr "m_h" h 1 (rd "m_h" h 2 + var s.1[3] + var s.2[0])
  let h ← wr "m_h" h 2 (rd "m_h" h 3 + var s.1[0] + var s.2[1])
  let h ← wr "m_h" h 3 (rd "m_h" h 0 + var s.1[1] + var s.2[2])
  wr "m_h" h 0 (var t)

/-- ripemd_160.h:448-658 -/
def compress160O (h : Vector W32 5) (x : Block 64) : Ops (Vector W32 5) := do
  let a ← rd "m_h" h 0
  let b ← rd "m_h" h 1
  let c ← rd "m_h" h 2
  let d ← rd "m_h" h 3
  let e ← rd "m_h" h 4
  let aa ← rd "m_h" h 0
  let bb ← rd "m_h" h 1
  let cc ← rd "m_h" h 2
  let dd ← rd "m_h" h 3
  let ee ← rd "m_h" h 4
  let s ← fold (execO (line5O x)) (seg5_0 ++ seg5_1 ++ seg5_2 ++ seg5_3 ++ seg5_4) (#v[a, b, c, d, e], #v[aa, bb, cc, dd, ee])
  let t ← rd "m_h" h 1 + var s.1[2] + var s.2[3]
  let h ← wr "m_h" h 1 (rd "m_h" h 2 + var s.1[3] + var s.2[4])
  let h ← wr "m_h" h 2 (rd "m_h" h 3 + var s.1[4] + var s.2[0])
  let h ← wr "m_h" h 3 (rd "m_h" h 4 + var s.1[0] + var s.2[1])
  let h ← wr "m_h" h 4 (rd "m_h" h 0 + var s.1[1] + var s.2[2])
  wr "m_h" h 0 (var t)

/-- ripemd_256.h:452-640; `swap` exchanges two local variables -/
def compress256O (h : Vector W32 8) (x : Block 64) : Ops (Vector W32 8) := do
  let a ← rd "m_h" h 0
  let b ← rd "m_h" h 1
  let c ← rd "m_h" h 2
  let d ← rd "m_h" h 3
  let aa ← rd "m_h" h 4
  let bb ← rd "m_h" h 5
  let cc ← rd "m_h" h 6
  let dd ← rd "m_h" h 7
  let s ← fold (execO (line4O x)) seg4_0 (#v[a, b, c, d], #v[aa, bb, cc, dd])
  let s ← fold (execO (line4O x)) seg4_1 (swap 0 s)
  let s ← fold (execO (line4O x)) seg4_2 (swap 1 s)
  let s ← fold (execO (line4O x)) seg4_3 (swap 2 s)
  let s := swap 3 s
  stores "m_h" [
    rd "m_h" h 0 + var s.1[0],
    rd "m_h" h 1 + var s.1[1],
    rd "m_h" h 2 + var s.1[2],
    rd "m_h" h 3 + var s.1[3],
    rd "m_h" h 4 + var s.2[0],
    rd "m_h" h 5 + var s.2[1],
    rd "m_h" h 6 + var s.2[2],
    rd "m_h" h 7 + var s.2[3]]

/-- ripemd_320.h:454-685 -/
def compress320O (h : Vector W32 10) (x : Block 64) : Ops (Vector W32 10) := do
  let a ← rd "m_h" h 0
  let b ← rd "m_h" h 1
  let c ← rd "m_h" h 2
  let d ← rd "m_h" h 3
  let e ← rd "m_h" h 4
  let aa ← rd "m_h" h 5
  let bb ← rd "m_h" h 6
  let cc ← rd "m_h" h 7
  let dd ← rd "m_h" h 8
  let ee ← rd "m_h" h 9
  let s ← fold (execO (line5O x)) seg5_0 (#v[a, b, c, d, e], #v[aa, bb, cc, dd, ee])
  let s ← fold (execO (line5O x)) seg5_1 (swap 0 s)
  let s ← fold (execO (line5O x)) seg5_2 (swap 1 s)
  let s ← fold (execO (line5O x)) seg5_3 (swap 2 s)
  let s ← fold (execO (line5O x)) seg5_4 (swap 3 s)
  let s := swap 4 s
  stores "m_h" [
    rd "m_h" h 0 + var s.1[0],
    rd "m_h" h 1 + var s.1[1],
    rd "m_h" h 2 + var s.1[2],
    rd "m_h" h 3 + var s.1[3],
    rd "m_h" h 4 + var s.1[4],
    rd "m_h" h 5 + var s.2[0],
    rd "m_h" h 6 + var s.2[1],
    rd "m_h" h 7 + var s.2[2],
    rd "m_h" h 8 + var s.2[3],
    rd "m_h" h 9 + var s.2[4]]

end RIPEMD

namespace HAS160

/-- has_160.h:461-463 -/
def loadXO (x : Block 64) : Ops (Vector W32 20) :=
  Ops.forRange 0 16 (Vector.replicate 20 0) fun j _ h xt => wr "xTable" xt j (Ops.loadLE32 x j)

/-- has_160.h:465-471; the elements of `lTable` are constants -/
def extendO (n : Nat) (h : n + 19 < 80) (xt : Vector W32 20) : Ops (Vector W32 20) := do
  let xt ← wr "xTable" xt 16 (rd "xTable" xt lTable[n + 1] ^^^ rd "xTable" xt lTable[n + 2] ^^^ rd "xTable" xt lTable[n + 3] ^^^
    rd "xTable" xt lTable[n + 4])
  let xt ← wr "xTable" xt 17 (rd "xTable" xt lTable[n + 6] ^^^ rd "xTable" xt lTable[n + 7] ^^^ rd "xTable" xt lTable[n + 8] ^^^
    rd "xTable" xt lTable[n + 9])
  let xt ← wr "xTable" xt 18 (rd "xTable" xt lTable[n + 11] ^^^ rd "xTable" xt lTable[n + 12] ^^^ rd "xTable" xt lTable[n + 13] ^^^
    rd "xTable" xt lTable[n + 14])
  wr "xTable" xt 19 (rd "xTable" xt lTable[n + 16] ^^^ rd "xTable" xt lTable[n + 17] ^^^ rd "xTable" xt lTable[n + 18] ^^^
    rd "xTable" xt lTable[n + 19])

/-- has_160.h:481, 510, 539, 568 -/
def fnO (rnd : Round) (b c d : Ops W32) : Ops W32 :=
  match rnd with
  | .r1 => (b &&& (c ^^^ d)) ^^^ d
  | .r2 | .r4 => b ^^^ c ^^^ d
  | .r3 => c ^^^ (b ||| ~~~d)

/-- has_160.h:479-484 -/
def execO (xt : Vector W32 20) (r : Vector W32 5) (q : Call) : Ops (Vector W32 5) := do
  let f ← fnO q.rnd (var r[q.b]) (var r[q.c]) (var r[q.d])
  let e ← Ops.rotl (var r[q.a]) q.s1 + var f + var r[q.e] + rd "xTable" xt lTable[q.t] + var (konst q.rnd)
  let r := r.set q.e e
  let b ← Ops.rotl (var r[q.b]) (rotB q.rnd)
  pure (r.set q.b b)

/-- has_160.h:485-591 -/
def roundsO (xt : Vector W32 20) (r : Vector W32 5) : Ops (Vector W32 5) := do
  let xt ← extendO 0 (by decide) xt
  let r ← fold (execO xt) seg0 r
  let xt ← extendO 20 (by decide) xt
  let r ← fold (execO xt) seg1 r
  let xt ← extendO 40 (by decide) xt
  let r ← fold (execO xt) seg2 r
  let xt ← extendO 60 (by decide) xt
  fold (execO xt) seg3 r

/-- has_160.h:449-597 -/
def compressO (h : Vector W32 5) (x : Block 64) : Ops (Vector W32 5) := do
  let xt ← loadXO x
  let a ← rd "m_h" h 0
  let b ← rd "m_h" h 1
  let c ← rd "m_h" h 2
  let d ← rd "m_h" h 3
  let e ← rd "m_h" h 4
  let r ← roundsO xt #v[a, b, c, d, e]
  stores "m_h" [
    rd "m_h" h 0 + var r[0],
    rd "m_h" h 1 + var r[1],
    rd "m_h" h 2 + var r[2],
    rd "m_h" h 3 + var r[3],
    rd "m_h" h 4 + var r[4]]

end HAS160

namespace HASV

/-- has_v_320.cpp:220-239 -/
def fnO (i : Fin 5) (x y z u : Ops W32) : Ops W32 :=
  match i with
  | 0 => (x &&& y) ^^^ (~~~x &&& z) ^^^ (y &&& u) ^^^ (z &&& u)
  | 1 => (x &&& z) ^^^ y ^^^ u
  | 2 => (x &&& y) ^^^ (~~~x &&& u) ^^^ z
  | 3 => (y &&& z) ^^^ x ^^^ u
  | 4 => (x &&& z) ^^^ (~~~x &&& y) ^^^ (z &&& u) ^^^ (y &&& u)

/-- has_v_320.cpp:250-266; the elements of `lut` are constants -/
def extendO (name : String) (n : Fin 5) (t : Vector W32 20) : Ops (Vector W32 20) :=
  let l (i : Fin 16) : Fin 16 := lut[16 * n.val + i.val]
  do
    let t ← wr name t 16 (rd name t (l 0) ^^^ rd name t (l 1) ^^^ rd name t (l 2) ^^^ rd name t (l 3))
    let t ← wr name t 17 (rd name t (l 4) ^^^ rd name t (l 5) ^^^ rd name t (l 6) ^^^ rd name t (l 7))
    let t ← wr name t 18 (rd name t (l 8) ^^^ rd name t (l 9) ^^^ rd name t (l 10) ^^^ rd name t (l 11))
    wr name t 19 (rd name t (l 12) ^^^ rd name t (l 13) ^^^ rd name t (l 14) ^^^ rd name t (l 15))

/-- has_v_320.cpp:275-279, 286-290; `sTable` and `mTable` are read at constants -/
def lineO (name : String) (t : Vector W32 20) (a b c d e : Fin 10) (f : Fin 5) (k : W32) (j : Fin 100) (r : Vector W32 10) :
    Ops (Vector W32 10) := do
  let v ← Ops.rotl (var r[a]) (sTable[j.val % 20]'(by omega)) + fnO f (var r[b]) (var r[c]) (var r[d]) (var r[e]) +
    rd name t mTable[j] + var k
  let r := r.set e v
  let x ← Ops.rotl (var r[b]) 30
  pure (r.set b x)

/-- one statement; `swapChainVars` exchanges local variables (has_v_320.cpp:250-300) -/
def execO (s : Vars) : Stmt → Ops Vars
  | .extend false n => do
    let x ← extendO "xTable" n s.x
    pure { s with x := x }
  | .extend true n => do
    let y ← extendO "yTable" n s.y
    pure { s with y := y }
  | .line false a b c d e f k j => do
    let r ← lineO "xTable" s.x a b c d e f k j s.r
    pure { s with r := r }
  | .line true a b c d e f k j => do
    let r ← lineO "yTable" s.y a b c d e f k j s.r
    pure { s with r := r }
  | .swap => pure { s with r := #v[s.r[5], s.r[6], s.r[7], s.r[8], s.r[9], s.r[0], s.r[1], s.r[2], s.r[3], s.r[4]] }

/-- has_v_320.cpp:242-248, 270-274, 281-285 -/
def startO (h : Vector W32 10) (m : Block 128) : Ops Vars := do
  let r0 ← rd "m_h" h 0
  let r1 ← rd "m_h" h 1
  let r2 ← rd "m_h" h 2
  let r3 ← rd "m_h" h 3
  let r4 ← rd "m_h" h 4
  let r5 ← rd "m_h" h 5
  let r6 ← rd "m_h" h 6
  let r7 ← rd "m_h" h 7
  let r8 ← rd "m_h" h 8
  let r9 ← rd "m_h" h 9
  let x ← Ops.forRange 0 16 (Vector.replicate 20 0) fun i _ _ t => wr "xTable" t i (Ops.loadLE32 m (0 + i))
  let y ← Ops.forRange 0 16 (Vector.replicate 20 0) fun i _ _ t => wr "yTable" t i (Ops.loadLE32 m (16 + i))
  pure ⟨#v[r0, r1, r2, r3, r4, r5, r6, r7, r8, r9], x, y⟩

/-- has_v_320.cpp:203-807 -/
def compressO (h : Vector W32 10) (m : Block 128) : Ops (Vector W32 10) := do
  let s ← startO h m
  let s ← fold execO active s
  stores "m_h" [
    rd "m_h" h 0 + var s.r[0],
    rd "m_h" h 1 + var s.r[1],
    rd "m_h" h 2 + var s.r[2],
    rd "m_h" h 3 + var s.r[3],
    rd "m_h" h 4 + var s.r[4],
    rd "m_h" h 5 + var s.r[5],
    rd "m_h" h 6 + var s.r[6],
    rd "m_h" h 7 + var s.r[7],
    rd "m_h" h 8 + var s.r[8],
    rd "m_h" h 9 + var s.r[9]]

end HASV

namespace SM3

/-- sm3.h:456-459 -/
def permutation1O (x : W32) : Ops W32 := var x ^^^ Ops.rotl (var x) 15 ^^^ Ops.rotl (var x) 23
/-- sm3.h:479-482 -/
def permutation0O (x : W32) : Ops W32 := var x ^^^ Ops.rotl (var x) 9 ^^^ Ops.rotl (var x) 17

/-- sm3.h:461-468 -/
def expandO (m : Block 64) : Ops (Vector W32 68) := do
  let w ← Ops.forRange 0 16 (Vector.replicate 68 0) fun t _ h w => wr "expanedMsg" w t (Ops.loadBE32 m t)
  Ops.forRange 16 68 w fun t h1 h2 w =>
    wr "expanedMsg" w t (((Ops.rotl (rd "expanedMsg" w (t - 3)) 15 ^^^ rd "expanedMsg" w (t - 9) ^^^
      rd "expanedMsg" w (t - 16)) >>= permutation1O) ^^^ Ops.rotl (rd "expanedMsg" w (t - 13)) 7 ^^^ rd "expanedMsg" w (t - 6))

/-- sm3.h:490-491, 525-526 -/
def ffO (rnd : Round) (a b c : Ops W32) : Ops W32 :=
  match rnd with
  | .r1 => a ^^^ b ^^^ c
  | .r2 => (a &&& b) ||| (c &&& (a ||| b))
/-- `gg` (sm3.h:491, 523) -/
def ggO (rnd : Round) (e f g : Ops W32) : Ops W32 :=
  match rnd with
  | .r1 => e ^^^ f ^^^ g
  | .r2 => g ^^^ (e &&& (f ^^^ g))

/-- sm3.h:483-497, 518-532 -/
def execO (w : Vector W32 68) (r : Vector W32 4 × Vector W32 4) (q : Call) : Ops (Vector W32 4 × Vector W32 4) := do
  let wPrime ← rd "expanedMsg" w q.t.val ^^^ rd "expanedMsg" w (q.t.val + 4)
  let tmpA ← Ops.rotl (var r.1[q.a]) 12
  let ss1 ← Ops.rotl (var tmpA + var r.2[q.e] + var q.k) 7
  let ss2 ← var ss1 ^^^ var tmpA
  let tt1 ← ffO q.rnd (var r.1[q.a]) (var r.1[q.b]) (var r.1[q.c]) + var r.1[q.d] + var ss2 + var wPrime
  let tt2 ← ggO q.rnd (var r.2[q.e]) (var r.2[q.f]) (var r.2[q.g]) + var r.2[q.h] + var ss1 + rd "expanedMsg" w q.t.val
  let b ← Ops.rotl (var r.1[q.b]) 9
  let f ← Ops.rotl (var r.2[q.f]) 19
  let h ← permutation0O tt2
  pure ((r.1.set q.b b).set q.d tt1, (r.2.set q.f f).set q.h h)

/-- sm3.h:452-590 -/
def compressO (v : Vector W32 8) (m : Block 64) : Ops (Vector W32 8) := do
  let w ← expandO m
  let a ← rd "m_v" v 0
  let b ← rd "m_v" v 1
  let c ← rd "m_v" v 2
  let d ← rd "m_v" v 3
  let e ← rd "m_v" v 4
  let f ← rd "m_v" v 5
  let g ← rd "m_v" v 6
  let h ← rd "m_v" v 7
  let r ← fold (execO w) calls (#v[a, b, c, d], #v[e, f, g, h])
  stores "m_v" [
    rd "m_v" v 0 ^^^ var r.1[0],
    rd "m_v" v 1 ^^^ var r.1[1],
    rd "m_v" v 2 ^^^ var r.1[2],
    rd "m_v" v 3 ^^^ var r.1[3],
    rd "m_v" v 4 ^^^ var r.2[0],
    rd "m_v" v 5 ^^^ var r.2[1],
    rd "m_v" v 6 ^^^ var r.2[2],
    rd "m_v" v 7 ^^^ var r.2[3]]

end SM3

namespace BLAKE
variable {w B : Nat} {C : Type}

/-- the part of `Cfg` that computes on the block (`Loader`, blake1_256.h:263-286, blake1_512.h:326-353) -/
structure CfgO (c : Cfg w B C) where
  load : (m : Block B) → (t : Fin 16) → Ops (BitVec w)

/-- macro `blakeMix` (blake1_256.h:484-492) -/
def mixO {c : Cfg w B C} (o : CfgO c) (m : Block B) (v : Vector (BitVec w) 16) (k : Call) : Ops (Vector (BitVec w) 16) := do
  let v ← wr "v" v k.a (rd "v" v k.a + rd "v" v k.b + (o.load m k.x ^^^ rd "cTable" c.cTable k.k1))
  let v ← wr "v" v k.d (Ops.rotr (rd "v" v k.d ^^^ rd "v" v k.a) c.r1)
  let v ← wr "v" v k.c (rd "v" v k.c + rd "v" v k.d)
  let v ← wr "v" v k.b (Ops.rotr (rd "v" v k.b ^^^ rd "v" v k.c) c.r2)
  let v ← wr "v" v k.a (rd "v" v k.a + rd "v" v k.b + (o.load m k.y ^^^ rd "cTable" c.cTable k.k2))
  let v ← wr "v" v k.d (Ops.rotr (rd "v" v k.d ^^^ rd "v" v k.a) c.r3)
  let v ← wr "v" v k.c (rd "v" v k.c + rd "v" v k.d)
  wr "v" v k.b (Ops.rotr (rd "v" v k.b ^^^ rd "v" v k.c) c.r4)

/-- blake1_256.h:463-467 -/
def vInitO (mh : Vector (BitVec w) 8) (ct : Vector (BitVec w) 16) : Ops (Vector (BitVec w) 16) := do
  stores "v" [
    rd "m_h" mh 0,
    rd "m_h" mh 1,
    rd "m_h" mh 2,
    rd "m_h" mh 3,
    rd "m_h" mh 4,
    rd "m_h" mh 5,
    rd "m_h" mh 6,
    rd "m_h" mh 7,
    rd "cTable" ct 0,
    rd "cTable" ct 1,
    rd "cTable" ct 2,
    rd "cTable" ct 3,
    rd "cTable" ct 4,
    rd "cTable" ct 5,
    rd "cTable" ct 6,
    rd "cTable" ct 7]

/-- blake1_256.h:471-479 -/
def vCountO (t0 t1 : BitVec w) (v : Vector (BitVec w) 16) : Ops (Vector (BitVec w) 16) := do
  let v ← wr "v" v 12 (rd "v" v 12 ^^^ var t0)
  let v ← wr "v" v 13 (rd "v" v 13 ^^^ var t0)
  let v ← wr "v" v 14 (rd "v" v 14 ^^^ var t1)
  wr "v" v 15 (rd "v" v 15 ^^^ var t1)

/-- blake1_256.h:622-630 -/
def foldHashO (mh : Vector (BitVec w) 8) (v : Vector (BitVec w) 16) : Ops (Vector (BitVec w) 8) := do
  stores "m_h" [
    rd "m_h" mh 0 ^^^ (rd "v" v 0 ^^^ rd "v" v 8),
    rd "m_h" mh 1 ^^^ (rd "v" v 1 ^^^ rd "v" v 9),
    rd "m_h" mh 2 ^^^ (rd "v" v 2 ^^^ rd "v" v 10),
    rd "m_h" mh 3 ^^^ (rd "v" v 3 ^^^ rd "v" v 11),
    rd "m_h" mh 4 ^^^ (rd "v" v 4 ^^^ rd "v" v 12),
    rd "m_h" mh 5 ^^^ (rd "v" v 5 ^^^ rd "v" v 13),
    rd "m_h" mh 6 ^^^ (rd "v" v 6 ^^^ rd "v" v 14),
    rd "m_h" mh 7 ^^^ (rd "v" v 7 ^^^ rd "v" v 15)]

/-- body of the block loop (blake1_256.h:459-631). The counter is a number of bits fed and not of the data: the arithmetic
on it is not in the list. -/
def bodyO {c : Cfg w B C} (o : CfgO c) (paddingLen : Nat) (s : MDState C (Vector (BitVec w) 8)) (m : Block B) :
    Ops (MDState C (Vector (BitVec w) 8)) := do
  let v ← vInitO s.h c.cTable
  let nonPaddingBits : Int := (B - paddingLen) * 8
  let sizeCounter := c.addBits s.sizeCounter nonPaddingBits
  let v ← if c.positive nonPaddingBits then vCountO (c.t0 sizeCounter) (c.t1 sizeCounter) v else pure v
  let v ← fold (mixO o m) c.calls v
  let h ← foldHashO s.h v
  pure ⟨sizeCounter, h⟩

/-- `addDataImpl` (blake1_256.h:453-633) -/
def implO {c : Cfg w B C} (o : CfgO c) (paddingLen : Nat) (s : MDState C (Vector (BitVec w) 8) × List Instr)
    (data : List Byte) : Except Fault (MDState C (Vector (BitVec w) 8) × List Instr) := do
  if data.length % B ≠ 0 then throw .assertion
  forBlocks B (logged (bodyO o paddingLen)) data s

/-- `finalize()` (blake1_256.h:311-337) -/
def finalizeO {c : Cfg w B C} (k : CfgO c) (L : Nat) (marker : Bool) (total : C → Nat → C)
    (writes : Nat → C → List (Nat × Byte)) (o : Obj (2 * B) (MDState C (Vector (BitVec w) 8) × List Instr)) :
    Except Fault (Obj (2 * B) (MDState C (Vector (BitVec w) 8) × List Instr)) := do
  let sizeCounterBits := total o.chain.1.sizeCounter (o.buffer.size * 8)
  let b ← o.buffer.fill 0x80
  let len := (2 * B - (b.size + L)) % B
  let b ← b.fill 0 (len + L)
  let b ← markLast L marker b
  let b ← writeLoop b (writes b.size sizeCounterBits)
  let s ← implO k (len + (L + 1)) o.chain b.contents
  return ⟨b.clear, s⟩

/-- `api32` and `api64`; `reset()` keeps the log (blake1_256.h:192-258, blake1_512.h:255-321) -/
def apiO {c : Cfg w B C} (k : CfgO c) (L : Nat) (marker : Bool) (total : C → Nat → C) (writes : Nat → C → List (Nat × Byte))
    (init : MDState C (Vector (BitVec w) 8)) (bytesPerWord words size : Nat) :
    API (Obj (2 * B) (MDState C (Vector (BitVec w) 8) × List Instr)) where
  fresh := ⟨{}, (init, [])⟩
  reset := fun o => ⟨o.buffer.clear, (init, o.chain.2)⟩
  addData := addData B (implO k 0)
  finalize := finalizeO k L marker total writes
  toArray := fun o => toArray bytesPerWord words size o.unlogged

/-- blake1_224.h:263-286 -/
def cfgO224 : CfgO cfg224 := ⟨fun m t => Ops.loadBE32 m t⟩
/-- blake1_256.h:263-286 -/
def cfgO256 : CfgO cfg256 := ⟨fun m t => Ops.loadBE32 m t⟩
/-- blake1_384.h, blake1_512.h:326-353 -/
def cfgO512 : CfgO cfg512 := ⟨fun m t => Ops.loadBE64 m t⟩

end BLAKE

namespace BLAKE2
variable {w B : Nat} {C : Type}

/-- the part of `Cfg` that computes on the block (`Loader`, blake2.h:325-352, blake2s.h:263-286) -/
structure CfgO (c : Cfg w B C) where
  load : (m : Block B) → (t : Fin 16) → Ops (BitVec w)

/-- macro `blakeMix` (blake2.h:523-531) -/
def mixO {c : Cfg w B C} (o : CfgO c) (m : Block B) (v : Vector (BitVec w) 16) (k : Call) : Ops (Vector (BitVec w) 16) := do
  let v ← wr "v" v k.a (rd "v" v k.a + rd "v" v k.b + o.load m k.x)
  let v ← wr "v" v k.d (Ops.rotr (rd "v" v k.d ^^^ rd "v" v k.a) c.r1)
  let v ← wr "v" v k.c (rd "v" v k.c + rd "v" v k.d)
  let v ← wr "v" v k.b (Ops.rotr (rd "v" v k.b ^^^ rd "v" v k.c) c.r2)
  let v ← wr "v" v k.a (rd "v" v k.a + rd "v" v k.b + o.load m k.y)
  let v ← wr "v" v k.d (Ops.rotr (rd "v" v k.d ^^^ rd "v" v k.a) c.r3)
  let v ← wr "v" v k.c (rd "v" v k.c + rd "v" v k.d)
  wr "v" v k.b (Ops.rotr (rd "v" v k.b ^^^ rd "v" v k.c) c.r4)

/-- blake2.h:510-518 -/
def vInitO (mh iv : Vector (BitVec w) 8) (t0 t1 : BitVec w) (isFinal : Bool) : Ops (Vector (BitVec w) 16) := do
  stores "v" [
    rd "m_h" mh 0,
    rd "m_h" mh 1,
    rd "m_h" mh 2,
    rd "m_h" mh 3,
    rd "m_h" mh 4,
    rd "m_h" mh 5,
    rd "m_h" mh 6,
    rd "m_h" mh 7,
    rd "m_initializationVector" iv 0,
    rd "m_initializationVector" iv 1,
    rd "m_initializationVector" iv 2,
    rd "m_initializationVector" iv 3,
    rd "m_initializationVector" iv 4 ^^^ var t0,
    rd "m_initializationVector" iv 5 ^^^ var t1,
    if isFinal then ~~~(rd "m_initializationVector" iv 6) else rd "m_initializationVector" iv 6,
    rd "m_initializationVector" iv 7]

/-- blake2.h:632-640 -/
def foldHashO (mh : Vector (BitVec w) 8) (v : Vector (BitVec w) 16) : Ops (Vector (BitVec w) 8) := do
  stores "m_h" [
    rd "m_h" mh 0 ^^^ (rd "v" v 0 ^^^ rd "v" v 8),
    rd "m_h" mh 1 ^^^ (rd "v" v 1 ^^^ rd "v" v 9),
    rd "m_h" mh 2 ^^^ (rd "v" v 2 ^^^ rd "v" v 10),
    rd "m_h" mh 3 ^^^ (rd "v" v 3 ^^^ rd "v" v 11),
    rd "m_h" mh 4 ^^^ (rd "v" v 4 ^^^ rd "v" v 12),
    rd "m_h" mh 5 ^^^ (rd "v" v 5 ^^^ rd "v" v 13),
    rd "m_h" mh 6 ^^^ (rd "v" v 6 ^^^ rd "v" v 14),
    rd "m_h" mh 7 ^^^ (rd "v" v 7 ^^^ rd "v" v 15)]

/-- body of the block loop (blake2.h:506-641); the arithmetic on the counter is not in the list -/
def bodyO {c : Cfg w B C} (o : CfgO c) (isFinal : Bool) (paddingLen : Nat) (s : State w C) (m : Block B) : Ops (State w C) := do
  let sizeCounter := c.addBytes s.sizeCounter ((B : Int) - paddingLen)
  let v ← vInitO s.h c.iv (c.t0 sizeCounter) (c.t1 sizeCounter) isFinal
  let v ← fold (mixO o m) c.calls v
  let h ← foldHashO s.h v
  pure ⟨sizeCounter, h⟩

/-- `addDataImpl(data, isFinal, paddingLen = 0)` (blake2.h:500-643) -/
def implO {c : Cfg w B C} (o : CfgO c) (isFinal : Bool) (paddingLen : Nat) (s : State w C × List Instr) (data : List Byte) :
    Except Fault (State w C × List Instr) := do
  if data.length % B ≠ 0 then throw .assertion
  forBlocks B (logged (bodyO o isFinal paddingLen)) data s

/-- `finalize()` (blake2.h:373-383) -/
def finalizeO {c : Cfg w B C} (k : CfgO c) (o : Obj B (State w C × List Instr)) :
    Except Fault (Obj B (State w C × List Instr)) := do
  let len := B - o.buffer.size
  let b ← o.buffer.fill 0 len
  let s ← implO k true len o.chain b.contents
  return ⟨b.clear, s⟩

/-- blake2.h:356-371; `reset()` keeps the log -/
def apiO {c : Cfg w B C} (k : CfgO c) (bytesPerWord size : Nat) : API (Obj B (State w C × List Instr)) where
  fresh := ⟨{}, (init c, [])⟩
  reset := fun o => ⟨o.buffer.clear, (init c, o.chain.2)⟩
  addData := addData B (implO k false 0)
  finalize := finalizeO k
  toArray := fun o => toArray bytesPerWord size o.unlogged

/-- blake2.h:325-352 -/
def cfgO2 : CfgO cfg2 := ⟨fun m t => Ops.loadLE64 m t⟩
/-- blake2s.h:263-286 -/
def cfgO2s : CfgO cfg2s := ⟨fun m t => Ops.loadLE32 m t⟩

end BLAKE2

namespace SHA3

/-- theta (sha3.h:482-511); `m_state[y][x]` is element `5 y + x` -/
def thetaO (s : State) : Ops State := do
  let c : Vector W64 5 ← stores "c" [
    rd "m_state" s (5 * 0 + 0) ^^^ rd "m_state" s (5 * 1 + 0) ^^^ rd "m_state" s (5 * 2 + 0) ^^^ rd "m_state" s (5 * 3 + 0) ^^^ rd "m_state" s (5 * 4 + 0),
    rd "m_state" s (5 * 0 + 1) ^^^ rd "m_state" s (5 * 1 + 1) ^^^ rd "m_state" s (5 * 2 + 1) ^^^ rd "m_state" s (5 * 3 + 1) ^^^ rd "m_state" s (5 * 4 + 1),
    rd "m_state" s (5 * 0 + 2) ^^^ rd "m_state" s (5 * 1 + 2) ^^^ rd "m_state" s (5 * 2 + 2) ^^^ rd "m_state" s (5 * 3 + 2) ^^^ rd "m_state" s (5 * 4 + 2),
    rd "m_state" s (5 * 0 + 3) ^^^ rd "m_state" s (5 * 1 + 3) ^^^ rd "m_state" s (5 * 2 + 3) ^^^ rd "m_state" s (5 * 3 + 3) ^^^ rd "m_state" s (5 * 4 + 3),
    rd "m_state" s (5 * 0 + 4) ^^^ rd "m_state" s (5 * 1 + 4) ^^^ rd "m_state" s (5 * 2 + 4) ^^^ rd "m_state" s (5 * 3 + 4) ^^^ rd "m_state" s (5 * 4 + 4)]
  let d : Vector W64 5 ← stores "d" [
    rd "c" c 4 ^^^ Ops.rotl (rd "c" c 1) 1,
    rd "c" c 0 ^^^ Ops.rotl (rd "c" c 2) 1,
    rd "c" c 1 ^^^ Ops.rotl (rd "c" c 3) 1,
    rd "c" c 2 ^^^ Ops.rotl (rd "c" c 4) 1,
    rd "c" c 3 ^^^ Ops.rotl (rd "c" c 0) 1]
  Ops.forRange 0 5 s fun y _ _ s => do
    let s ← wr "m_state" s (5 * y + 0) (rd "m_state" s (5 * y + 0) ^^^ rd "d" d 0)
    let s ← wr "m_state" s (5 * y + 1) (rd "m_state" s (5 * y + 1) ^^^ rd "d" d 1)
    let s ← wr "m_state" s (5 * y + 2) (rd "m_state" s (5 * y + 2) ^^^ rd "d" d 2)
    let s ← wr "m_state" s (5 * y + 3) (rd "m_state" s (5 * y + 3) ^^^ rd "d" d 3)
    wr "m_state" s (5 * y + 4) (rd "m_state" s (5 * y + 4) ^^^ rd "d" d 4)

/-- `tmp[5][5]` (sha3.h:514-551) -/
def tmpO (s : State) : Ops State := do
  stores "tmp" [
    Ops.rotl (rd "m_state" s (5 * 0 + 0)) (0 % 64),
    Ops.rotl (rd "m_state" s (5 * 1 + 1)) (300 % 64),
    Ops.rotl (rd "m_state" s (5 * 2 + 2)) (171 % 64),
    Ops.rotl (rd "m_state" s (5 * 3 + 3)) (21 % 64),
    Ops.rotl (rd "m_state" s (5 * 4 + 4)) (78 % 64),
    Ops.rotl (rd "m_state" s (5 * 0 + 3)) (28 % 64),
    Ops.rotl (rd "m_state" s (5 * 1 + 4)) (276 % 64),
    Ops.rotl (rd "m_state" s (5 * 2 + 0)) (3 % 64),
    Ops.rotl (rd "m_state" s (5 * 3 + 1)) (45 % 64),
    Ops.rotl (rd "m_state" s (5 * 4 + 2)) (253 % 64),
    Ops.rotl (rd "m_state" s (5 * 0 + 1)) (1 % 64),
    Ops.rotl (rd "m_state" s (5 * 1 + 2)) (6 % 64),
    Ops.rotl (rd "m_state" s (5 * 2 + 3)) (153 % 64),
    Ops.rotl (rd "m_state" s (5 * 3 + 4)) (136 % 64),
    Ops.rotl (rd "m_state" s (5 * 4 + 0)) (210 % 64),
    Ops.rotl (rd "m_state" s (5 * 0 + 4)) (91 % 64),
    Ops.rotl (rd "m_state" s (5 * 1 + 0)) (36 % 64),
    Ops.rotl (rd "m_state" s (5 * 2 + 1)) (10 % 64),
    Ops.rotl (rd "m_state" s (5 * 3 + 2)) (15 % 64),
    Ops.rotl (rd "m_state" s (5 * 4 + 3)) (120 % 64),
    Ops.rotl (rd "m_state" s (5 * 0 + 2)) (190 % 64),
    Ops.rotl (rd "m_state" s (5 * 1 + 3)) (55 % 64),
    Ops.rotl (rd "m_state" s (5 * 2 + 4)) (231 % 64),
    Ops.rotl (rd "m_state" s (5 * 3 + 0)) (105 % 64),
    Ops.rotl (rd "m_state" s (5 * 4 + 1)) (66 % 64)]

/-- rho, pi and chi (sha3.h:512-561) -/
def rhoPiChiO (s : State) : Ops State := do
  let t ← tmpO s
  Ops.forRange 0 5 s fun y _ _ s => do
    let s ← wr "m_state" s (5 * y + 0) (rd "tmp" t (5 * y + 0) ^^^ (~~~(rd "tmp" t (5 * y + 1)) &&& rd "tmp" t (5 * y + 2)))
    let s ← wr "m_state" s (5 * y + 1) (rd "tmp" t (5 * y + 1) ^^^ (~~~(rd "tmp" t (5 * y + 2)) &&& rd "tmp" t (5 * y + 3)))
    let s ← wr "m_state" s (5 * y + 2) (rd "tmp" t (5 * y + 2) ^^^ (~~~(rd "tmp" t (5 * y + 3)) &&& rd "tmp" t (5 * y + 4)))
    let s ← wr "m_state" s (5 * y + 3) (rd "tmp" t (5 * y + 3) ^^^ (~~~(rd "tmp" t (5 * y + 4)) &&& rd "tmp" t (5 * y + 0)))
    wr "m_state" s (5 * y + 4) (rd "tmp" t (5 * y + 4) ^^^ (~~~(rd "tmp" t (5 * y + 0)) &&& rd "tmp" t (5 * y + 1)))

/-- iota (sha3.h:562-573) -/
def iotaO (indexRound : Nat) (h : indexRound < 24) (s : State) : Ops State :=
  wr "m_state" s 0 (rd "m_state" s 0 ^^^ rd "roundConstantTable" roundConstantTable indexRound)

/-- the 24 rounds (sha3.h:480, 575-581) -/
def permuteO (s : State) : Ops State :=
  Ops.forRange 0 24 s fun i _ h s => do
    let s ← thetaO s
    let s ← rhoPiChiO s
    iotaO i h s

/-- the xor loop (sha3.h:474-478) -/
def xorBlockO {R : Nat} [hR : RateOK R] (s : State) (m : Block R) : Ops State :=
  Ops.forRange 0 (R / 8) s fun i _ h s =>
    have := hR.le
    wr "m_state" s i (rd "m_state" s i ^^^ Ops.loadLE64 m i)

/-- body of the block loop of `addDataImpl` (sha3.h:472-582) -/
def bodyO {R : Nat} [RateOK R] (s : State) (m : Block R) : Ops State := do
  let s ← xorBlockO s m
  permuteO s

/-- sha3.h:467-583 -/
def absorbO (R : Nat) [RateOK R] (s : State × List Instr) (data : List Byte) : Except Fault (State × List Instr) := do
  if data.length % R ≠ 0 then throw .assertion
  forBlocks R (logged bodyO) data s

/-- sha3.h:467-583 -/
def implO (R : Nat) [RateOK R] (s : KState × List Instr) (data : List Byte) : Except Fault (KState × List Instr) := do
  let st ← absorbO R (s.1.state, s.2) data
  return ({ s.1 with state := st.1 }, st.2)

/-- the squeeze loop (sha3.h:348-357) -/
def squeezeO (R : Nat) [hR : RateOK R] (digestLength : Nat) (s : KState × List Instr) : Except Fault (KState × List Instr) :=
  let state := stateToVector s.1.state
  if _h : R ≤ state.length then
    let final := s.1.final ++ state.take R
    if _hf : final.length ≥ digestLength then .ok (⟨s.1.state, final⟩, s.2)
    else
      match absorbO R (s.1.state, s.2) (List.replicate R 0) with
      | .error e => .error e
      | .ok st => squeezeO R digestLength (⟨st.1, final⟩, st.2)
  else .error .spanBounds
termination_by digestLength - s.1.final.length
decreasing_by
  have := hR.pos
  have := hR.le
  have := stateToVector_length s.1.state
  simp only [ge_iff_le, Nat.not_le, final, List.length_append, List.length_take, state] at *
  omega

/-- `finalize()` (sha3.h:334-361) -/
def finalizeO (R : Nat) [RateOK R] (P : Byte) (digestLength : Nat) (o : Obj R (KState × List Instr)) :
    Except Fault (Obj R (KState × List Instr)) := do
  let b ← o.buffer.fill P
  let len := (2 * R - b.size) % R
  let b ← b.fill 0 len
  let last ← b.getAt (b.size - 1)
  let b ← b.setAt (b.size - 1) (last ||| 0x80)
  let c ← implO R o.chain b.contents
  let c ← squeezeO R digestLength c
  let final := c.1.final.take digestLength ++ List.replicate (digestLength - c.1.final.length) 0
  return ⟨b.clear, ({ c.1 with final := final }, c.2)⟩

/-- `Keccak<R, P>(digestLength)` (sha3.h:309-331); `reset()` keeps the log -/
def KeccakO (R : Nat) [RateOK R] (P : Byte) (digestLength : Nat) : API (Obj R (KState × List Instr)) where
  fresh := ⟨{}, (init, [])⟩
  reset := fun o => ⟨o.buffer.clear, (init, o.chain.2)⟩
  addData := addData R (implO R)
  finalize := finalizeO R P digestLength
  toArray := fun o => toVector o.unlogged

end SHA3

namespace SipHash

/-- `sipRound()` (siphash.h:477-493) -/
def sipRoundO (v : Vector W64 4) : Ops (Vector W64 4) := do
  let v ← wr "m_state" v 0 (rd "m_state" v 0 + rd "m_state" v 1)
  let v ← wr "m_state" v 2 (rd "m_state" v 2 + rd "m_state" v 3)
  let v ← wr "m_state" v 1 (Ops.rotl (rd "m_state" v 1) 13)
  let v ← wr "m_state" v 3 (Ops.rotl (rd "m_state" v 3) 16)
  let v ← wr "m_state" v 1 (rd "m_state" v 1 ^^^ rd "m_state" v 0)
  let v ← wr "m_state" v 3 (rd "m_state" v 3 ^^^ rd "m_state" v 2)
  let v ← wr "m_state" v 0 (Ops.rotl (rd "m_state" v 0) 32)
  let v ← wr "m_state" v 2 (rd "m_state" v 2 + rd "m_state" v 1)
  let v ← wr "m_state" v 0 (rd "m_state" v 0 + rd "m_state" v 3)
  let v ← wr "m_state" v 1 (Ops.rotl (rd "m_state" v 1) 17)
  let v ← wr "m_state" v 3 (Ops.rotl (rd "m_state" v 3) 21)
  let v ← wr "m_state" v 1 (rd "m_state" v 1 ^^^ rd "m_state" v 2)
  let v ← wr "m_state" v 3 (rd "m_state" v 3 ^^^ rd "m_state" v 0)
  wr "m_state" v 2 (Ops.rotl (rd "m_state" v 2) 32)

/-- siphash.h:332-333, 470-471 -/
def roundsO (n : Nat) (v : Vector W64 4) : Ops (Vector W64 4) := fold (fun v _ => sipRoundO v) (List.range n) v

/-- body of the loop of `addDataImpl` (siphash.h:467-472) -/
def bodyO (C : Nat) (v : Vector W64 4) (m : Block 8) : Ops (Vector W64 4) := do
  let v ← wr "m_state" v 3 (rd "m_state" v 3 ^^^ Ops.loadLE64 m 0)
  let v ← roundsO C v
  wr "m_state" v 0 (rd "m_state" v 0 ^^^ Ops.loadLE64 m 0)

/-- `addDataImpl` (siphash.h:459-474) -/
def implO (C : Nat) (s : State × List Instr) (data : List Byte) : Except Fault (State × List Instr) := do
  if data.length % 8 ≠ 0 then throw .assertion
  let c := s.1.sizeCounter + BitVec.ofNat 8 data.length
  let v ← forBlocks 8 (logged (bodyO C)) data (s.1.state, s.2)
  return ({ s.1 with sizeCounter := c, state := v.1 }, v.2)

/-- siphash.h:308-313 -/
def keyedO (key : Vector W64 2) : Ops (Vector W64 4) := do
  stores "m_state" [
    rd "m_key" key 0 ^^^ var 0x736f6d6570736575,
    rd "m_key" key 1 ^^^ var 0x646f72616e646f6d,
    rd "m_key" key 0 ^^^ var 0x6c7967656e657261,
    rd "m_key" key 1 ^^^ var 0x7465646279746573]

/-- `reset()` (siphash.h:305-314); the log goes on -/
def resetO (o : Obj 16 (State × List Instr)) : Obj 16 (State × List Instr) :=
  ⟨o.buffer.clear, ({ o.chain.1 with sizeCounter := 0, state := (keyedO o.chain.1.key).value },
    o.chain.2 ++ (keyedO o.chain.1.key).ops)⟩

/-- siphash.h:331-333 -/
def lastO (D : Nat) (v : Vector W64 4) : Ops (Vector W64 4) := do
  let v ← wr "m_state" v 2 (rd "m_state" v 2 ^^^ var 0xff)
  roundsO D v

/-- `finalize()` (siphash.h:317-336) -/
def finalizeO (C D : Nat) (o : Obj 16 (State × List Instr)) : Except Fault (Obj 16 (State × List Instr)) := do
  let cnt := o.chain.1.sizeCounter + BitVec.ofNat 8 o.buffer.size
  let len := 8 - 1 - o.buffer.size
  let b ← o.buffer.fill 0 len
  let b ← b.fill cnt 1
  let s ← implO C ({ o.chain.1 with sizeCounter := cnt }, o.chain.2) b.contents
  return ⟨b.clear, ({ s.1 with state := (lastO D s.1.state).value }, s.2 ++ (lastO D s.1.state).ops)⟩

/-- siphash.h:299-300: the bytes of the key are read like those of a block -/
def loadKeyO (key : Block 16) : Ops (Vector W64 2) := do
  stores "m_key" [
    Ops.loadLE64 key 0,
    Ops.loadLE64 key 1]

/-- `SipHash<C, D>` objects constructed with the given key (siphash.h:193-255) -/
def SipHashCDO (C D : Nat) (key : Block 16) : API (Obj 16 (State × List Instr)) where
  fresh := resetO ⟨{}, ({ key := (loadKeyO key).value }, (loadKeyO key).ops)⟩
  reset := resetO
  addData := addData 8 (implO C)
  finalize := finalizeO C D
  toArray := fun o => toArray o.unlogged

end SipHash

namespace FNV

/-- the lambda `multiplyPrime` (fnv.h:275-301); `w` is a constant of the program -/
def multiplyPrimeO {w : Nat} (h : Ops (BitVec w)) : Ops (BitVec w) :=
  if w / 8 = 4 then h * var 0x01000193
  else if w / 8 = 8 then h * var 0x00000100000001b3
  else h

/-- body of the loop of `addDataImpl` (fnv.h:302-315): the byte at the current position is read -/
def bodyO {w : Nat} (variant : Nat) (h : BitVec w) (dataPart : Byte) : Ops (BitVec w) := do
  let d ← (⟨dataPart.setWidth w, [.load 0]⟩ : Ops (BitVec w))
  let x := if variant ≤ 1 then multiplyPrimeO (var h) ^^^ var d else var h
  let h ← x
  if variant = 2 then multiplyPrimeO (var h ^^^ var d) else var h

/-- `FNVHash<DigestType, Variant>` (fnv.h:133-316); `reset()` keeps the log -/
def FNVHashO (w variant : Nat) : API (BitVec w × List Instr) where
  fresh := (reset variant 0, [])
  reset := fun h => (reset variant h.1, h.2)
  addData := fun h data => .ok (data.foldl (logged (bodyO variant)) h)
  finalize := fun h => .ok h
  toArray := fun h => resultArray (w / 8) (storeBE (w / 8) h.1)

end FNV

end Model
end Verif
