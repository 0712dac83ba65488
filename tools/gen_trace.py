#!/usr/bin/env python3
"""Writes lean/Verif/Props/Trace.lean."""
import os
OUT = os.path.join(os.path.dirname(__file__), "..", "lean", "Verif", "Props", "Trace.lean")

HEAD = '''import Verif.Proof.Trace
import Verif.Proof.CShakeCalls
import Verif.Proof.FNV
import Verif.Proof.CRC32
import Verif.Proof.HAS160
import Verif.Proof.HASV
import Verif.Proof.MD2
import Verif.Proof.MD4
import Verif.Proof.MD5
import Verif.Proof.RIPEMD
import Verif.Proof.SHA1
import Verif.Proof.SHA2
import Verif.Proof.SM3
import Verif.Proof.TigerGen
import Verif.Proof.Whirlpool

/-!
# C57: an object shows what it was fed, not how

Generated by tools/gen_trace.py. `NoTrace` and `Interchangeable` are defined in Core/Trace.lean.
-/

namespace Verif.Props
open Model Proof.Trace

'''
MD = [("SHA1", "SHA1.SHA1", 64, "SHA1.eq", "counterBE64_ok")]
MD += [(f"SHA2_{n}", f"SHA2.SHA2_{n}", b, f"SHA2.eq{w}", f"counterBE{c}_ok") for n, b, w, c in
       [("224", 64, 32, 64), ("256", 64, 32, 64), ("384", 128, 64, 128), ("512", 128, 64, 128), ("512_224", 128, 64, 128),
        ("512_256", 128, 64, 128)]]
MD += [("MD4", "MD4.MD4", 64, "MD4.eq", "counterLE64_ok"), ("MD5", "MD5.MD5", 64, "MD5.eq", "counterLE64_ok"),
       ("HAS_160", "HAS160.HAS_160", 64, "HAS160.eq", "counterLE64_ok"), ("SM3", "SM3.SM3", 64, "SM3.eq", "counterBE64_ok"),
       ("Whirlpool", "Whirlpool.Whirlpool", 64, "Whirlpool.eq", "Proof.Whirlpool.counter32_ok")]
MD += [(f"RIPEMD_{n}", f"RIPEMD.RIPEMD_{n}", 64, "RIPEMD.eq", "counterLE64_ok") for n in (128, 160, 256, 320)]
s = HEAD
for n, c, B, eq, ok in MD:
    s += f"theorem C57_{n} : {c}.NoTrace := mdNoTrace (by decide) (by decide) _ {ok} _ _ _\n"
    s += f"theorem C57_{n}_equal : {c}.Interchangeable {eq} {B} (· < {B}) :=\n  mdInterchangeable (by decide) (by decide) _ {ok} _ _ _\n\n"
s += '''/-- `Tiger<V, D>`, for every `V` and `D` -/
theorem C57_Tiger (V D : Nat) : (Tiger.Tiger V D).NoTrace := mdNoTrace (by decide) (by decide) _ counterLE64_ok _ _ _
theorem C57_Tiger_equal (V D : Nat) : (Tiger.Tiger V D).Interchangeable Tiger.eq 64 (· < 64) :=
  mdInterchangeable (by decide) (by decide) _ counterLE64_ok _ _ _

theorem C57_HAS_V_320 : HASV.HAS_V_320.NoTrace := mdNoTrace (by decide) (by decide) _ Proof.HASV.counter_ok _ _ _

/-- MD2: `==` does not look at the checksum, so there is no `C57_MD2_equal`. -/
theorem C57_MD2 : MD2.MD2.NoTrace := objNoTrace Proof.MD2.refines rfl rfl fun _ _ h => h

'''
for n, B, k, cfg in [(224, 64, 32, 224), (256, 64, 32, 256), (384, 128, 64, 512), (512, 128, 64, 512)]:
    s += f'''theorem C57_Blake1_{n} : BLAKE.Blake1_{n}.NoTrace := objNoTrace Proof.BLAKE.refines{n} rfl rfl fun _ _ h => h
theorem C57_Blake1_{n}_equal : BLAKE.Blake1_{n}.Interchangeable BLAKE.eq{k} {B} (· < {B}) :=
  objInterchangeable Proof.BLAKE.refines{n} rfl rfl (fun _ _ h => h) fun o o' a a' h h' hl hd he => by
    have he : o.chain.h = o'.chain.h := beq_iff_eq.1 he
    rw [h, h'] at he
    exact blakeDen Proof.BLAKE.cfg{cfg}_ok (by decide) BLAKE.iv{n} a a' hl hd he

'''
for n, B, k in [("Blake2", 128, "2"), ("Blake2s", 64, "2s")]:
    s += f'''/-- The last block stays in the buffer, and must be the same. -/
theorem C57_{n}_equal : BLAKE2.{n}.Interchangeable BLAKE2.eq{k} {B} (fun n => 0 < n ∧ n ≤ {B}) :=
  lastInterchangeable (by decide) Proof.BLAKE2.refines{k} rfl rfl (fun _ _ h => h) fun o o' a a' h h' hl hd he => by
    have he : o.chain.h = o'.chain.h := beq_iff_eq.1 he
    rw [h, h'] at he
    exact blake2Den Proof.BLAKE2.cfg{k}_ok (by decide) a a' hl hd he
theorem C57_{n} : BLAKE2.{n}.NoTrace := lastNoTrace (by decide) Proof.BLAKE2.refines{k} rfl rfl fun _ _ h => h

'''
s += '''private theorem keccak (R : Nat) [hR : SHA3.RateOK R] (P : Byte) (d : Nat) : (SHA3.Keccak R P d).NoTrace :=
  objNoTrace (keccakRefines R P d) rfl rfl fun _ _ h => h
private theorem keccakEqual (R : Nat) [hR : SHA3.RateOK R] (P : Byte) (d : Nat) :
    (SHA3.Keccak R P d).Interchangeable SHA3.eq R (· < R) :=
  objInterchangeable (keccakRefines R P d) rfl rfl (fun _ _ h => h) fun o o' a a' h h' hl hd he => by
    have he : o.chain.state = o'.chain.state := beq_iff_eq.1 he
    rw [h, h'] at he
    have he : Proof.SHA3.absorbed R a = Proof.SHA3.absorbed R a' := he
    unfold Proof.SHA3.den
    rw [he]

'''
for n, R in [(224, 144), (256, 136), (384, 104), (512, 72)]:
    s += f"theorem C57_SHA3_{n} : SHA3.SHA3_{n}.NoTrace := keccak {R} 0x06 {n//8}\n"
    s += f"theorem C57_SHA3_{n}_equal : SHA3.SHA3_{n}.Interchangeable SHA3.eq {R} (· < {R}) := keccakEqual {R} 0x06 {n//8}\n"
for n, R in [(128, 168), (256, 136)]:
    s += f"theorem C57_SHAKE_{n} (d : Nat) : (SHA3.SHAKE_{n} d).NoTrace := keccak {R} 0x1F d\n"
    s += f"theorem C57_SHAKE_{n}_equal (d : Nat) : (SHA3.SHAKE_{n} d).Interchangeable SHA3.eq {R} (· < {R}) := keccakEqual {R} 0x1F d\n"
s += '''
theorem C57_SipHash (C D : Nat) (key : Block 16) : (SipHash.SipHashCD C D key).NoTrace :=
  objNoTrace (Proof.SipHash.refines C D key) rfl rfl fun _ _ h => h
theorem C57_SipHash_equal (C D : Nat) (key : Block 16) : (SipHash.SipHashCD C D key).Interchangeable SipHash.eq 8 (· < 8) :=
  objInterchangeable (Proof.SipHash.refines C D key) rfl rfl (fun _ _ h => h) fun o o' a a' h h' hl hd he => by
    have he : o.chain.state = o'.chain.state := beq_iff_eq.1 he
    rw [h, h'] at he
    have he : Proof.MD.state _ = _ := he
    unfold Proof.SipHash.den
    rw [hl, he]

'''.replace("    have he : Proof.MD.state _ = _ := he\n", "    simp only [Proof.SipHash.den] at he\n")
for n in ("32_1", "32_1a", "64_1", "64_1a"):
    s += f'''theorem C57_FNV{n} : FNV.FNV{n}.NoTrace := noTrace Proof.FNV.refines{n} fun _ _ _ h h' => h.trans h'.symm
theorem C57_FNV{n}_equal : FNV.FNV{n}.Interchangeable FNV.eq 1 (· < 1) :=
  interchangeable Proof.FNV.refines{n} fun _ _ _ _ _ _ _ _ _ _ h => beq_iff_eq.1 h
'''
s += '''theorem C57_CRC_32 : CRC32.CRC_32.NoTrace := noTrace Proof.CRC32.refines fun _ _ _ h h' => h.trans h'.symm
theorem C57_CRC_32_equal : CRC32.CRC_32.Interchangeable CRC32.eq 1 (· < 1) :=
  interchangeable Proof.CRC32.refines fun _ _ _ _ _ _ _ _ _ _ h => beq_iff_eq.1 h

'''
TAIL = open(os.path.join(os.path.dirname(__file__), "trace_tail.txt")).read()
open(OUT, "w").write(s + TAIL)
