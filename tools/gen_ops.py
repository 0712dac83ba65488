#!/usr/bin/env python3
"""Writes lean/Verif/Props/Ops.lean and lean/Verif/Props/OpsDefined.lean."""
import os

HERE = os.path.dirname(__file__)
OUT = os.path.join(HERE, "..", "lean", "Verif", "Props", "Ops.lean")

HEAD = '''import Verif.Proof.OpsTables

/-!
# C61: what is executed does not depend on the data

Generated by tools/gen_ops.py. A class with a log appends to it every operation that its block function executes
(Core/Ops.lean, Model/Ops.lean, Model/OpsTables.lean): arithmetic, shifts with their amounts, and the element of every
array that is read or written. Each theorem says that the block function with the log computes what the block function of
the class computes, that its log is the same for every state and block, that the class with the log is the class
otherwise, and that the log of an object is a function of the calls and of the lengths of the data.
-/

namespace Verif.Props
open Model

'''

X224 = "(SHA2.toArray 8 3 28 fun mh =>\n      [ror 8 mh[3] 56, ror 8 mh[3] 48, ror 8 mh[3] 40, ror 8 mh[3] 32])"
S32 = ("64 8 0x80 counterBE64", "(SHA2.compress SHA2.cfg32 (by decide))", "(SHA2.compressO SHA2.cfgO32 (by decide))",
       "(Proof.Ops.sha2 Proof.Ops.sha2OK32 (by decide))")
S64 = ("128 16 0x80 counterBE128", "(SHA2.compress SHA2.cfg64 (by decide))", "(SHA2.compressO SHA2.cfgO64 (by decide))",
       "(Proof.Ops.sha2 Proof.Ops.sha2OK64 (by decide))")
LE, BE = "64 8 0x80 counterLE64", "64 8 0x80 counterBE64"
MD = [
    ("SHA1", "SHA1.SHA1", (BE, "SHA1.compress", "SHA1.compressO", "Proof.Ops.sha1"), "SHA1.iv", "SHA1.toArray"),
    ("SHA2_224", "SHA2.SHA2_224", S32, "SHA2.iv224", "(SHA2.toArray 4 7 28 fun _ => [])"),
    ("SHA2_256", "SHA2.SHA2_256", S32, "SHA2.iv256", "(SHA2.toArray 4 8 32 fun _ => [])"),
    ("SHA2_384", "SHA2.SHA2_384", S64, "SHA2.iv384", "(SHA2.toArray 8 6 48 fun _ => [])"),
    ("SHA2_512", "SHA2.SHA2_512", S64, "SHA2.iv512", "(SHA2.toArray 8 8 64 fun _ => [])"),
    ("SHA2_512_224", "SHA2.SHA2_512_224", S64, "SHA2.iv512_224", X224),
    ("SHA2_512_256", "SHA2.SHA2_512_256", S64, "SHA2.iv512_256", "(SHA2.toArray 8 4 32 fun _ => [])"),
    ("MD4", "MD4.MD4", (LE, "MD4.compress", "MD4.compressO", "Proof.Ops.md4"), "MD4.iv", "MD4.toArray"),
    ("MD5", "MD5.MD5", (LE, "MD5.compress", "MD5.compressO", "Proof.Ops.md5"), "MD5.iv", "MD5.toArray"),
    ("HAS_160", "HAS160.HAS_160", (LE, "HAS160.compress", "HAS160.compressO", "Proof.Ops.has160"), "HAS160.iv", "HAS160.toArray"),
    ("HAS_V_320", "HASV.HAS_V_320", ("128 9 (1 <<< 7) HASV.counter", "HASV.compress", "HASV.compressO", "Proof.Ops.hasv"),
     "HASV.iv", "HASV.toArray"),
    ("SM3", "SM3.SM3", (BE, "SM3.compress", "SM3.compressO", "Proof.Ops.sm3"), "SM3.iv", "SM3.toArray"),
] + [(f"RIPEMD_{n}", f"RIPEMD.RIPEMD_{n}", (LE, f"RIPEMD.compress{n}", f"RIPEMD.compress{n}O", f"Proof.Ops.ripemd{n}"),
      f"RIPEMD.iv{n}", "RIPEMD.toArray") for n in (128, 160, 256, 320)]


def md():
    s = ""
    for name, cls, (par, f, g, pf), iv, out in MD:
        s += (f"theorem C61_{name} : Steady {f} {g} ∧\n"
              f"    {cls}.Oblivious (mdApiO {par} {g} {iv} {out})\n"
              f"      mdUnlogged (fun o => o.chain.h.2) :=\n"
              f"  ⟨{pf}, Proof.Ops.oblivious (Proof.Ops.mdSame _ {pf} _ _ _)⟩\n\n")
    return s


def blake():
    s = ""
    for n, L, cfg, marker, words, zero, tot, wr, k in [
            (224, 8, "224", "false", 7, "0", "cntAdd64", "lenWritesBE64", 4),
            (256, 8, "256", "true", 8, "0", "cntAdd64", "lenWritesBE64", 4),
            (384, 16, "512", "false", 6, "{}", "cntAdd128", "lenWritesBE128", 8),
            (512, 16, "512", "true", 8, "{}", "cntAdd128", "lenWritesBE128", 8)]:
        s += (f"/-- `p` is the number of bytes of padding, which decides how the counter is mixed in. -/\n"
              f"theorem C61_Blake1_{n} : (∀ p, Steady (BLAKE.body BLAKE.cfg{cfg} p) (BLAKE.bodyO BLAKE.cfgO{cfg} p)) ∧\n"
              f"    BLAKE.Blake1_{n}.Oblivious (BLAKE.apiO BLAKE.cfgO{cfg} {L} {marker} {tot} {wr} ⟨{zero}, BLAKE.iv{n}⟩ {k} {words} {words * k})\n"
              f"      Obj.unlogged (fun o => o.chain.2) :=\n"
              f"  ⟨Proof.Ops.BLAKE.steady Proof.Ops.BLAKE.ok{cfg}, Proof.Ops.oblivious (Proof.Ops.BLAKE.same Proof.Ops.BLAKE.ok{cfg} _ _ _ _ _ _ _ _)⟩\n\n")
    for name, x, k, size in [("Blake2", "2", 8, 64), ("Blake2s", "2s", 4, 32)]:
        s += (f"/-- `f` tells the last block from the others, `p` is its number of bytes of padding. -/\n"
              f"theorem C61_{name} : (∀ f p, Steady (BLAKE2.body BLAKE2.cfg{x} f p) (BLAKE2.bodyO BLAKE2.cfgO{x} f p)) ∧\n"
              f"    BLAKE2.{name}.Oblivious (BLAKE2.apiO BLAKE2.cfgO{x} {k} {size}) Obj.unlogged (fun o => o.chain.2) :=\n"
              f"  ⟨Proof.Ops.BLAKE2.steady Proof.Ops.BLAKE2.ok{x}, Proof.Ops.oblivious (Proof.Ops.BLAKE2.same Proof.Ops.BLAKE2.ok{x} _ _)⟩\n\n")
    return s


def sha3():
    s = ('/-- every rate, padding byte and length of the output -/\n'
         'theorem C61_Keccak (R : Nat) [SHA3.RateOK R] (P : Byte) (d : Nat) : Steady (SHA3.body (R := R)) (SHA3.bodyO (R := R)) ∧\n'
         '    (SHA3.Keccak R P d).Oblivious (SHA3.KeccakO R P d) Obj.unlogged (fun o => o.chain.2) :=\n'
         '  ⟨Proof.Ops.SHA3.steady, Proof.Ops.oblivious (Proof.Ops.SHA3.same P d)⟩\n\n')
    for bits, R in [(224, 144), (256, 136), (384, 104), (512, 72)]:
        s += (f"theorem C61_SHA3_{bits} : SHA3.SHA3_{bits}.Oblivious (SHA3.KeccakO {R} 0x06 {bits // 8}) Obj.unlogged (fun o => o.chain.2) :=\n"
              f"  (C61_Keccak {R} 0x06 {bits // 8}).2\n\n")
    for bits, R in [(128, 168), (256, 136)]:
        s += (f"theorem C61_SHAKE_{bits} (d : Nat) : (SHA3.SHAKE_{bits} d).Oblivious (SHA3.KeccakO {R} 0x1F d) Obj.unlogged\n"
              f"    (fun o => o.chain.2) := (C61_Keccak {R} 0x1F d).2\n\n")
    return s



open(OUT, "w").write(HEAD + md() + blake() + sha3() + open(os.path.join(HERE, "ops_tail.txt")).read())


# C63

OUT2 = os.path.join(HERE, "..", "lean", "Verif", "Props", "OpsDefined.lean")

HEAD2 = '''import Verif.Proof.OpsDefinedRun

/-!
# C63: no shift is undefined

Generated by tools/gen_ops.py. In C++ `x << s` and `x >> s` are undefined if `s` is the number of bits of `x` or more; a
rotation by 0 written as two shifts is the classical case. The classes with a log (C61) write down every shift that their
block functions execute, with the width of the word and the amount. Each theorem says that the block function makes no
undefined shift on any state and block, and that no program that uses the class, legal or not, has made one.
That the classes with a log compute what the classes compute is C61.
-/

namespace Verif.Props
open Model

'''

PF = {"SHA2_224": "sha2_32", "SHA2_256": "sha2_32", "SHA2_384": "sha2_64", "SHA2_512": "sha2_64", "SHA2_512_224": "sha2_64",
      "SHA2_512_256": "sha2_64", "HAS_160": "has160", "HAS_V_320": "hasv"}


def defined():
    s = ""
    for name, cls, (par, f, g, pf), iv, out in MD:
        pf = PF.get(name, name.lower().replace("_", ""))
        s += (f"theorem C63_{name} : DefinedSteps {g} ∧\n"
              f"    (mdApiO {par} {g} {iv} {out}).Defined (fun o => o.chain.h.2) :=\n"
              f"  ⟨Proof.OpsDefined.{pf}, Proof.OpsDefined.md _ Proof.OpsDefined.{pf} _ _ _⟩\n\n")
    for n, L, cfg, marker, words, zero, tot, wr, k in [
            (224, 8, "224", "false", 7, "0", "cntAdd64", "lenWritesBE64", 4),
            (256, 8, "256", "true", 8, "0", "cntAdd64", "lenWritesBE64", 4),
            (384, 16, "512", "false", 6, "{}", "cntAdd128", "lenWritesBE128", 8),
            (512, 16, "512", "true", 8, "{}", "cntAdd128", "lenWritesBE128", 8)]:
        s += (f"/-- `p` is the number of bytes of padding, which decides how the counter is mixed in. -/\n"
              f"theorem C63_Blake1_{n} : (∀ p, DefinedSteps (BLAKE.bodyO BLAKE.cfgO{cfg} p)) ∧\n"
              f"    (BLAKE.apiO BLAKE.cfgO{cfg} {L} {marker} {tot} {wr} ⟨{zero}, BLAKE.iv{n}⟩ {k} {words} {words * k}).Defined\n"
              f"      (fun o => o.chain.2) :=\n"
              f"  ⟨Proof.OpsDefined.blake{cfg}, Proof.OpsDefined.blakeClass Proof.OpsDefined.blake{cfg} _ _ _ _ _ _ _ _⟩\n\n")
    for name, x, k, size in [("Blake2", "2", 8, 64), ("Blake2s", "2s", 4, 32)]:
        b = "blake2b" if x == "2" else "blake2s"
        s += (f"/-- `f` tells the last block from the others, `p` is its number of bytes of padding. -/\n"
              f"theorem C63_{name} : (∀ f p, DefinedSteps (BLAKE2.bodyO BLAKE2.cfgO{x} f p)) ∧\n"
              f"    (BLAKE2.apiO BLAKE2.cfgO{x} {k} {size}).Defined (fun o => o.chain.2) :=\n"
              f"  ⟨Proof.OpsDefined.{b}, Proof.OpsDefined.blake2Class Proof.OpsDefined.{b} _ _⟩\n\n")
    s += ("/-- SHA3 and SHAKE: every rate, padding byte and length of the output -/\n"
          "theorem C63_Keccak (R : Nat) [SHA3.RateOK R] (P : Byte) (d : Nat) : DefinedSteps (SHA3.bodyO (R := R)) ∧\n"
          "    (SHA3.KeccakO R P d).Defined (fun o => o.chain.2) :=\n"
          "  ⟨Proof.OpsDefined.sha3, Proof.OpsDefined.keccakClass P d⟩\n\n")
    for bits, R in [(224, 144), (256, 136), (384, 104), (512, 72)]:
        s += (f"theorem C63_SHA3_{bits} : (SHA3.KeccakO {R} 0x06 {bits // 8}).Defined (fun o => o.chain.2) := "
              f"(C63_Keccak {R} 0x06 {bits // 8}).2\n\n")
    for bits, R in [(128, 168), (256, 136)]:
        s += (f"theorem C63_SHAKE_{bits} (d : Nat) : (SHA3.KeccakO {R} 0x1F d).Defined (fun o => o.chain.2) := "
              f"(C63_Keccak {R} 0x1F d).2\n\n")
    return s


open(OUT2, "w").write(HEAD2 + defined() + open(os.path.join(HERE, "opsdefined_tail.txt")).read())
