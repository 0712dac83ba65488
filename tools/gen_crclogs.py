#!/usr/bin/env python3
"""Writes lean/Verif/Proof/CRC32Logs.lean: the columns of 1, 2, 4, ... steps of the CRC-32 register, and the logarithms of
z^d + 1 for odd d below 3006 (Pohlig-Hellman; the order 2^32 - 1 is 3 * 5 * 17 * 257 * 65537). Nothing here is trusted:
the kernel verifies every number."""
import os
N = 2**32 - 1
def z(x): return (x >> 1) ^ (0xEDB88320 if x & 1 else 0)
def mul(t, v):
    acc = 0
    for i in range(31, -1, -1):
        if (t >> i) & 1: acc ^= v
        v = z(v)
    return acc
E = 1 << 31
def power(b, a):
    r = E
    while a:
        if a & 1: r = mul(r, b)
        b = mul(b, b); a >>= 1
    return r
X = z(E)
tabs = {}
for p in [3, 5, 17, 257, 65537]:
    g = power(X, N // p); d = {}; v = E
    for i in range(p):
        d[v] = i; v = mul(v, g)
    tabs[p] = d
def dlog(t):
    r = 0
    for p, d in tabs.items():
        m = N // p
        r += d[power(t, m)] * m * pow(m, -1, p)
    return r % N
logs = []
v = X
for d in range(1, 3006, 2):
    l = dlog(v ^ E)
    assert power(X, l) == v ^ E
    logs.append(l)
    v = z(z(v))
def wrap(ns, ind):
    out, line = [], ind
    for i, n in enumerate(ns):
        s = str(n) + (', ' if i + 1 < len(ns) else '')
        if len(line) + len(s) > 118:
            out.append(line.rstrip()); line = ind
        line += s
    out.append(line)
    return '\n'.join(out)
mats = [[z(1 << i) for i in range(32)]]
for k in range(31):
    m = mats[-1]
    def app(x):
        r = 0
        for i in range(32):
            if x >> i & 1: r ^= m[i]
        return r
    mats.append([app(c) for c in m])
o = '''import Verif.Proof.CRC32Four

/-!
The numbers for `CRC32Four`, written by tools/gen_crclogs.py, and its checks, evaluated by the kernel: every number in
this file is verified.
-/

namespace Verif.Proof.CRC32
open Spec Spec.CRC32

set_option maxRecDepth 1000000
set_option Elab.async false

/-- the columns of 1 step, ... -/
def mat0 : List Nat := [
%s]

/-- ... and of 2, 4, ..., 2^31 steps -/
def mats : List (List Nat) := [
%s]

/-- the logarithms of the odd numbers 1, 3, ..., 3005 -/
def logs : List Nat := [
%s]

theorem mat0_ok : mat0 = colsN (zn (2 ^ 0)) := by decide +kernel
theorem mats_ok : matsOk mats mat0 = true := by decide +kernel
theorem mats_length : mats.length = 31 := by decide +kernel
theorem logs_length : logs.length = 1503 := by decide +kernel
theorem logs_ok : oddOk (mat0 :: mats) logs (zN 1) = true := by decide +kernel
theorem four_ok : fourOk 3006 logs = true := by decide +kernel

theorem mats_eq : mat0 :: mats = mapsN 32 0 := by
  have h := mats_ok
  rw [mat0_ok] at h
  have h := matsOk_eq mats 0 h
  rw [mats_length] at h
  rw [mat0_ok, h]; rfl

/-- no four of the first 3006 values, the first of them the start, cancel out -/
theorem quadrinomials (a b c : Nat) (ha : 0 < a) (hb : 0 < b) (hc : 0 < c) (hs : a + (b + c) < 3006) :
    zn (a + (b + c)) 1 ^^^ zn (b + c) 1 ≠ zn c 1 ^^^ 1 := by
  have h := logs_ok
  rw [mats_eq] at h
  exact no_quadrinomial 3006 (by decide) logs (by rw [logs_length]; decide) (by rw [logs_length]; decide) h four_ok a b c ha hb hc hs

end Verif.Proof.CRC32
''' % (wrap(mats[0], '  '), ',\n'.join('  [' + wrap(m, '   ').lstrip() + ']' for m in mats[1:]), wrap(logs, '  '))
open(os.path.join(os.path.dirname(os.path.abspath(__file__)), '../lean/Verif/Proof/CRC32Logs.lean'), 'w').write(o)
