#!/usr/bin/env python3
"""Writes lean/Verif/Props/Access.lean: C53 for every class."""
import os
here = os.path.dirname(os.path.abspath(__file__))
out = '''import Verif.Proof.Access
import Verif.Proof.Lookups
import Verif.Model.HASV
import Verif.Model.SHA2
import Verif.Model.RIPEMD
import Verif.Model.Tiger
import Verif.Model.Whirlpool
import Verif.Model.SHA1
import Verif.Model.MD4
import Verif.Model.HAS160
import Verif.Model.SM3

/-!
# C53: the addresses that are accessed depend on lengths only

Generated by tools/gen_access.py. `API.SameAccesses` is defined in Core/Access.lean: two threads make the same calls
with bytes of their own, and whoever sees nothing but the addresses of their accesses to memory cannot tell one from
the other. The calls come in any order, and nothing is asked of the memory: the theorems cover runs that end with a
fault too. `bodyAct` is any way to read a block (`Reads`) in an order that does not depend on data (`Straight`).
Accesses to the constant tables of the library are not among these; see the end of this file.
-/

namespace Verif.Props
open Model Proof.Access

'''
def md(name, api, B, c, comp, places, ln, b=''):
    global out
    out += (f'theorem C53_{name}{b} (self : Nat) {{bodyAct}} (hb : Straight bodyAct) (hr : Reads bodyAct {comp}) :\n'
            f'    {api}.SameAccesses {api} (addDataAct {B} (mdImplAct {B} {c} bodyAct) self) :=\n'
            f'  mdSame hb hr {places} (fun _ _ => resultAgree _ (by simp only [{ln}, Vector.length_toList])) self\n')
BE, LE, W = ('counterBE64', 'places_be64'), ('counterLE64', 'places_le64'), ('counterBE128', 'places_be128')
def m(name, api, B, c, comp, ln, b=''): md(name, api, B, c[0], comp, c[1], ln, b)
m('SHA1', 'SHA1.SHA1', 64, BE, 'SHA1.compress', 'length_be')
for n in ('224', '256', '384', '512', '512_224', '512_256'):
    w, B, c = (32, 64, 'counterBE64') if n in ('224', '256') else (64, 128, 'counterBE128')
    out += (f'theorem C53_SHA2_{n} (self : Nat) {{bodyAct}} (hb : Straight bodyAct) (hr : Reads bodyAct (SHA2.compress SHA2.cfg{w} (by decide))) :\n'
            f'    SHA2.SHA2_{n}.SameAccesses SHA2.SHA2_{n} (addDataAct {B} (mdImplAct {B} {c} bodyAct) self) :=\n'
            f'  sha2Same{w} _ _ _ {"(fun _ _ => rfl) " if w == 64 else ""}hb hr self\n')
m('MD4', 'MD4.MD4', 64, LE, 'MD4.compress', 'length_le')
m('MD5', 'MD5.MD5', 64, LE, 'MD5.compress', 'length_le')
for n in ('128', '160', '256', '320'): m('RIPEMD_' + n, 'RIPEMD.RIPEMD_' + n, 64, LE, 'RIPEMD.compress' + n, 'length_le')
m('HAS_160', 'HAS160.HAS_160', 64, LE, 'HAS160.compress', 'length_le')
m('SM3', 'SM3.SM3', 64, BE, 'SM3.compress', 'length_be')
m('Tiger', '(Tiger.Tiger V D)', 64, LE, 'Tiger.compress', 'length_le', ' (V D : Nat)')
m('Whirlpool', 'Whirlpool.Whirlpool', 64, W, 'Whirlpool.compress', 'length_be')
for n, r in (('224', 144), ('256', 136), ('384', 104), ('512', 72)):
    out += (f'theorem C53_SHA3_{n} (self : Nat) {{bodyAct}} (hb : Straight bodyAct) (hr : Reads bodyAct (SHA3.body (R := {r}))) :\n'
            f'    SHA3.SHA3_{n}.SameAccesses SHA3.SHA3_{n} (addDataAct {r} (SHA3.implAct {r} bodyAct) self) :=\n  keccakSame _ _ hb hr self\n')
for n, r in (('128', 168), ('256', 136)):
    out += (f'theorem C53_SHAKE_{n} (d : Nat) (self : Nat) {{bodyAct}} (hb : Straight bodyAct) (hr : Reads bodyAct (SHA3.body (R := {r}))) :\n'
            f'    (SHA3.SHAKE_{n} d).SameAccesses (SHA3.SHAKE_{n} d) (addDataAct {r} (SHA3.implAct {r} bodyAct) self) :=\n  keccakSame _ _ hb hr self\n')
out += '''theorem C53_MD2 (self : Nat) {bodyAct} (hb : Straight bodyAct) (hr : Reads bodyAct MD2.body) :
    MD2.MD2.SameAccesses MD2.MD2 (addDataAct 16 (MD2.implAct bodyAct) self) := md2Same hb hr self
'''
for n, c, B, w in (('224', 'cfg224', 64, 32), ('256', 'cfg256', 64, 32), ('384', 'cfg512', 128, 64), ('512', 'cfg512', 128, 64)):
    out += (f'theorem C53_Blake1_{n} (self : Nat) {{bodyAct}} (hb : Straight bodyAct) (hr : Reads bodyAct (BLAKE.body BLAKE.{c} 0)) :\n'
            f'    BLAKE.Blake1_{n}.SameAccesses BLAKE.Blake1_{n} (addDataAct {B} (blakeImplAct {B} bodyAct) self) :=\n  blake{w}Same _ _ _ _ _ hb hr self\n')
for n, c, B in (('Blake2', 'cfg2', 128), ('Blake2s', 'cfg2s', 64)):
    out += (f'theorem C53_{n} (self : Nat) {{bodyAct}} (hb : Straight bodyAct) (hr : Reads bodyAct (BLAKE2.body BLAKE2.{c} false 0)) :\n'
            f'    BLAKE2.{n}.SameAccesses BLAKE2.{n} (fun o s => BLAKE2.addDataAct {B} (blakeImplAct {B} bodyAct) self s.size o s) :=\n  blake2Same _ _ _ hb hr self\n')
out += '''theorem C53_CRC_32 {bodyAct} (hb : Straight bodyAct) (hr : Reads bodyAct CRC32.body) :
    CRC32.CRC_32.SameAccesses CRC32.CRC_32 (CRC32.addDataAct bodyAct) := crcSame hb hr
'''
for w in (32, 64):
    for v, n in ((0, '0'), (1, '1'), (2, '1a')):
        out += f'theorem C53_FNV{w}_{n} : FNV.FNV{w}_{n}.SameAccesses FNV.FNV{w}_{n} (FNV.addDataAct {v}) := fnvSame {w} {v}\n'
out += open(os.path.join(here, 'access_tail.txt')).read()
open(os.path.join(here, '..', 'lean', 'Verif', 'Props', 'Access.lean'), 'w').write(out)
