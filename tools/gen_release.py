#!/usr/bin/env python3
"""Writes lean/Verif/Props/Release.lean: C48 for every class."""
import os
here = os.path.dirname(os.path.abspath(__file__))
BE, LE, W = ('counterBE64', 'writesBE64'), ('counterLE64', 'writesLE64'), ('counterBE128', 'writesBE128')
cl = []  # name, binders, api, release, twin, total
def md(name, api, B, L, pad, c, comp, iv, out, b=''):
    cl.append((name, b, api, f'mdApiR {B} {L} {pad} {c[0]} {comp} {iv} {out}', 'md _ _ _ _ _ _ _', f'mdTotal (by decide) _ {c[1]} _ _ _'))
def md64(ns, name, c, comp='compress', iv='iv'):
    md(name, f'{ns}.{name}', 64, 8, '0x80', c, f'{ns}.{comp}', f'{ns}.{iv}', f'{ns}.toArray')
md64('SHA1', 'SHA1', BE)
for n, words, size in (('224', 7, 28), ('256', 8, 32)):
    md('SHA2_' + n, 'SHA2.SHA2_' + n, 64, 8, '0x80', BE, '(SHA2.compress SHA2.cfg32 (by decide))', 'SHA2.iv' + n,
       f'(SHA2.toArray 4 {words} {size} (fun _ => []))')
for n, words, size, ex in (('384', 6, 48, '[]'), ('512', 8, 64, '[]'), ('512_224', 3, 28, '[ror 8 mh[3] 56, ror 8 mh[3] 48, ror 8 mh[3] 40, ror 8 mh[3] 32]'), ('512_256', 4, 32, '[]')):
    md('SHA2_' + n, 'SHA2.SHA2_' + n, 128, 16, '0x80', W, '(SHA2.compress SHA2.cfg64 (by decide))', 'SHA2.iv' + n,
       f'(SHA2.toArray 8 {words} {size} (fun {"mh" if "mh" in ex else "_"} => {ex}))')
for n in ('MD4', 'MD5'): md64(n, n, LE)
for n in ('128', '160', '256', '320'): md64('RIPEMD', 'RIPEMD_' + n, LE, 'compress' + n, 'iv' + n)
md64('HAS160', 'HAS_160', LE)
md64('SM3', 'SM3', BE)
md('Tiger', '(Tiger.Tiger V D)', 64, 8, '(if V = 1 then 1 else 1 <<< 7)', LE, 'Tiger.compress', 'Tiger.iv', '(Tiger.toArray D)', ' (V D : Nat)')
md('Whirlpool', 'Whirlpool.Whirlpool', 64, 32, '(1 <<< 7)', ('counterBE128', 'writesBE128_32'), 'Whirlpool.compress', 'Whirlpool.iv', 'Whirlpool.toArray')
for n, r, d in (('224', 144, 28), ('256', 136, 32), ('384', 104, 48), ('512', 72, 64)):
    cl.append(('SHA3_' + n, '', 'SHA3.SHA3_' + n, f'SHA3.KeccakR {r} 0x06 {d}', 'sha3 _ _ _', f'sha3Total {r} 0x06 {d}'))
for n, r in (('128', 168), ('256', 136)):
    cl.append(('SHAKE_' + n, ' (d : Nat)', f'(SHA3.SHAKE_{n} d)', f'SHA3.KeccakR {r} 0x1F d', 'sha3 _ _ _', f'sha3Total {r} 0x1F d'))
cl.append(('MD2', '', 'MD2.MD2', 'MD2.MD2R', 'md2', 'md2Total'))
for n, c, m, w, words, size in (('224', 'cfg224', 'false', 32, 7, 28), ('256', 'cfg256', 'true', 32, 8, 32), ('384', 'cfg512', 'false', 64, 6, 48), ('512', 'cfg512', 'true', 64, 8, 64)):
    cl.append(('Blake1_' + n, '', 'BLAKE.Blake1_' + n, f'BLAKE.api{w}R BLAKE.{c} {m} BLAKE.iv{n} {words} {size}', f'blake{w} _ _ _ _ _', f'blake{w}Total _ _ _ _ _'))
for n, c, k, s in (('Blake2', 'cfg2', 8, 64), ('Blake2s', 'cfg2s', 4, 32)):
    cl.append((n, '', 'BLAKE2.' + n, f'BLAKE2.apiR BLAKE2.{c} {k} {s}', 'blake2 _ _ _', f'blake2Total (by decide) BLAKE2.{c} {k} {s}'))
cl.append(('SipHash', ' (C D : Nat) (key : Block 16)', '(SipHash.SipHashCD C D key)', 'SipHash.SipHashCDR C D key', 'sip C D key', 'sipTotal C D key'))
out = '''import Verif.Proof.Release
import Verif.Props.Misuse

/-!
# C48: a release build computes what a debug build computes

Generated by tools/gen_release.py. `API.SameBuild` is defined in Model/Release.lean: after the same calls, in any
order, the two builds hold the same object and read the same digest from it. The release build has neither the
check in `Buffer::fill` nor the assertions; CRC_32 and the FNV classes have none to begin with.
-/

namespace Verif.Props
open Model Proof.Misuse Proof.Release

'''
for name, b, api, rel, twin, total in cl:
    out += f'theorem C48_{name}{b} :\n    {api}.SameBuild ({rel}) :=\n  same ({twin}) ({total})\n'
out += open(os.path.join(here, 'release_tail.txt')).read()
open(os.path.join(here, '..', 'lean', 'Verif', 'Props', 'Release.lean'), 'w').write(out)
