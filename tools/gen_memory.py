#!/usr/bin/env python3
"""Writes lean/Verif/Props/Memory.lean: C47 for every class."""
import os
root = os.path.join(os.path.dirname(os.path.abspath(__file__)), '..', 'lean', 'Verif', 'Props')
BE, LE, W = ('counterBE64', 'writesBE64'), ('counterLE64', 'writesLE64'), ('counterBE128', 'writesBE128')
cl = []  # name, binders, api, addAt, proof
def block(name, b, api, B, implAt, total, agrees, P='fun _ => True'):
    cl.append((name, b, api, f'addDataAt {B} ({implAt}) self',
               f'blockSafe (B := {B}) (P := {P}) ({total}) (fun _ h => h) rfl (by decide) (by decide) ({agrees}) hs'))
def md(name, api, B, c, comp, b=''):
    block(name, b, api, B, f'mdImplAt {B} {c[0]} {comp}', f'mdTotal (by decide) _ {c[1]} _ _ _', 'mdAgrees _ _ _')
md('SHA1', 'SHA1.SHA1', 64, BE, 'SHA1.compress')
for n in ('224', '256'): md('SHA2_' + n, 'SHA2.SHA2_' + n, 64, BE, '(SHA2.compress SHA2.cfg32 (by decide))')
for n in ('384', '512', '512_224', '512_256'): md('SHA2_' + n, 'SHA2.SHA2_' + n, 128, W, '(SHA2.compress SHA2.cfg64 (by decide))')
md('MD4', 'MD4.MD4', 64, LE, 'MD4.compress')
md('MD5', 'MD5.MD5', 64, LE, 'MD5.compress')
for n in ('128', '160', '256', '320'): md('RIPEMD_' + n, 'RIPEMD.RIPEMD_' + n, 64, LE, 'RIPEMD.compress' + n)
md('HAS_160', 'HAS160.HAS_160', 64, LE, 'HAS160.compress')
md('SM3', 'SM3.SM3', 64, BE, 'SM3.compress')
md('Tiger', '(Tiger.Tiger V D)', 64, LE, 'Tiger.compress', ' (V D : Nat)')
md('Whirlpool', 'Whirlpool.Whirlpool', 64, ('counterBE128', 'writesBE128_32'), 'Whirlpool.compress')
for n, r, d in (('224', 144, 28), ('256', 136, 32), ('384', 104, 48), ('512', 72, 64)):
    block('SHA3_' + n, '', 'SHA3.SHA3_' + n, r, f'SHA3.implAt {r}', f'sha3Total {r} 0x06 {d}', f'sha3Agrees {r}')
for n, r in (('128', 168), ('256', 136)):
    block('SHAKE_' + n, ' (d : Nat)', f'(SHA3.SHAKE_{n} d)', r, f'SHA3.implAt {r}', f'sha3Total {r} 0x1F d', f'sha3Agrees {r}')
block('MD2', '', 'MD2.MD2', 16, 'MD2.implAt', 'md2Total', 'md2Agrees')
for n, c, B, w in (('224', 'cfg224', 64, 32), ('256', 'cfg256', 64, 32), ('384', 'cfg512', 128, 64), ('512', 'cfg512', 128, 64)):
    block('Blake1_' + n, '', 'BLAKE.Blake1_' + n, B, f'BLAKE.implAt BLAKE.{c} 0', f'blake{w}Total _ _ _ _ _', 'blakeAgrees _ _')
block('SipHash', ' (C D : Nat) (key : Block 16)', '(SipHash.SipHashCD C D key)', 8, 'SipHash.implAt C', 'sipTotal C D key', 'sipAgrees C', 'fun s => s.key = #v[loadLE64 key 0, loadLE64 key 1]')
for n, c, B, k, s in (('Blake2', 'cfg2', 128, 8, 64), ('Blake2s', 'cfg2s', 64, 4, 32)):
    cl.append((n, '', 'BLAKE2.' + n, f'fun o mem s => BLAKE2.addDataAt {B} (BLAKE2.implAt BLAKE2.{c} false 0) self mem s.size o s',
        f'memorySafe (blake2Total (by decide) BLAKE2.{c} {k} {s}) fun o ho _ p d hm hp hd =>\n    blake2At_eq (blake2Agrees BLAKE2.{c} false 0) (by decide) hs d.length o p d ho (Nat.le_refl _) hm hp hd'))
cl2 = [('CRC_32', 'CRC32.CRC_32', 'CRC32.addDataAt', 'memorySafe crcTotal fun o _ mem p d => crcAgrees o mem p d')]
for w in (32, 64):
    for v, n in ((0, '0'), (1, '1'), (2, '1a')):
        cl2.append((f'FNV{w}_{n}', f'FNV.FNV{w}_{n}', f'FNV.addDataAt {v}', f'memorySafe (fnvTotal {w} {v}) fun o _ mem p d => fnvAgrees {w} {v} o mem p d'))
out = '''import Verif.Proof.Spans
import Verif.Props.Misuse

/-!
# C47: `addData` reads the bytes it is given and nothing else, and keeps no pointer to them

Generated by tools/gen_memory.py. `API.MemorySafe` is defined in Core/Memory.lean: a history of calls with
pointers, each in a memory of its own in which only the caller's bytes need to be readable, succeeds and leaves
the same object as the history with the bytes as lists. `self` is the address of the buffer in the object.
-/

namespace Verif.Props
open Model Proof.Misuse Proof.Memory

'''
for name, b, api, at, pf in cl:
    out += f'theorem C47_{name}{b} (self : Nat) (hs : self ≠ 0) :\n    {api}.MemorySafe ({at}) :=\n  {pf}\n'
for name, api, at, pf in cl2:
    out += f'theorem C47_{name} : {api}.MemorySafe ({at}) := {pf}\n'
out += open(os.path.join(os.path.dirname(os.path.abspath(__file__)), 'memory_tail.txt')).read()
open(os.path.join(root, 'Memory.lean'), 'w').write(out)
