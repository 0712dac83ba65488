#!/usr/bin/env python3
"""Writes lean/Verif/Props/Threads.lean: C51 for every class."""
import os
here = os.path.dirname(os.path.abspath(__file__))
cl = []  # name, binders, api, type of the body, body, addAct, sim, arguments of C47
def block(name, b, api, B, body, implAct, sim, args='', ):
    cl.append((name, b, api, body, f'addDataAct {B} ({implAct}) self', f'simAddData ({sim} h) self', f'{args} self hs', True))
def md(name, api, B, c, comp, b='', args=''):
    block(name, b, api, B, comp, f'mdImplAct {B} {c} bodyAct', 'simMd', args)
BE, LE, W = 'counterBE64', 'counterLE64', 'counterBE128'
md('SHA1', 'SHA1.SHA1', 64, BE, 'SHA1.compress')
for n in ('224', '256'): md('SHA2_' + n, 'SHA2.SHA2_' + n, 64, BE, '(SHA2.compress SHA2.cfg32 (by decide))')
for n in ('384', '512', '512_224', '512_256'): md('SHA2_' + n, 'SHA2.SHA2_' + n, 128, W, '(SHA2.compress SHA2.cfg64 (by decide))')
md('MD4', 'MD4.MD4', 64, LE, 'MD4.compress')
md('MD5', 'MD5.MD5', 64, LE, 'MD5.compress')
for n in ('128', '160', '256', '320'): md('RIPEMD_' + n, 'RIPEMD.RIPEMD_' + n, 64, LE, 'RIPEMD.compress' + n)
md('HAS_160', 'HAS160.HAS_160', 64, LE, 'HAS160.compress')
md('SM3', 'SM3.SM3', 64, BE, 'SM3.compress')
md('Tiger', '(Tiger.Tiger V D)', 64, LE, 'Tiger.compress', ' (V D : Nat)', ' V D')
md('Whirlpool', 'Whirlpool.Whirlpool', 64, 'counterBE128', 'Whirlpool.compress')
for n, r in (('224', 144), ('256', 136), ('384', 104), ('512', 72)):
    block('SHA3_' + n, '', 'SHA3.SHA3_' + n, r, f'(SHA3.body (R := {r}))', f'SHA3.implAct {r} bodyAct', 'simSha3')
for n, r in (('128', 168), ('256', 136)):
    block('SHAKE_' + n, ' (d : Nat)', f'(SHA3.SHAKE_{n} d)', r, f'(SHA3.body (R := {r}))', f'SHA3.implAct {r} bodyAct', 'simSha3', ' d')
block('MD2', '', 'MD2.MD2', 16, 'MD2.body', 'MD2.implAct bodyAct', 'simMd2')
for n, c, B in (('224', 'cfg224', 64), ('256', 'cfg256', 64), ('384', 'cfg512', 128), ('512', 'cfg512', 128)):
    block('Blake1_' + n, '', 'BLAKE.Blake1_' + n, B, f'(BLAKE.body BLAKE.{c} 0)', f'blakeImplAct {B} bodyAct', 'simBlake')
block('SipHash', ' (C D : Nat) (key : Block 16)', '(SipHash.SipHashCD C D key)', 8, '(SipHash.body C)', 'SipHash.implAct bodyAct', 'simSip', ' C D key')
for n, c, B in (('Blake2', 'cfg2', 128), ('Blake2s', 'cfg2s', 64)):
    cl.append((n, '', 'BLAKE2.' + n, f'(BLAKE2.body BLAKE2.{c} false 0)',
        f'fun o s => BLAKE2.addDataAct {B} (blakeImplAct {B} bodyAct) self s.size o s',
        'fun o s => simBlake2Add (simBlake2 h) self s.size o s', ' self hs', True))
cl.append(('CRC_32', '', 'CRC32.CRC_32', 'CRC32.body', 'CRC32.addDataAct bodyAct', 'simCrc h', '', False))
cl2 = []
for w in (32, 64):
    for v, n in ((0, '0'), (1, '1'), (2, '1a')):
        cl2.append((f'FNV{w}_{n}', f'FNV.FNV{w}_{n}', v))
out = '''import Verif.Proof.Threads
import Verif.Props.Memory
import Verif.Props.SHA2

/-!
# C51: threads do not disturb one another

Generated by tools/gen_threads.py. `API.ScheduleIndependent` is defined in Core/Threads.lean: a thread fills its
buffers and makes calls on an object of its own, other threads run in between as the schedule says, and what it gets
is the digest of its own calls. `bodyAct` is any way to read a block, see `Reads` there.
-/

namespace Verif.Props
open Model Proof.Threads

'''
for name, b, api, body, act, sim, args, selfd in cl:
    bs = ' (self : Nat) (hs : self ≠ 0)' if selfd else ''
    out += f'theorem C51_{name}{b}{bs} {{bodyAct}} (h : Reads bodyAct {body}) :\n    {api}.ScheduleIndependent ({act}) :=\n  scheduleIndependent (C47_{name}{args}) ({sim})\n'
for name, api, v in cl2:
    out += f'theorem C51_{name} : {api}.ScheduleIndependent (FNV.addDataAct {v}) := scheduleIndependent C47_{name} (simFnv {v})\n'
out += open(os.path.join(here, 'threads_tail.txt')).read()
open(os.path.join(here, '..', 'lean', 'Verif', 'Props', 'Threads.lean'), 'w').write(out)
