#!/usr/bin/env python3
"""Writes lean/Verif/Props/Misuse.lean: C42 for every class."""
import os
root = os.path.join(os.path.dirname(os.path.abspath(__file__)), '..', 'lean', 'Verif', 'Props')
BE, LE, W = 'writesBE64', 'writesLE64', 'writesBE128'
cl = []  # name, binders, api, total, reading
def md(name, api, writes, out): cl.append((name, '', api, f'mdTotal (by decide) _ {writes} _ _ _', out, 'rfl'))
md('SHA1', 'SHA1.SHA1', BE, 'out_be 4 20 rfl _')
for n, words, size in (('224', 7, 28), ('256', 8, 32)):
    md('SHA2_' + n, 'SHA2.SHA2_' + n, BE, f'sha2_out 4 {words} {size} (by decide) rfl _')
for n, words, size in (('384', 6, 48), ('512', 8, 64), ('512_256', 4, 32)):
    md('SHA2_' + n, 'SHA2.SHA2_' + n, W, f'sha2_out 8 {words} {size} (by decide) rfl _')
md('SHA2_512_224', 'SHA2.SHA2_512_224', W, 'sha2_512_224_out _')
md('MD4', 'MD4.MD4', LE, 'out_le 4 16 rfl _')
md('MD5', 'MD5.MD5', LE, 'out_le 4 16 rfl _')
for n, s in (('128', 16), ('160', 20), ('256', 32), ('320', 40)):
    md('RIPEMD_' + n, 'RIPEMD.RIPEMD_' + n, LE, f'out_le 4 {s} rfl _')
md('HAS_160', 'HAS160.HAS_160', LE, 'out_le 4 20 rfl _')
md('SM3', 'SM3.SM3', BE, 'out_be 4 32 rfl _')
md('Tiger1_192', 'Tiger.Tiger1_192', LE, 'out_le 8 24 rfl _')
md('Tiger2_192', 'Tiger.Tiger2_192', LE, 'out_le 8 24 rfl _')
md('Whirlpool', 'Whirlpool.Whirlpool', 'writesBE128_32', 'out_be 8 64 rfl _')
for n, r, d in (('224', 144, 28), ('256', 136, 32), ('384', 104, 48), ('512', 72, 64)):
    cl.append(('SHA3_' + n, '', 'SHA3.SHA3_' + n, f'sha3Total {r} 0x06 {d}', '⟨_, rfl⟩', 'rfl'))
for n, r in (('128', 168), ('256', 136)):
    cl.append(('SHAKE_' + n, ' (d : Nat)', f'(SHA3.SHAKE_{n} d)', f'sha3Total {r} 0x1F d', '⟨_, rfl⟩', 'rfl'))
cl.append(('MD2', '', 'MD2.MD2', 'md2Total', '⟨_, rfl⟩', 'rfl'))
for n, words, size, k in (('224', 7, 28, 4), ('256', 8, 32, 4), ('384', 6, 48, 8), ('512', 8, 64, 8)):
    cl.append(('Blake1_' + n, '', 'BLAKE.Blake1_' + n, f'blake{8 * k}Total _ _ _ _ _', f'out_take {k} {words} {size} (by decide) rfl _', 'rfl'))
cl.append(('Blake2', '', 'BLAKE2.Blake2', 'blake2Total (by decide) BLAKE2.cfg2 8 64', 'out_le 8 64 rfl _', 'rfl'))
cl.append(('Blake2s', '', 'BLAKE2.Blake2s', 'blake2Total (by decide) BLAKE2.cfg2s 4 32', 'out_le 4 32 rfl _', 'rfl'))
cl.append(('SipHash', ' (C D : Nat) (key : Block 16)', '(SipHash.SipHashCD C D key)', 'sipTotal C D key', 'result_ok _ _ (be_length 8 _)', 'sip'))
cl.append(('CRC_32', '', 'CRC32.CRC_32', 'crcTotal', 'result_ok _ _ (be_length 4 _)', 'rfl'))
for w in (32, 64):
    for v, n in ((0, '0'), (1, '1'), (2, '1a')):
        cl.append((f'FNV{w}_{n}', '', f'FNV.FNV{w}_{n}', f'fnvTotal {w} {v}', f'result_ok _ _ (be_length {w // 8} _)', 'rfl' if v else None))
out = '''import Verif.Proof.Misuse
import Verif.Proof.Frozen
import Verif.Props.Streaming
import Verif.Props.Tiger
import Verif.Proof.CShake

/-!
# C42: calls in an order the documentation forbids

Generated by tools/gen_misuse.py. `NeverFaults` and `ResetRepairs` are defined in Core/Misuse.lean.
-/

namespace Verif.Props
open Model Proof.Misuse

'''
for name, b, api, tot, rd, rs in cl:
    out += f'theorem C42_{name}{b} : {api}.NeverFaults := ({tot}).neverFaults fun _ _ => {rd}\n'
    if rs == 'rfl':
        out += f'theorem C42_{name}_reset{b} : {api}.ResetRepairs := ({tot}).resetRepairs fun _ _ => rfl\n'
    elif rs == 'sip':
        out += f'theorem C42_{name}_reset{b} : {api}.ResetRepairs := ({tot}).resetRepairs (sip_reset C D key)\n'
out += open(os.path.join(os.path.dirname(os.path.abspath(__file__)), 'misuse_tail.txt')).read()
open(os.path.join(root, 'Misuse.lean'), 'w').write(out)
