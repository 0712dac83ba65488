#!/usr/bin/env python3
"""Writes lean/Verif/Props/Machine.lean: C52 for every class."""
import os
here = os.path.dirname(os.path.abspath(__file__))
BE, LE, W = ('counterBE64M', 'writesBE64', 'sameBE64'), ('counterLE64M', 'writesLE64', 'sameLE64'), ('counterBE128M', 'writesBE128', 'sameBE128')
cl = []  # name, binders, api, machine, twin
def md(name, api, B, L, pad, c, comp, iv, out, b=''):
    cl.append((name, b, api, f'mdApiM m {B} {L} {pad} ({c[0]} m) {comp} {iv} {out}',
               f'md (by decide) (by have := big h; omega) _ ({c[2]} m) Proof.Misuse.{c[1]} _ _ _'))
def md64(ns, name, c, comp='compress', iv='iv'):
    md(name, f'{ns}.{name}', 64, 8, '0x80', c, f'{ns}.{comp}', f'{ns}.{iv}', f'{ns}.toArray')
md64('SHA1', 'SHA1', BE)
for n, words, size in (('224', 7, 28), ('256', 8, 32)):
    md('SHA2_' + n, 'SHA2.SHA2_' + n, 64, 8, '0x80', BE, '(SHA2.compress SHA2.cfg32 (by decide))', 'SHA2.iv' + n,
       f'(SHA2.toArray 4 {words} {size} (fun _ => []))')
for n, words, size, ex in (('384', 6, 48, '[]'), ('512', 8, 64, '[]'), ('512_224', 3, 28, '[ror 8 mh[3] 56, ror 8 mh[3] 48, ror 8 mh[3] 40, ror 8 mh[3] 32]'), ('512_256', 4, 32, '[]')):
    md('SHA2_' + n, 'SHA2.SHA2_' + n, 128, 16, '0x80', W, '(SHA2.compress SHA2.cfg64 (by decide))', 'SHA2.iv' + n,
       f'(SHA2.toArray 8 {words} {size} (fun {"mh" if "mh" in ex else "_"} => {ex}))')
for n in ('MD4', 'MD5'): md64(n, n, LE)
for n in ('128', '160', '256', '320'): md64('RIPEMD', 'RIPEMD_' + n, LE, 'compress' + n, 'iv' + n)
md64('HAS160', 'HAS_160', LE)
md64('SM3', 'SM3', BE)
md('Tiger', '(Tiger.Tiger V D)', 64, 8, '(if V = 1 then 1 else 1 <<< 7)', LE, 'Tiger.compress', 'Tiger.iv', '(Tiger.toArray D)', ' (V D : Nat)')
md('Whirlpool', 'Whirlpool.Whirlpool', 64, 32, '(1 <<< 7)', ('counterBE128M', 'writesBE128_32', 'sameBE128_32'), 'Whirlpool.compress', 'Whirlpool.iv', 'Whirlpool.toArray')
S = 'sha3 (by have := big h; omega) _ _'
for n, r, d in (('224', 144, 28), ('256', 136, 32), ('384', 104, 48), ('512', 72, 64)):
    cl.append(('SHA3_' + n, '', 'SHA3.SHA3_' + n, f'SHA3.KeccakM m {r} 0x06 {d}', S))
for n, r in (('128', 168), ('256', 136)):
    cl.append(('SHAKE_' + n, ' (d : Nat)', f'(SHA3.SHAKE_{n} d)', f'SHA3.KeccakM m {r} 0x1F d', S))
cl.append(('MD2', '', 'MD2.MD2', 'MD2.MD2M m', 'md2 (by have := big h; omega)'))
for n, c, mk, w, words, size in (('224', 'cfg224', 'false', 32, 7, 28), ('256', 'cfg256', 'true', 32, 8, 32), ('384', 'cfg512', 'false', 64, 6, 48), ('512', 'cfg512', 'true', 64, 8, 64)):
    cl.append(('Blake1_' + n, '', 'BLAKE.Blake1_' + n, f'BLAKE.api{w}M m BLAKE.{c} {mk} BLAKE.iv{n} {words} {size}', f'blake{w} (by have := big h; omega) _ _ _ _ _'))
for n, c, k, s in (('Blake2', 'cfg2', 8, 64), ('Blake2s', 'cfg2s', 4, 32)):
    cl.append((n, '', 'BLAKE2.' + n, f'BLAKE2.apiM m BLAKE2.{c} {k} {s}', 'blake2 (by decide) (by have := big h; omega) _ _ _'))
cl.append(('SipHash', ' (C D : Nat) (key : Block 16)', '(SipHash.SipHashCD C D key)', 'SipHash.SipHashCDM m C D key', 'sip (by have := big h; omega) C D key'))
cl.append(('CRC_32', '', 'CRC32.CRC_32', 'CRC32.CRC_32M m', 'crc m'))
out = '''import Verif.Proof.Machine
import Verif.Props.Misuse

/-!
# C52: a digest does not depend on how many bits `size_t` has

Generated by tools/gen_machine.py. `API.SameMachine` is defined in Model/Machine.lean: after the same calls, in any
order, with spans that fit in the smaller `size_t`, the two machines hold the same object and read the same digest
from it. C++ guarantees 16 bits. The FNV classes do not calculate with `size_t`; cSHAKE and TupleHash are in
Props/MachineCShake.lean.
-/

namespace Verif.Props
open Model Proof.Misuse Proof.Machine

'''
for name, b, api, rel, twin in cl:
    out += f'theorem C52_{name}{b} (m : Nat) (h : 16 ≤ m) (h64 : m ≤ 64) :\n    {api}.SameMachine m ({rel}) :=\n  same h64 ({twin})\n'
out += '''
/-- a history with calls after `finalize`, on a machine with a 32-bit `size_t` -/
example : Fitting 32 [.add [1, 2, 3], .finalize, .add (List.replicate 65 7), .reset, .add [], .finalize, .finalize] := by
  intro d hd
  simp at hd
  rcases hd with h | h | h <;> subst h <;> decide

/-- the wrapped operations differ from those on natural numbers -/
example : szSub 32 3 5 = 4294967294 ∧ szMul 32 (2 ^ 29) 8 = 0 ∧ szAdd 16 65535 1 = 0 := by decide

end Verif.Props
'''
open(os.path.join(here, '..', 'lean', 'Verif', 'Props', 'Machine.lean'), 'w').write(out)
