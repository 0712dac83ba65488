#!/usr/bin/env python3
"""Writes lean/Verif/Props/StdSpans.lean: C58 for every class, from the table of gen_memory.py."""
import os, re
here = os.path.dirname(os.path.abspath(__file__))
g = {'__file__': os.path.join(here, 'gen_memory.py')}
exec(open(g['__file__']).read(), g)
out = '''import Verif.Proof.StdSpans
import Verif.Props.Memory

/-!
# C58: the builds with `std::span` and with `gsl::span` compute the same

Generated by tools/gen_stdspan.py. `API.SameWithStdSpan` is defined in Core/StdSpan.lean.
-/

namespace Verif.Props
open Model Proof.StdSpans

'''
def std(at): return re.sub(r'\b(addData|implAt|mdImpl)At\b', lambda m: m.group(0)[:-2] + 'Std', at).replace('implAt', 'implStd')
for name, b, api, at, pf in g['cl']:
    args = ''.join(' ' + x for x in re.findall(r'\w+', re.sub(r':[^)]*', '', b)))
    if name.startswith('Blake2'):
        gets = 'fun o mem s => blake2_gets (blake2Gets _ _ _) self mem _ o s'
    else:
        k = 'mdGets _ _ _' if 'mdImplAt' in at else 'sha3Gets _' if 'SHA3' in at else 'md2Gets' if 'MD2' in at else \
            'blakeGets _ _' if 'BLAKE' in at else 'sipGets _'
        gets = f'fun o mem s => addData_gets ({k}) self o mem s'
    out += f'theorem C58_{name}{b} (self : Nat) (hs : self ≠ 0) :\n    {api}.SameWithStdSpan ({at})\n      ({std(at)}) :=\n'
    out += f'  same ({gets}) (C47_{name}{args} self hs)\n'
for name, api, at, pf in g['cl2']:
    k = 'crcGets' if 'CRC' in name else 'fnvGets _'
    out += f'theorem C58_{name} : {api}.SameWithStdSpan ({at}) ({std(at)}) := same ({k}) C47_{name}\n'
out += open(os.path.join(here, 'stdspan_tail.txt')).read()
open(os.path.join(g['root'], 'StdSpans.lean'), 'w').write(out)
