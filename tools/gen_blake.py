"""blake1_*.h, blake2.h, blake2s.h mixing calls -> Model/BLAKECalls.lean, Model/BLAKE2Calls.lean"""
import re
def rows(f, n):
    pat = (r'\s*blakeMix\(v\[(\d+)\], v\[(\d+)\], v\[(\d+)\], v\[(\d+)\], m\[(\d+)\], m\[(\d+)\]'
           + (r', cTable\[(\d+)\], cTable\[(\d+)\]' if n == 8 else '') + r'\);')
    out, first, last = [], None, None
    for i, l in enumerate(open('/repo/src/' + f).read().split('\n'), 1):
        if 'blakeMix(v' not in l: continue
        m = re.fullmatch(pat, l.rstrip())
        assert m, l
        out.append(m.groups()); first = first or i; last = i
    return out, first, last
a, a1, a2 = rows('blake1_256.h', 8); assert a == rows('blake1_224.h', 8)[0]
b, b1, b2 = rows('blake1_512.h', 8); assert b == rows('blake1_384.h', 8)[0]
def body(r): return ",\n".join("  ⟨" + ", ".join(x) + "⟩" for x in r)
s = f'''import Verif.Core.Basic

/-! Generated by tools/gen_blake.py from blake1_256.h:{a1}-{a2} (same calls in blake1_224.h) and
blake1_512.h:{b1}-{b2} (same calls in blake1_384.h). -/

namespace Verif.Model.BLAKE

/-- One use of the macro `blakeMix(v[a], v[b], v[c], v[d], m[x], m[y], cTable[k1], cTable[k2])`. -/
structure Call where
  (a b c d x y k1 k2 : Fin 16)
  deriving DecidableEq

/-- The {len(a)} uses in program order (blake1_256.h:{a1}-{a2}). -/
def calls32 : List Call := [
{body(a)}]

/-- The {len(b)} uses in program order (blake1_512.h:{b1}-{b2}). -/
def calls64 : List Call := [
{body(b)}]

end Verif.Model.BLAKE
'''
open('/verif/lean/Verif/Model/BLAKECalls.lean', 'w').write(s)
a, a1, a2 = rows('blake2.h', 6)
b, b1, b2 = rows('blake2s.h', 6)
s = f'''import Verif.Core.Basic

/-! Generated by tools/gen_blake.py from blake2.h:{a1}-{a2} and blake2s.h:{b1}-{b2}. -/

namespace Verif.Model.BLAKE2

/-- One use of the macro `blakeMix(v[a], v[b], v[c], v[d], m[x], m[y])`. -/
structure Call where
  (a b c d x y : Fin 16)
  deriving DecidableEq

/-- The {len(a)} uses in program order (blake2.h:{a1}-{a2}). -/
def calls64 : List Call := [
{body(a)}]

/-- The {len(b)} uses in program order (blake2s.h:{b1}-{b2}). -/
def calls32 : List Call := [
{body(b)}]

end Verif.Model.BLAKE2
'''
open('/verif/lean/Verif/Model/BLAKE2Calls.lean', 'w').write(s)
