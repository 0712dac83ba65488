"""sha1.h round calls -> Model/SHA1Calls.lean"""
import re
src = open('/repo/src/sha1.h').read().split('\n')
reg = dict(zip('abcde', range(5)))
rows = []
for n, l in enumerate(src, 1):
    m = re.fullmatch(r'\s*sha1Round(\w+)\((\w), (\w), (\w), (\w), (\w), (\d+)\);', l)
    if m:
        g = m.groups()
        rows.append((n, f"⟨.r{g[0]}, " + ", ".join(str(reg[x]) for x in g[1:6]) + f", {g[6]}⟩"))
out = f'''import Verif.Core.Basic

/-! Generated by tools/gen_sha1.py from sha1.h:{rows[0][0]}-{rows[-1][0]}. -/

namespace Verif.Model.SHA1

/-- The macros `sha1Round1`, `sha1Round1a`, .. `sha1Round4` (sha1.h:464, 491, 506, 529, 548, 579). -/
inductive Round where
  | r1 | r1a | r2 | r2a | r3 | r4
  deriving DecidableEq

/-- One macro call: the macro, which of the variables `a`, `b`, `c`, `d`, `e` (numbered 0 to 4) is
passed for each parameter, and the literal `t`. -/
structure Call where
  rnd : Round
  a : Fin 5
  b : Fin 5
  c : Fin 5
  d : Fin 5
  e : Fin 5
  t : Fin 80
  deriving DecidableEq

/-- The macro calls in program order (sha1.h:{rows[0][0]}-{rows[-1][0]}). -/
def calls : List Call := [
'''
out += ",\n".join("  " + r for _, r in rows) + "]\n\nend Verif.Model.SHA1\n"
open('/verif/lean/Verif/Model/SHA1Calls.lean', 'w').write(out)
print(len(rows))
