"""has_160.h and sm3.h round calls -> Model/HAS160Calls.lean, Model/SM3Calls.lean"""
import re
src = open('/repo/src/has_160.h').read().split('\n')
reg = dict(zip('abcde', range(5)))
rows = []; ext = []
for n, l in enumerate(src, 1):
    m = re.fullmatch(r'\s*round(\d)\((\w), (\w), (\w), (\w), (\w),\s+(\d+), (\d+)\);', l)
    if m:
        g = m.groups()
        rows.append((n, f"⟨.r{g[0]}, " + ", ".join(str(reg[x]) for x in g[1:6]) + f", {g[6]}, {g[7]}⟩"))
    m = re.fullmatch(r'\s*extendXTable\((\d+)\);', l)
    if m: ext.append((len(rows), int(m.group(1))))
assert ext == [(0, 0), (20, 20), (40, 40), (60, 60)] and len(rows) == 80, (ext, len(rows))
t = '\n'.join(src)
tab = re.search(r'lTable\[80\] =\s*\{([^}]*)\}', t)
line0 = t[:tab.start()].count('\n') + 1
vals = [int(x) for x in tab.group(1).split(',')]
assert len(vals) == 80
out = f'''import Verif.Core.Basic

/-! Generated by tools/gen_has_sm3.py from has_160.h. -/

namespace Verif.Model.HAS160

/-- `lTable` (has_160.h:{line0}-{line0 + 6}). -/
def lTable : Vector (Fin 20) 80 := #v[
'''
out += ",\n".join("  " + ", ".join(map(str, vals[20*i:20*i+20])) for i in range(4)) + ''']

/-- The lambdas `round1` .. `round4`. -/
inductive Round where
  | r1 | r2 | r3 | r4
  deriving DecidableEq

/-- One call: the lambda, which of the variables `a`, `b`, `c`, `d`, `e` (numbered 0 to 4) is passed
for each parameter, and the literals `s1`, `t`. -/
structure Call where
  rnd : Round
  a : Fin 5
  b : Fin 5
  c : Fin 5
  d : Fin 5
  e : Fin 5
  s1 : Nat
  t : Fin 80
  deriving DecidableEq

'''
for i in range(4):
    rr = rows[20*i:20*i+20]
    out += f"/-- The calls after `extendXTable({20*i})` (has_160.h:{rr[0][0]}-{rr[-1][0]}). -/\ndef seg{i} : List Call := [\n" + ",\n".join("  " + r for _, r in rr) + "]\n\n"
out += "end Verif.Model.HAS160\n"
open('/verif/lean/Verif/Model/HAS160Calls.lean', 'w').write(out)

src = open('/repo/src/sm3.h').read().split('\n')
r1 = dict(zip('abcd', range(4))); r2 = dict(zip('efgh', range(4)))
rows = []
for n, l in enumerate(src, 1):
    m = re.fullmatch(r'\s*sm3Round(\d)\((\w), (\w), (\w), (\w), (\w), (\w), (\w), (\w), (0x\w+), (\d+)\);', l)
    if m:
        g = m.groups()
        rows.append((n, f"⟨.r{g[0]}, " + ", ".join(str(r1[x]) for x in g[1:5]) + ", " + ", ".join(str(r2[x]) for x in g[5:9]) + f", {g[9]}, {g[10]}⟩"))
assert len(rows) == 64
out = f'''import Verif.Core.Basic

/-! Generated by tools/gen_has_sm3.py from sm3.h:{rows[0][0]}-{rows[-1][0]}. -/

namespace Verif.Model.SM3

/-- The lambdas `sm3Round1`, `sm3Round2`. -/
inductive Round where
  | r1 | r2
  deriving DecidableEq

/-- One call: the lambda, which of the variables `a`, `b`, `c`, `d` (numbered 0 to 3) is passed for
each of the first four parameters, which of `e`, `f`, `g`, `h` (numbered 0 to 3) for each of the next
four, and the literals `tTable`, `t`. -/
structure Call where
  rnd : Round
  a : Fin 4
  b : Fin 4
  c : Fin 4
  d : Fin 4
  e : Fin 4
  f : Fin 4
  g : Fin 4
  h : Fin 4
  k : W32
  t : Fin 64
  deriving DecidableEq

/-- The calls in program order. -/
def calls : List Call := [
'''
out += ",\n".join("  " + r for _, r in rows) + "]\n\nend Verif.Model.SM3\n"
open('/verif/lean/Verif/Model/SM3Calls.lean', 'w').write(out)
