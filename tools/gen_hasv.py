"""src/unfinished/has_v_320.cpp tables and calls -> Model/HASVCalls.lean"""
import re
src = open('/repo/src/unfinished/has_v_320.cpp').read().split('\n')
reg = dict(zip('abcdefghij', range(10)))
rows = []; marks = {}
for n, l in enumerate(src, 1):
    m = re.fullmatch(r'\s*line(Left|Right)\((\w), (\w), (\w), (\w), (\w), f(\d), (0x\w+), (\d+)\);', l)
    if m:
        g = m.groups()
        rows.append((n, f".line {'true' if g[0] == 'Right' else 'false'} " + " ".join(str(reg[x]) for x in g[1:6]) + f" {g[6]} {g[7]} {g[8]}"))
    m = re.fullmatch(r'\s*extendTable\((\w)Table, (\d)\);', l)
    if m: rows.append((n, f".extend {'true' if m.group(1) == 'y' else 'false'} {m.group(2)}"))
    if re.fullmatch(r'\s*swapChainVars\(\);', l): rows.append((n, ".swap"))
    if l in ('#if 0', '#else', '#endif'): marks[l] = n
off = [r for r in rows if marks['#if 0'] < r[0] < marks['#else']]
on = [r for r in rows if r[0] > marks['#else']]
assert len(off) == 210 and len(on) == 215 and len(off) + len(on) == len(rows), (len(off), len(on))
t = '\n'.join(src)
def table(name):
    m = re.search(name + r'(?:\[\d+\])+ =\s*\{(.*?)\};', t, re.S)
    return [int(x) for x in re.findall(r'\d+', m.group(1))], t[:m.start()].count('\n') + 1, t[:m.end()].count('\n') + 1
def vec(vals, per): return ",\n".join("  " + ", ".join(map(str, vals[i:i + per])) for i in range(0, len(vals), per))
out = '''import Verif.Core.Basic

/-! Generated by tools/gen_hasv.py from src/unfinished/has_v_320.cpp. -/

namespace Verif.Model.HASV

'''
for name, ty, n, per in (('sTable', 'Nat', 20, 20), ('mTable', '(Fin 20)', 100, 20), ('lut', '(Fin 16)', 80, 16)):
    v, a, b = table(name)
    assert len(v) == n
    what = ' row by row' if name == 'lut' else ''
    out += f"/-- `{name}` (has_v_320.cpp:{a}-{b}){what} -/\ndef {name} : Vector {ty} {n} := #v[\n{vec(v, per)}]\n\n"
out += '''/-- One statement. `.extend y r` is `extendTable(yTable, r)` (`true`) or `extendTable(xTable, r)`; `.line y a b c d e f k j`
is `lineRight` (`true`) or `lineLeft` with the variables `a` .. `j` numbered 0 to 9; `.swap` is `swapChainVars()`. -/
inductive Stmt where
  | extend (y : Bool) (r : Fin 5)
  | line (y : Bool) (a b c d e : Fin 10) (f : Fin 5) (k : W32) (j : Fin 100)
  | swap
  deriving DecidableEq

'''
for name, rr, w in (('active', on, 'compiled'), ('disabled', off, 'disabled')):
    out += f"/-- the {w} statements (has_v_320.cpp:{rr[0][0]}-{rr[-1][0]}) -/\ndef {name} : List Stmt := [\n" + ",\n".join("  " + r for _, r in rr) + "]\n\n"
out += "end Verif.Model.HASV\n"
open('/verif/lean/Verif/Model/HASVCalls.lean', 'w').write(out)
