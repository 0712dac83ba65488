"""ripemd_*.h line calls -> Model/RIPEMDCalls.lean"""
import re
def parse(f, nreg):
    names = 'abcde'[:nreg]
    reg = {c: i for i, c in enumerate(names)}
    out = []; swaps = []
    for n, l in enumerate(open('/repo/src/' + f).read().split('\n'), 1):
        m = re.fullmatch(r'\s*line(Left|Right)\(((?:\w+, ){%d})f(\d), (0x\w+), (\d+), (\d+)\);' % nreg, l)
        if m:
            rs = [x.strip() for x in m.group(2).split(',') if x.strip()]
            if m.group(1) == 'Right':
                assert all(len(x) == 2 and x[0] == x[1] for x in rs); rs = [x[0] for x in rs]
            else: assert all(len(x) == 1 for x in rs)
            out.append((n, m.group(1).lower(), f"⟨" + ", ".join(str(reg[x]) for x in rs) + f", .f{m.group(3)}, {m.group(4)}, {m.group(5)}, {m.group(6)}⟩"))
        m = re.fullmatch(r'\s*swap\((\w), (\w)\2\);', l)
        if re.match(r'\s*swap\(', l):
            assert m and m.group(1) == m.group(2), l
            swaps.append((len(out), reg[m.group(1)]))
    return out, swaps
a, s = parse('ripemd_128.h', 4); assert s == []
b, s = parse('ripemd_256.h', 4); assert [x[1:] for x in a] == [x[1:] for x in b]
assert s == [(32, 0), (64, 1), (96, 2), (128, 3)], s
c, s = parse('ripemd_160.h', 5); assert s == []
d, s = parse('ripemd_320.h', 5); assert [x[1:] for x in c] == [x[1:] for x in d]
assert s == [(32, 0), (64, 1), (96, 2), (128, 3), (160, 4)], s
o = f'''import Verif.Core.Basic

/-! Generated by tools/gen_ripemd.py from ripemd_128.h:{a[0][0]}-{a[-1][0]} (the calls in
ripemd_256.h:{b[0][0]}-{b[-1][0]} are the same, in four groups of 32 with a `swap` after each) and
ripemd_160.h:{c[0][0]}-{c[-1][0]} (ripemd_320.h:{d[0][0]}-{d[-1][0]}: the same, in five groups of
32 with a `swap` after each). -/

namespace Verif.Model.RIPEMD

/-- The lambdas `f1` .. `f5` (ripemd_160.h:453-472). -/
inductive Fn where
  | f1 | f2 | f3 | f4 | f5
  deriving DecidableEq

/-- Arguments of one call of `lineLeft` or `lineRight` in the four-register classes: which of `a`,
`b`, `c`, `d` (`aa`, `bb`, `cc`, `dd` for `lineRight`) is passed, then `f`, `k`, `r`, `s`. -/
structure Call4 where
  a : Fin 4
  b : Fin 4
  c : Fin 4
  d : Fin 4
  f : Fn
  k : W32
  r : Fin 16
  s : Nat
  deriving DecidableEq

/-- The same for the five-register classes. -/
structure Call5 where
  a : Fin 5
  b : Fin 5
  c : Fin 5
  d : Fin 5
  e : Fin 5
  f : Fn
  k : W32
  r : Fin 16
  s : Nat
  deriving DecidableEq

/-- A call statement. -/
inductive Stmt (C : Type) where
  | left (q : C)
  | right (q : C)
  deriving DecidableEq

'''
for nm, rows, ty in [('seg4', a, 'Call4'), ('seg5', c, 'Call5')]:
    k = len(rows) // 32
    for i in range(k):
        rr = rows[32*i:32*i+32]
        o += f"/-- {'ripemd_128.h' if nm == 'seg4' else 'ripemd_160.h'}:{rr[0][0]}-{rr[-1][0]} -/\ndef {nm}_{i} : List (Stmt {ty}) := [\n"
        o += ",\n".join(f"  .{x[1]} {x[2]}" for x in rr) + "]\n\n"
o += "end Verif.Model.RIPEMD\n"
open('/verif/lean/Verif/Model/RIPEMDCalls.lean', 'w').write(o)
print(len(a), len(c))
