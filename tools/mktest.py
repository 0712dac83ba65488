"""mktest.py Name ModelModule OpenNamespace test.cpp:Class=Lean ... -> lean/Verif/Test/Name.lean"""
import sys
from vectors import vectors
name, mod, ns = sys.argv[1:4]
out = f"import Verif.Model.{mod}\nimport Verif.Test.Util\n\n/-! Vectors from "
files = [a.split(':', 1) for a in sys.argv[4:]]
out += ', '.join(sorted({'tests/' + f for f, _ in files})) + f" (generated by tools/mktest.py). -/\n\nnamespace Verif.Test\nopen {ns}\n\n"
n = 0
for f, c in files:
    k, v = c.split('=')
    for _, r, d, h in vectors(f, {k: v}):
        src = f'[hx "{d.hex()}"]' if r == 1 else '[]' if r == 0 else f'(List.replicate {r} (hx "{d.hex()}"))'
        out += f'#guard dig {v} {src}\n  = "{h}"\n'; n += 1
out += "\nend Verif.Test\n"
open(f'/verif/lean/Verif/Test/{name}.lean', 'w').write(out)
print(n, 'vectors')
