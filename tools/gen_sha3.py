"""sha3.h tmp[5][5] and roundConstantTable -> Model/SHA3Tables.lean"""
import re
t = open('/repo/src/sha3.h').read()
m = re.search(r'const uint64_t tmp\[5\]\[5\] =\s*\{(.*?)\n\t\t\t\t\t\};', t, re.S)
l0 = t[:m.start()].count('\n') + 1; l1 = t[:m.end()].count('\n') + 1
es = re.findall(r'rotl\(m_state\[(\d)\]\[(\d)\], \( *(\d+) % m_params\.w\)\)', m.group(1)); assert len(es) == 25
r = re.search(r'roundConstantTable\[24\] =\s*\{(.*?)\};', t, re.S)
r0 = t[:r.start()].count('\n') + 1; r1 = t[:r.end()].count('\n') + 1
rc = re.findall(r'0x[0-9A-F]+', r.group(1)); assert len(rc) == 24
rows = ',\n'.join('    ' + ', '.join(f'rotl s[5 * {y} + {x}] ({o} % 64)' for y, x, o in es[5*i:5*i+5]) for i in range(5))
rct = ',\n'.join('  ' + ', '.join(rc[6*i:6*i+6]) for i in range(4))
open('/verif/lean/Verif/Model/SHA3Tables.lean', 'w').write(f"""import Verif.Core.Basic

/-! Extracted from sha3.h by tools/gen_sha3.py. -/

namespace Verif.Model.SHA3

/-- `tmp[5][5]` (sha3.h:{l0}-{l1}); `m_params.w` is 64 -/
def tmp (s : Vector W64 25) : Vector W64 25 := #v[
{rows}]

/-- `roundConstantTable` (sha3.h:{r0}-{r1}) -/
def roundConstantTable : Vector W64 24 := #v[
{rct}]

end Verif.Model.SHA3
""")
