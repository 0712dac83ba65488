"""whirlpool.h cTable, roundConstant -> Model/WhirlpoolTables.lean"""
import re
t = open('/repo/src/whirlpool.h').read()
m = re.search(r'cTable\[8\]\[256\] =\s*\{(.*?)\n\t\t\t\};', t, re.S)
l0 = t[:m.start()].count('\n') + 1; l1 = t[:m.end()].count('\n') + 1
nums = re.findall(r'0x[0-9A-Fa-f]{16}', m.group(1))
assert len(nums) == 2048
r = re.search(r'roundConstant\[ROUND\] =\s*\{(.*?)\n\t\t\t\};', t, re.S)
k0 = t[:r.start()].count('\n') + 1; k1 = t[:r.end()].count('\n') + 1
rc = re.findall(r'0x[0-9A-Fa-f]{16}', r.group(1)); assert len(rc) == 10
o = f"import Verif.Core.Basic\n\n/-! `cTable[8][256]` (whirlpool.h:{l0}-{l1}) and `roundConstant[10]`, extracted by tools/gen_whirlpool.py. -/\n\nnamespace Verif.Model.Whirlpool\n\n"
for k in range(8):
    o += f"set_option maxRecDepth 8000 in\n/-- `cTable[{k}]` -/\ndef cTable{k} : Vector W64 256 := #v[\n"
    o += ",\n".join("  " + ", ".join(nums[256*k+4*i:256*k+4*i+4]) for i in range(64)) + "]\n\n"
o += f"/-- whirlpool.h:{k0}-{k1} -/\ndef roundConstant : Vector W64 10 := #v[{', '.join(rc)}]\n\nend Verif.Model.Whirlpool\n"
open('/verif/lean/Verif/Model/WhirlpoolTables.lean', 'w').write(o)
