"""md2.h piSubst -> Model/MD2Table.lean, and the same digits as RFC 1319's table in Spec/MD2Table.lean"""
import re
t = open('/repo/src/md2.h').read()
m = re.search(r'piSubst\[256\] =\s*\{(.*?)\n\t\t\t\};', t, re.S)
l0 = t[:m.start()].count('\n') + 1; l1 = t[:m.end()].count('\n') + 1
nums = re.findall(r'\d+', m.group(1)); assert len(nums) == 256
rows = ",\n".join("  " + ", ".join(nums[16*i:16*i+16]) for i in range(16))
open('/verif/lean/Verif/Model/MD2Table.lean', 'w').write(f"""import Verif.Core.Basic

/-! `piSubst` (md2.h:{l0}-{l1}), extracted by tools/gen_md2.py. -/

namespace Verif.Model.MD2

set_option maxRecDepth 4000 in
def piSubst : Vector Byte 256 := #v[
{rows}]

end Verif.Model.MD2
""")
