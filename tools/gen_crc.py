"""crc_32.h crc32LUT -> Model/CRC32Table.lean"""
import re
t = open('/repo/src/crc_32.h').read()
m = re.search(r'crc32LUT\[16\]\[256\]\s*\{(.*?)\n\t\t\t\};', t, re.S)
l0 = t[:m.start()].count('\n') + 1; l1 = t[:m.end()].count('\n') + 1
nums = re.findall(r'0x[0-9A-Fa-f]{8}', m.group(1))
assert len(nums) == 4096
rows = m.group(1).split('{')[1:]
assert [len(re.findall(r'0x', r)) for r in rows] == [256] * 16
o = f"import Verif.Core.Basic\n\n/-! `crc32LUT[16][256]` (crc_32.h:{l0}-{l1}), extracted by tools/gen_crc.py. -/\n\nnamespace Verif.Model.CRC32\n\n"
for k in range(16):
    o += f"set_option maxRecDepth 8000 in\n/-- `crc32LUT[{k}]` -/\ndef lut{k} : Vector W32 256 := #v[\n"
    o += ",\n".join("  " + ", ".join(nums[256*k+8*i:256*k+8*i+8]) for i in range(32)) + "]\n\n"
o += "end Verif.Model.CRC32\n"
open('/verif/lean/Verif/Model/CRC32Table.lean', 'w').write(o)
