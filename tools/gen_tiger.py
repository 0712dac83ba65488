"""tiger.h tTable -> Model/TigerTables.lean; intermediate tables of the S-box generation ->
Proof/TigerGenData.lean (checked by Proof/TigerGen.lean)."""
import re
t = open('/repo/src/tiger.h').read()
m = re.search(r'tTable\[4\]\[256\] =\s*\{(.*?)\n\t\t\t\};', t, re.S)
l0 = t[:m.start()].count('\n') + 1; l1 = t[:m.end()].count('\n') + 1
nums = re.findall(r'0x[0-9A-Fa-f]{16}', m.group(1))
assert len(nums) == 1024
tab = [int(x, 16) for x in nums]
o = f"import Verif.Core.Basic\n\n/-! `tTable[4][256]` (tiger.h:{l0}-{l1}), extracted by tools/gen_tiger.py. -/\n\nnamespace Verif.Model.Tiger\n\n"
for k in range(4):
    o += f"set_option maxRecDepth 8000 in\n/-- `tTable[{k}]` -/\ndef tTable{k} : Vector W64 256 := #v[\n"
    o += ",\n".join("  " + ", ".join(nums[256*k+4*i:256*k+4*i+4]) for i in range(64)) + "]\n\n"
o += "end Verif.Model.Tiger\n"
open('/verif/lean/Verif/Model/TigerTables.lean', 'w').write(o)

M = (1 << 64) - 1
def ks(x):
    x[0]=(x[0]-(x[7]^0xA5A5A5A5A5A5A5A5))&M;x[1]^=x[0];x[2]=(x[2]+x[1])&M
    x[3]=(x[3]-(x[2]^((~x[1]&M)<<19&M)))&M;x[4]^=x[3];x[5]=(x[5]+x[4])&M
    x[6]=(x[6]-(x[5]^((~x[4]&M)>>23)))&M;x[7]^=x[6];x[0]=(x[0]+x[7])&M
    x[1]=(x[1]-(x[0]^((~x[7]&M)<<19&M)))&M;x[2]^=x[1];x[3]=(x[3]+x[2])&M
    x[4]=(x[4]-(x[3]^((~x[2]&M)>>23)))&M;x[5]^=x[4];x[6]=(x[6]+x[5])&M
    x[7]=(x[7]-(x[6]^0x0123456789ABCDEF))&M
blk = "Tiger - A Fast New Hash Function, by Ross Anderson and Eli Biham".encode()
xs = [int.from_bytes(blk[8*i:8*i+8], 'little') for i in range(8)]
L = []
for mul in (5, 7, 9):
    L += [(v, mul) for v in xs]; ks(xs)
def compress(T, st):
    a, b, c = st
    for x, mul in L:
        c ^= x; B = lambda n: (c >> (8*n)) & 255
        a = (a - (T[B(0)]^T[256+B(2)]^T[512+B(4)]^T[768+B(6)])) & M
        b = ((b + (T[768+B(1)]^T[512+B(3)]^T[256+B(5)]^T[B(7)]))*mul) & M
        a, b, c = b, c, a
    return [a^st[0], (b-st[1])&M, (c+st[2])&M]
def tree(f, d=8, p=0, w=0):
    if d == 0: return f"(.leaf {f[p]})"
    return f"(.node {tree(f,d-1,p,w+1)} {tree(f,d-1,p+(1<<w),w+1)})"
def tdef(name, f): return f"noncomputable def {name} : Tree := {tree(f)}\n"
T = [int.from_bytes(bytes([i & 255])*8, 'little') for i in range(1024)]
st = [0x0123456789ABCDEF, 0xFEDCBA9876543210, 0xF096A5B4C3B2E187]
CH = 512
o = '''import Verif.Proof.TigerTree

/-! Generated by tools/gen_tiger.py: the state of the S-box generation after every %d steps, as
trees. Nothing is assumed about these numbers; Proof/TigerGen.lean checks each against the one
before. -/

namespace Verif.Proof.Tiger

''' % CH
def dump(k):
    global o
    for b in range(4): o += tdef(f"g{k}_{b}", T[256*b:256*b+256])
    o += f"noncomputable def g{k} : G := ⟨g{k}_0, g{k}_1, g{k}_2, g{k}_3, ⟨{st[0]}, {st[1]}, {st[2]}⟩⟩\n\n"
o += "/-- the words and multipliers of the 24 rounds for the generator string -/\ndef sched : List (Nat × Nat) := [" + ", ".join(f"({a}, {b})" for a, b in L) + "]\n\n"
dump(0)
for n in range(5120):
    i = (n//4) % 256; sb = 256*(n % 4); abc = n % 3
    if abc == 0: st = compress(T, st)
    for col in range(8):
        j = (st[abc] >> (8*col)) & 255
        mk = 255 << (8*col)
        d = (T[sb+i] ^ T[sb+j]) & mk
        if i != j: T[sb+i] ^= d; T[sb+j] ^= d
    if n % CH == CH-1: dump((n+1)//CH)
assert T == tab
o += "end Verif.Proof.Tiger\n"
open('/verif/lean/Verif/Proof/TigerGenData.lean', 'w').write(o)
