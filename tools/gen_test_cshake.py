"""Test/CShake.lean from tests/test_cshake.cpp and tests/test_tuple_hash.cpp"""
import re
out='''import Verif.Model.CShake
import Verif.Spec.SP800185
import Verif.Test.Util

/-! Vectors from tests/test_cshake.cpp and tests/test_tuple_hash.cpp (tools/gen_test_cshake.py). -/

namespace Verif.Test
open Model Model.CShake

def hexOf (r : Except Fault (List Byte)) : String :=
  match r with
  | .ok d => hexStr d
  | .error f => "fault " ++ reprStr f

def cshakeHex (R : Nat) [SHA3.RateOK R] (d : Int) (name custom : String) (data : List Byte) : String :=
  hexOf do
    let o ← construct Spec.SP800185.byteLen R d (ofStr name) (ofStr custom)
    toVector (← run o [.add data, .finalize])

def tupleHex (R : Nat) [SHA3.RateOK R] (d : Int) (custom : String) (data : List (List Byte)) : String :=
  hexOf do
    let o ← tupleConstruct Spec.SP800185.byteLen R d (ofStr custom)
    tupleToVector (← tupleRun Spec.SP800185.byteLen o (data.map .add ++ [.finalize]))

'''
def arr(t):
    return dict((m.group(1),bytes(int(x,0) for x in re.findall(r'0x[0-9a-fA-F]+|\d+',m.group(2)))) for m in re.finditer(r'const uint8_t (\w+)\[\d*\]\s*=\s*\{([^}]*)\}',t))
n=0
t=open('/repo/tests/test_cshake.cpp').read()
parts=re.split(r'using Hash = Chocobo1::(\w+);',t)
for i in range(1,len(parts),2):
    R=168 if '128' in parts[i] else 136
    a=arr(parts[i+1])
    for m in re.finditer(r'REQUIRE\("([0-9a-f]+)"\s*== Hash\(\((\d+) / 8\), "(.*?)", "(.*?)"\)\.addData\((\w+), ARRAY_LENGTH',parts[i+1]):
        out+=f'#guard cshakeHex {R} {int(m.group(2))//8} "{m.group(3)}" "{m.group(4)}" (hx "{a[m.group(5)].hex()}")\n  = "{m.group(1)}"\n'; n+=1
    for m in re.finditer(r'REQUIRE\("([0-9a-f]+)"\s*== Hash\(512\)\.finalize',parts[i+1]):
        out+=f'#guard cshakeHex {R} 512 "" "" []\n  = "{m.group(1)}"\n'; n+=1
t=open('/repo/tests/test_tuple_hash.cpp').read()
parts=re.split(r'using Hash = Chocobo1::(\w+);',t)
for i in range(1,len(parts),2):
    R=168 if '128' in parts[i] else 136
    a=arr(parts[i+1])
    for m in re.finditer(r'REQUIRE\("([0-9a-f]+)"\s*== Hash\((\d+)(?:, "(.*?)")?\)((?:\s*\.nextData\(\w+, ARRAY_LENGTH\(\w+\)\))*)\s*\.finalize',parts[i+1]):
        ps=[a[x] for x in re.findall(r'nextData\((\w+)',m.group(4))]
        hs=", ".join(f'hx "{p.hex()}"' for p in ps)
        out+=f'#guard tupleHex {R} {m.group(2)} "{m.group(3) or ""}" [{hs}]\n  = "{m.group(1)}"\n'; n+=1
open('/verif/lean/Verif/Test/CShake.lean','w').write(out+"\nend Verif.Test\n"); print(n)
