"""Extract the simple test vectors of /repo/tests/test_X.cpp as Lean #guard lines.
usage: vectors.py test_file.cpp Class=LeanName ..."""
import re, sys
def cstr(src):
    out = b''
    for lit in re.findall(r'"((?:[^"\\]|\\.)*)"', src):
        i = 0
        while i < len(lit):
            c = lit[i]
            if c == '\\':
                n = lit[i+1]
                if n == 'x':
                    m = re.match(r'[0-9a-fA-F]+', lit[i+2:]).group(0)
                    out += bytes([int(m, 16)]); i += 2 + len(m)
                elif n == '0': out += b'\0'; i += 2
                elif n in '"\\\'': out += n.encode(); i += 2
                elif n == 'n': out += b'\n'; i += 2
                else: raise Exception(n)
            else:
                out += c.encode('utf-8'); i += 1
    return out
def vectors(path, cls):
    t = open('/repo/tests/' + path, encoding='utf-8').read()
    res = []
    # split into scopes by `using Hash`
    cur = None; strs = {}
    loops = {}
    toks = re.finditer(r'using\s+(\w+)\s*=\s*Chocobo1::([\w<>, ]+);'
        r'|const (?:char|unsigned char|uint8_t) (\w+)\[\]\s*=\s*((?:[^;"]|"(?:[^"\\]|\\.)*")*);'
        r'|for \([^;]*;\s*i\s*<\s*(\d+)\s*;[^)]*\)\s*\{?\s*(\w+)\.addData\((\w+), *([^;]*)\);'
        r'|REQUIRE\("([0-9a-f]*)"\s*==\s*([^;]*)\.toString\(\)\)'
        r'|const (?:char|unsigned char|uint8_t) (\w+)\[(\d+)\]\s*=\s*\{0\};', t)
    for m in toks:
        if m.group(1): cur = m.group(2).strip(); continue
        if m.group(3):
            strs[m.group(3)] = cstr(m.group(4)); continue
        if m.group(11):
            strs[m.group(11)] = b'\0' * (int(m.group(12)) - 1); continue
        if m.group(5):
            loops[m.group(6)] = (int(m.group(5)), m.group(7), m.group(8)); continue
        hexs, expr = m.group(9), m.group(10)
        if cur not in cls: continue
        def arg(name, ln):
            s = strs.get(name)
            if s is None: return None
            if 'strlen' in ln: return s.split(b'\0')[0] + (b'\0' if '+ 1' in ln else b'')
            if 'ARRAY_LENGTH' in ln or 'sizeof' in ln:
                return s if '- 1' in ln else s + b'\0'
            k = re.fullmatch(r'\d+', ln.strip())
            if k: return (s + b'\0')[:int(ln)]
            return None
        m1 = re.fullmatch(r'Hash\(\)\.addData\((\w+), *(.*)\)\.finalize\(\)', expr)
        m2 = re.fullmatch(r'(\w+)\.finalize\(\)', expr)
        if m1:
            d = arg(m1.group(1), m1.group(2))
            if d is not None: res.append((cur, 1, d, hexs))
        elif expr == 'Hash().finalize()': res.append((cur, 0, b'', hexs))
        elif m2 and m2.group(1) in loops:
            n, v, ln = loops[m2.group(1)]
            d = arg(v, ln)
            if d is not None and n <= 1000: res.append((cur, n, d, hexs))
    return res
if __name__ == '__main__':
    cls = dict(a.split('=') for a in sys.argv[2:])
    for c, n, d, h in vectors(sys.argv[1], cls):
        print(f'#guard dig {cls[c]} (List.replicate {n} (hx "{d.hex()}")) = "{h}"')
