#!/usr/bin/env python3
"""Evidence for modelling shared code once.

Every header of /repo/src is self-contained and repeats helper code.  For each repeated piece this prints
which headers have the same text (white space, comments and the class name normalised away), so that a
reader can see which headers one model definition stands for.  It only compares text; nothing is run.
"""
import glob
import os
import re
from collections import defaultdict

REPO = '/repo/src'


def norm(s, cls):
    s = re.sub(r'//[^\n]*', '', s)
    if cls:
        s = re.sub(r'\b%s\b(<[^<>]*>)?' % re.escape(cls), 'CLS', s)
    return re.sub(r'\s+', ' ', s).strip()


def braces(s, i):
    """text from the first `{` at or after i to its match"""
    i = s.index('{', i)
    d = 0
    for j in range(i, len(s)):
        d += (s[j] == '{') - (s[j] == '}')
        if d == 0:
            return s[i:j + 1]
    raise ValueError


PIECES = [
    ('Buffer', r'^\tclass Buffer\b'),
    ('ror', r'^\tconstexpr R ror\('),
    ('rotl', r'^\tconstexpr T rotl\('),
    ('rotr', r'^\tconstexpr T rotr\('),
    ('Uint128', r'^\s*class Uint128\b|^\s*struct Uint128\b'),
    ('toString', r'^\t[^\n;]*::toString\(\) const'),
    ('toVector', r'^\t[^\n;]*::toVector\(\) const'),
    ('operator T', r'^\t[^\n;]*::operator T\(\) const'),
    ('addData(span)', r'^\t[^\n;]*::addData\(const Span<const Byte> inData\)'),
    ('addData(ptr, len)', r'^\t[^\n;]*::addData\(const void \*'),
    ('addData(Byte[N])', r'^\t[^\n;]*::addData\(const Byte \(&array\)\[N\]\)'),
    ('addData(T[N])', r'^\t[^\n;]*::addData\(const T \(&array\)\[N\]\)'),
    ('addData(Span<T>)', r'^\t[^\n;]*::addData\((?:const )?Span<T> inSpan\)'),
    ('operator!=', r'operator!=\('),
    ('std::hash', r'^\tstruct hash<'),
]


def main():
    files = sorted(glob.glob(os.path.join(REPO, '*.h')))
    for name, pat in PIECES:
        groups = defaultdict(list)
        for f in files:
            src = open(f).read()
            for m in re.finditer(pat, src, re.M):
                head = src[m.start():src.index('{', m.start())]
                c = re.search(r'(\w+)(?:<[^<>]*>)?::(?:toString|toVector|operator T|addData)', head) \
                    or re.search(r'operator!=\(const (\w+)', head) \
                    or re.search(r'hash<(?:[\w:]*::)?(\w+)', head)
                body = norm(braces(src, m.start()), c.group(1) if c else None)
                groups[body].append('%s:%d' % (os.path.basename(f), src.count('\n', 0, m.start()) + 1))
        print('== %s: %d distinct text(s)' % (name, len(groups)))
        for body, fs in sorted(groups.items(), key=lambda x: -len(x[1])):
            print('  %2d x  %s' % (len(fs), ' '.join(fs)))
            if len(groups) > 1:
                print('        %s' % body[:200])


main()
