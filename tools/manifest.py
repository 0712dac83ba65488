"""MANIFEST.json from the theorem names in lean/Verif/Props/*.lean (C01_..., C02_...)."""
import re, glob, json
STATUS = json.load(open('/verif/tools/status.json'))   # id -> [status, note]
th = {}
for f in sorted(glob.glob('/verif/lean/Verif/Props/*.lean')):
    ns = 'Verif.Props'
    for l in open(f):
        m = re.match(r'namespace (\S+)', l)
        if m: ns = m.group(1)
        m = re.match(r'theorem ((C\d\d)_\w+)', l)
        if m: th.setdefault(m.group(2), []).append(ns + '.' + m.group(1))
out = []
for l in open('/verif/properties.jsonl'):
    i = json.loads(l)['id']
    if i in th:
        st, note = STATUS.get(i, ['partial', 'in progress'])
        out.append({'property': i, 'status': st, 'theorems': th[i], 'note': note})
    elif i in STATUS:
        out.append({'property': i, 'status': STATUS[i][0], 'theorems': [], 'note': STATUS[i][1]})
open('/verif/MANIFEST.json', 'w').write('{"claims": [\n' + ',\n'.join(' ' + json.dumps(c) for c in out) + '\n]}\n')
print([(c['property'], c['status'], len(c['theorems'])) for c in out])
