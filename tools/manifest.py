#!/usr/bin/env python3
"""Regenerate MANIFEST.json from the theorem names in lean/Verif/Props and tools/notes.json."""
import json, re, glob, os
root = os.path.dirname(os.path.dirname(os.path.abspath(__file__)))
thms = {}
for f in sorted(glob.glob(root + '/lean/Verif/Props/*.lean')):
    for m in re.finditer(r'^theorem (C(\d\d\d?)_\w+)', open(f).read(), re.M):
        thms.setdefault('C' + m.group(2), []).append('I256.' + m.group(1))
notes = json.load(open(root + '/tools/notes.json'))
ids = [json.loads(l)['id'] for l in open(root + '/properties.jsonl')]
claims = []
for i in ids:
    t = thms.get(i, [])
    if not t and i not in notes:
        continue
    n = notes.get(i, {})
    status = n.get('status') or ('partial' if any(x.endswith(('_partial', '_false')) for x in t) else 'proved')
    claims.append({'property': i, 'status': status, 'theorems': t, 'note': n.get('note', '')})
with open(root + '/MANIFEST.json', 'w') as f:
    f.write('{"claims": [\n' + ',\n'.join('  ' + json.dumps(c) for c in claims) + '\n]}\n')
for c in claims:
    print(c['property'], c['status'], len(c['theorems']))
