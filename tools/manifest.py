#!/usr/bin/env python3
"""Rebuild MANIFEST.json from the property theorems in lean/Verif/Props and notes.json."""
import glob, json, os, re
root = os.path.dirname(os.path.dirname(os.path.abspath(__file__)))
props = [json.loads(l) for l in open(os.path.join(root, 'properties.jsonl'))]
notes = json.load(open(os.path.join(root, 'tools', 'notes.json')))
thms = {}
for f in sorted(glob.glob(os.path.join(root, 'lean/Verif/Props/*.lean'))):
    for m in re.finditer(r'^theorem ((C\d+)_\w+)', open(f).read(), re.M):
        thms.setdefault(m.group(2), []).append('Cryptopy.' + m.group(1))
claims = []
for p in props:
    i = p['id']
    n = notes.get(i, {})
    t = thms.get(i, [])
    if not t and 'status' not in n:
        continue
    status = n.get('status') or ('partial' if any(x.endswith('_partial') for x in t) else 'proved')
    claims.append({'property': i, 'status': status, 'theorems': t, 'note': n.get('note', '')})
json.dump({'claims': claims}, open(os.path.join(root, 'MANIFEST.json'), 'w'), indent=1)
print(len(claims), 'claims,', sum(len(c['theorems']) for c in claims), 'theorems; missing:',
      [p['id'] for p in props if p['id'] not in {c['property'] for c in claims}])
