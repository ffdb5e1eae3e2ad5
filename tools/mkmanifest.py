#!/usr/bin/env python3
"""Collect the theorems Cxx_* under lean/Verif/Props into MANIFEST.json."""
import re, json, glob, os
root = os.path.dirname(os.path.dirname(os.path.abspath(__file__)))
props = [json.loads(l) for l in open(f'{root}/properties.jsonl')]
thms = {}
for f in sorted(glob.glob(f'{root}/lean/Verif/Props/*.lean')):
    for m in re.finditer(r'^theorem ((C\d\d)_\w+)', open(f).read(), re.M):
        thms.setdefault(m.group(2), []).append('Nghttp3.Props.' + m.group(1))
notes = json.load(open(f'{root}/tools/notes.json'))
claims = []
for p in props:
    i = p['id']
    t = thms.get(i, [])
    n = notes.get(i, {})
    status = n.get('status')
    if status is None:
        status = 'partial' if (not t or all(x.endswith('_partial') for x in t)) else 'proved'
    claims.append({'property': i, 'status': status, 'theorems': t,
                   'note': n.get('note', 'Work in progress.' if not t else '')})
json.dump({'claims': claims}, open(f'{root}/MANIFEST.json', 'w'), indent=1)
print({c['property']: (c['status'], len(c['theorems'])) for c in claims})
