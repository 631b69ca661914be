#!/usr/bin/env python3
"""Regenerates MANIFEST.json from the theorem names (Cxx_...) in lean/Verif/Props and tools/notes.json."""
import re, json, glob, os
root = os.path.dirname(os.path.dirname(os.path.abspath(__file__)))
thms = {}
for f in sorted(glob.glob(root + '/lean/Verif/Props/*.lean')):
    ns = []
    for line in open(f):
        m = re.match(r'namespace\s+(\S+)', line)
        if m: ns.append(m.group(1))
        m = re.match(r'end\s+(\S+)', line)
        if m and ns and ns[-1] == m.group(1): ns.pop()
        m = re.match(r'(?:private\s+)?theorem\s+(((?:C\d\d_)+)\S+)', line)
        if m:
            for i in m.group(2).strip('_').split('_'):
                thms.setdefault(i, []).append('.'.join(ns + [m.group(1)]))
notes = json.load(open(root + '/tools/notes.json'))
claims = []
for l in open(root + '/properties.jsonl'):
    i = json.loads(l)['id']
    t = thms.get(i, [])
    n = notes.get(i, {})
    status = n.get('status') or ('partial' if (not t or any('_partial' in x or '_violated' in x for x in t)) else 'proved')
    claims.append({'property': i, 'status': status, 'theorems': t, 'note': n.get('note', '')})
json.dump({'claims': claims}, open(root + '/MANIFEST.json', 'w'), indent=1, ensure_ascii=False)
print({c['property']: (c['status'], len(c['theorems'])) for c in claims})
