#!/usr/bin/env python3
"""Which functions of /repo are cited by a definition of the model?  Lists those that are not."""
import re, glob, os
cited = {}
for f in glob.glob('/verif/lean/Verif/Model/*.lean') + glob.glob('/verif/lean/Verif/Basic.lean'):
    s = open(f).read()
    last = None
    for m in re.finditer(r'((?:ddl/)?[a-z_A-Z]+\.go):((?:\s*\d+(?:-\d+)?,?)+)', s):
        fn = m[1]
        for r in re.finditer(r'(\d+)(?:-(\d+))?', m[2]):
            a = int(r[1]); b = int(r[2] or r[1])
            cited.setdefault(fn, []).append((a, b))
tot = cov = 0
for p in sorted(glob.glob('/repo/*.go') + glob.glob('/repo/ddl/*.go')):
    if p.endswith('_test.go'): continue
    rel = p[len('/repo/'):]
    rs = cited.get(rel, []) 
    if rel.startswith('ddl/') and not os.path.exists('/repo/' + rel[4:]): rs = rs + cited.get(rel[4:], [])
    elif rel.startswith('ddl/'): rs = rs + cited.get(rel[4:], [])
    lines = open(p).read().split('\n')
    i = 0
    while i < len(lines):
        if lines[i].startswith('func '):
            j = i
            while not lines[j].startswith('}') and not (j == i and lines[j].rstrip().endswith('}')): j += 1
            tot += 1
            if any(a <= j + 1 and b >= i + 1 for a, b in rs): cov += 1
            else: print('%s:%d-%d %s' % (rel, i + 1, j + 1, lines[i][:110]))
            i = j
        i += 1
print('%d of %d functions' % (cov, tot))
