#!/usr/bin/env python3
"""Write /verif/MANIFEST.json. Claims: id -> (status, [theorems], note). Checks the names against the sources."""
import json, re, glob, os
C = {}
def claim(id, status, theorems, note=''):
    C[id] = (status, theorems.split(), note)
exec(open('/verif/tools/claims.py').read())
src = {}
for f in glob.glob('/verif/lean/Verif/**/*.lean', recursive=True):
    for m in re.finditer(r'^(?:private )?theorem\s+(\S+)', open(f).read(), re.M):
        src.setdefault(m.group(1), f)
out = []
used = set()
for id in sorted(C):
    st, ths, note = C[id]
    for t in ths:
        if t not in src: print('MISSING THEOREM', id, t)
        used.add(t)
    out.append(dict(property=id, status=st, theorems=['Verif.' + t for t in ths], note=note))
json.dump(dict(claims=out), open('/verif/MANIFEST.json', 'w'), indent=1)
props = [json.loads(l)['id'] for l in open('/verif/properties.jsonl')]
print('claims', len(out), 'without claim:', [p for p in props if p not in C])
print('unlisted:', sorted(t for t, f in src.items() if '/Props/' in f and t not in used))
