#!/usr/bin/env python3
"""Writes MANIFEST.json. The theorem names are checked against the Lean sources."""
import json, re, pathlib
root = pathlib.Path(__file__).resolve().parent.parent
names = set()
for f in (root / 'lean' / 'Verif').rglob('*.lean'):
    for m in re.finditer(r'^(?:private )?theorem ([\w.\']+)', f.read_text(), re.M):
        names.add('Tuf.' + m.group(1))
claims = []
def c(prop, status, theorems, note=''):
    theorems = ['Tuf.' + t for t in theorems.split()]
    for t in theorems:
        assert t in names, (prop, t)
    claims.append({'property': prop, 'status': status, 'theorems': theorems, 'note': note})
exec((root / 'tools' / 'claims.py').read_text())
props = [json.loads(l)['id'] for l in (root / 'properties.jsonl').read_text().splitlines()]
have = {x['property'] for x in claims}
missing = [p for p in props if p not in have]
for p in missing:
    claims.append({'property': p, 'status': 'partial', 'theorems': [], 'note': 'no theorem yet'})
assert all(h in props for h in have), [h for h in have if h not in props]
claims.sort(key=lambda x: x['property'])
(root / 'MANIFEST.json').write_text(json.dumps({'claims': claims}, indent=1) + '\n')
print('claims', len(claims), 'without theorem:', missing)
listed = {t for x in claims for t in x['theorems']}
print('property theorems not listed:', sorted(n for n in names if re.match(r'Tuf\.C\d', n) and n not in listed))
