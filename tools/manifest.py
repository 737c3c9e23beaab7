#!/usr/bin/env python3
"""Regenerate MANIFEST.json from the theorem names Cnn_* in lean/Verif/*.lean."""
import re, json, glob, os
root = os.path.join(os.path.dirname(os.path.abspath(__file__)), '..')
props = [json.loads(l)['id'] for l in open(os.path.join(root, 'properties.jsonl')) if l.strip()]
th = {}
for f in sorted(glob.glob(os.path.join(root, 'lean/Verif/*.lean'))):
    s = open(f).read()
    for m in re.finditer(r'(?:/--((?:(?!-/).)*)-/\s*)?^theorem (C\d\d+)_(\w+)', s, re.M | re.S):
        open_ns = re.findall(r'^namespace (Verif\S*)\s*$', s[:m.start(2)], re.M)
        ns = open_ns[-1] if open_ns else ''
        doc = ' '.join((m.group(1) or '').split())
        th.setdefault(m.group(2), []).append((f'{ns}.{m.group(2)}_{m.group(3)}', doc))
NA = {}
claims = []
for p in props:
    ts = th.get(p, [])
    if p in NA:
        claims.append({'property': p, 'status': 'not_applicable', 'theorems': [], 'note': NA[p]}); continue
    if not ts: continue
    part = [t for t in ts if t[0].endswith('_partial')]
    ref = [t for t in ts if t[0].endswith('refuted')]
    status = 'partial' if part or ref else 'proved'
    note = ''
    if part: note += ' '.join(t[1] for t in part)
    if ref: note += ' Counterexamples: ' + ' '.join(t[1] for t in ref)
    if not note: note = ' '.join(t[1] for t in ts)
    claims.append({'property': p, 'status': status, 'theorems': [t[0] for t in ts], 'note': note.strip()[:900]})
json.dump({'claims': claims}, open(os.path.join(root, 'MANIFEST.json'), 'w'), indent=1, ensure_ascii=False)
print(len(claims), 'claims;', sum(c['status'] == 'proved' for c in claims), 'proved; missing', [p for p in props if p not in {c['property'] for c in claims}])
