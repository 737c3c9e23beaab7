#!/usr/bin/env python3
"""Write AXIOMS.md: the axioms each theorem of MANIFEST.json depends on (needs a finished `lake build`)."""
import json, os, re, subprocess, tempfile
root = os.path.join(os.path.dirname(os.path.abspath(__file__)), '..')
ths = [t for c in json.load(open(os.path.join(root, 'MANIFEST.json')))['claims'] for t in c['theorems']]
f = tempfile.NamedTemporaryFile('w', suffix='.lean', delete=False)
f.write('import Verif\n' + '\n'.join('#print axioms ' + t for t in ths)); f.close()
out = subprocess.run(['lake', 'env', 'lean', f.name], cwd=os.path.join(root, 'lean'), capture_output=True, text=True).stdout
out = re.sub(r'\s+', ' ', out)
res = {}
for m in re.finditer(r"'([^']+)' (?:depends on axioms: \[([^\]]*)\]|does not depend on any axioms)", out):
    res[m.group(1)] = m.group(2) or 'none'
assert set(ths) <= set(res), set(ths) - set(res)
ok = {'propext', 'Classical.choice', 'Quot.sound', 'none'}
for t, a in res.items():
    assert set(a.split(', ')) <= ok, (t, a)
groups = {}
for t in ths: groups.setdefault(', '.join(sorted(res[t].split(', '))), []).append(t)
with open(os.path.join(root, 'AXIOMS.md'), 'w') as o:
    o.write('# Axioms of the theorems named in MANIFEST.json\n\nGenerated by tools/axioms.py from `#print axioms`.\n')
    for g in sorted(groups):
        o.write(f'\n## {g} ({len(groups[g])} theorems)\n\n' + '\n'.join('* ' + t for t in groups[g]) + '\n')
print({g: len(v) for g, v in groups.items()})
