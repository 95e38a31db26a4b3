#!/usr/bin/env python3
"""Print the axioms of every theorem named in MANIFEST.json, grouped (needs a built project)."""
import json, os, re, subprocess, tempfile, collections
ROOT = os.path.dirname(os.path.dirname(os.path.abspath(__file__)))
os.chdir(os.path.join(ROOT, 'lean'))
names = [t for c in json.load(open(os.path.join(ROOT, 'MANIFEST.json')))['claims'] for t in c['theorems']]
with tempfile.NamedTemporaryFile('w', suffix='.lean', delete=False) as f:
    f.write('import Verif\n' + ''.join(f'#print axioms {n}\n' for n in names))
out = subprocess.run(['lake', 'env', 'lean', f.name], capture_output=True, text=True).stdout
groups = collections.defaultdict(list)
for m in re.finditer(r"'([\w.]+)' (does not depend on any axioms|depends on axioms: \[([^\]]*)\])", out):
    groups[', '.join(sorted((m.group(3) or 'none').replace('\n', ' ').replace('  ', ' ').split(', ')))].append(m.group(1))
assert sum(map(len, groups.values())) == len(names), (len(names), out[:2000])
for k in sorted(groups):
    print(f'{k}: {len(groups[k])} theorems')
    if len(groups[k]) < 60:
        print('   ', ', '.join(n.removeprefix('Cap.') for n in groups[k]))
