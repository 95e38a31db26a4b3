#!/usr/bin/env python3
"""Write lean/Verif.lean (imports) and MANIFEST.json from the property files.

Status and note of a property come from the first comment of Props/Cxx.lean:
  status: proved | partial
  note: one paragraph, up to the end of the comment
"""
import glob, json, os, re
ROOT = os.path.dirname(os.path.dirname(os.path.abspath(__file__)))
os.chdir(os.path.join(ROOT, 'lean'))
mods = sorted(f[:-5].replace('/', '.') for f in glob.glob('Verif/**/*.lean', recursive=True))
open('Verif.lean', 'w').write(''.join(f'import {m}\n' for m in mods))
props = [json.loads(l)['id'] for l in open(os.path.join(ROOT, 'properties.jsonl'))]
claims = []
for p in props:
    files = sorted(f for f in glob.glob('Verif/Props/*.lean') if re.match(p + r'([A-Z]\w*)?\.lean$', os.path.basename(f)))
    if not files:
        continue
    thms, status, note = [], None, None
    for f in files:
        s = open(f).read()
        thms += ['Cap.' + t for t in re.findall(r'^theorem (' + p + r'_\w+)', s, re.M)]
        if os.path.basename(f) == p + '.lean':
            m = re.search(r'^status: (\w+)$', s, re.M)
            status = m.group(1) if m else None
            m = re.search(r'^note: (.*?)-/', s, re.M | re.S)
            note = ' '.join(m.group(1).split()) if m else None
    if status is None or note is None:
        print('missing status/note', p)
    claims.append({'property': p, 'status': status or 'partial', 'theorems': thms, 'note': note or ''})
json.dump({'claims': claims}, open(os.path.join(ROOT, 'MANIFEST.json'), 'w'), indent=1, ensure_ascii=False)
open(os.path.join(ROOT, 'MANIFEST.json'), 'a').write('\n')
print(len(claims), 'claims;', 'no file:', [p for p in props if p not in [c['property'] for c in claims]])
