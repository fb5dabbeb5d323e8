#!/usr/bin/env python3
"""Writes AXIOMS.md: for every theorem named in MANIFEST.json, the axioms Lean reports for it."""
import json, os, re, subprocess, tempfile
here = os.path.dirname(os.path.abspath(__file__))
root = os.path.join(here, '..')
m = json.load(open(os.path.join(root, 'MANIFEST.json')))
names = sorted({t for c in m['claims'] for t in c['theorems']})
src = 'import Verif\n' + ''.join(f'#print axioms {n}\n' for n in names)
with tempfile.NamedTemporaryFile('w', suffix='.lean', delete=False) as f:
    f.write(src)
out = subprocess.run(['lake', 'env', 'lean', f.name], cwd=os.path.join(root, 'lean'), capture_output=True, text=True).stdout
out = re.sub(r'\n\s+', ' ', out)
res = {}
for line in out.splitlines():
    a = re.match(r"'(.*)' depends on axioms: \[(.*)\]", line)
    b = re.match(r"'(.*)' does not depend on any axioms", line)
    if a: res[a.group(1)] = ', '.join(sorted(a.group(2).split(', ')))
    elif b: res[b.group(1)] = 'none'
    else: print('??', line)
groups = {}
for n in names: groups.setdefault(res.get(n, 'UNKNOWN'), []).append(n)
with open(os.path.join(root, 'AXIOMS.md'), 'w') as f:
    f.write('# Axioms per theorem (output of `#print axioms`, written by tools/axioms.py)\n\n')
    for g in sorted(groups):
        f.write(f'## {g}\n\n' + '\n'.join('* `%s`' % n for n in groups[g]) + '\n\n')
for g in groups: print(g, len(groups[g]))
