#!/usr/bin/env python3
"""Print the axioms of every theorem named in MANIFEST.json and write AXIOMS.md. Needs a finished `lake build`."""
import collections, json, os, re, subprocess, tempfile

root = os.path.join(os.path.dirname(os.path.abspath(__file__)), '..')
names = []
for c in json.load(open(os.path.join(root, 'MANIFEST.json')))['claims']:
    for t in c['theorems']:
        if t not in names:
            names.append(t)
src = 'import Verif\n' + ''.join(f'#print axioms {n}\n' for n in names)
with tempfile.NamedTemporaryFile('w', suffix='.lean', delete=False) as f:
    f.write(src)
out = subprocess.run(['lake', 'env', 'lean', f.name], cwd=os.path.join(root, 'lean'), capture_output=True, text=True).stdout
groups = collections.OrderedDict()
seen = 0
for m in re.finditer(r"'([^']+)' (?:depends on axioms: \[([^\]]*)\]|does not depend on any axioms)", out):
    key = ', '.join(sorted(x.strip() for x in (m[2] or '').split(','))) if m[2] else 'none'
    groups.setdefault(key, []).append(m[1])
    seen += 1
assert seen == len(names), (seen, len(names), out[:2000])
with open(os.path.join(root, 'AXIOMS.md'), 'w') as f:
    f.write('# Axioms of the property theorems\n\nWritten by tools/axioms.py from `#print axioms`.\n')
    for k in sorted(groups):
        f.write(f'\n## {k}\n\n' + ', '.join(f'`{n}`' for n in sorted(groups[k])) + '\n')
print({k: len(v) for k, v in groups.items()})
