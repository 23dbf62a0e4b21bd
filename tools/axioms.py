#!/usr/bin/env python3
"""Print the axioms of every theorem named in MANIFEST.json into AXIOMS.md. Needs a built project."""
import collections, json, os, re, subprocess, tempfile
root = os.path.dirname(os.path.dirname(os.path.abspath(__file__)))
names = [t for c in json.load(open(root + '/MANIFEST.json'))['claims'] for t in c['theorems']]
with tempfile.NamedTemporaryFile('w', suffix='.lean', delete=False) as f:
    f.write('import Verif\n' + ''.join(f'#print axioms {n}\n' for n in names))
out = subprocess.run(['lake', 'env', 'lean', f.name], cwd=root + '/lean', capture_output=True, text=True).stdout.replace('\n ', ' ')
os.unlink(f.name)
groups = collections.defaultdict(list)
for m in re.finditer(r"'(Props\.\w+)' (?:depends on axioms: \[([^\]]*)\]|does not depend on any axioms)", out):
    groups[m.group(2) or 'no axioms'].append(m.group(1))
assert sum(map(len, groups.values())) == len(names), 'some theorem is missing'
with open(root + '/AXIOMS.md', 'w') as f:
    f.write('# Axioms of the theorems in MANIFEST.json\n\nGenerated by tools/axioms.py from `#print axioms`.\n')
    for k, v in sorted(groups.items(), key=lambda x: len(x[1])):
        f.write(f'\n## {k} ({len(v)})\n\n' + ', '.join(f'`{n[6:]}`' for n in v) + '\n')
print({k: len(v) for k, v in groups.items()})
