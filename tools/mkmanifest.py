#!/usr/bin/env python3
"""Regenerate MANIFEST.json: every theorem Cxx_* under lean/Verif/Props is listed for property Cxx. Notes are in notes.json."""
import glob, json, os, re
root = os.path.dirname(os.path.dirname(os.path.abspath(__file__)))
ths = {}
for f in sorted(glob.glob(root + '/lean/Verif/Props/*.lean')):
    for line in open(f):
        m = re.match(r'theorem ((C\d\d\d?)_\w+)', line)
        if m:
            ths.setdefault(m.group(2), []).append('Props.' + m.group(1))
notes = json.load(open(root + '/tools/notes.json'))
claims = []
for l in open(root + '/properties.jsonl'):
    p = json.loads(l)['id']
    names = ths.get(p, [])
    note = notes.get(p, {})
    status = note.get('status') or ('partial' if not names or any(n.endswith('_partial') for n in names) else 'proved')
    claims.append({'property': p, 'status': status, 'theorems': names, 'note': note.get('note', '')})
with open(root + '/MANIFEST.json', 'w') as f:
    f.write('{"claims": [\n' + ',\n'.join('  ' + json.dumps(c, ensure_ascii=False) for c in claims) + '\n]}\n')
print({s: sum(c['status'] == s for c in claims) for s in ('proved', 'partial', 'not_applicable')})
print('without theorem:', [c['property'] for c in claims if not c['theorems']])
