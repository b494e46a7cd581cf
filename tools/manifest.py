#!/usr/bin/env python3
"""Regenerate MANIFEST.json from the theorems of lean/Verif/Props (named C<nn>_...)."""
import glob, json, re, os
root = os.path.dirname(os.path.dirname(os.path.abspath(__file__)))
notes = json.load(open(os.path.join(root, 'tools', 'notes.json')))
thms = {}
for f in sorted(glob.glob(root + '/lean/Verif/Props/*.lean')):
    for m in re.finditer(r'^theorem (C\d+)_(\S+)', open(f).read(), re.M):
        thms.setdefault(m.group(1), []).append('Props.%s_%s' % m.groups())
claims = []
for line in open(root + '/properties.jsonl'):
    p = json.loads(line)['id']
    n = notes.get(p, {})
    if p in thms:
        st = n.get('status', 'partial' if any(t.endswith('_partial') for t in thms[p]) else 'proved')
        claims.append({'property': p, 'status': st, 'theorems': thms[p], 'note': n.get('note', '')})
    elif 'status' in n:
        claims.append({'property': p, 'status': n['status'], 'theorems': [], 'note': n.get('note', '')})
with open(root + '/MANIFEST.json', 'w') as o:
    o.write('{"claims": [\n' + ',\n'.join(' ' + json.dumps(c) for c in claims) + '\n]}\n')
print(len(claims), 'claims,', sum(len(c['theorems']) for c in claims), 'theorems')
