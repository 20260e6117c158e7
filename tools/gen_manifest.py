#!/usr/bin/env python3
"""Collect the property theorems (named Cnn_*) of lean/Verif/Props into MANIFEST.json.
A property is "partial" when a theorem of it ends in _partial or _violated, "proved" when all are
full statements, "not_applicable" when it has none."""
import glob, json, re, os
root = os.path.join(os.path.dirname(__file__), '..')
ids = [json.loads(l)['id'] for l in open(os.path.join(root, 'properties.jsonl'))]
notes = json.load(open(os.path.join(root, 'tools', 'notes.json')))
thms = {}
for f in sorted(glob.glob(os.path.join(root, 'lean/Verif/Props/*.lean'))):
    ns = []
    for line in open(f):
        m = re.match(r'namespace (\S+)', line)
        if m: ns.append(m.group(1))
        m = re.match(r'end (\S+)', line)
        if m and ns and ns[-1] == m.group(1): ns.pop()
        m = re.match(r'theorem (C(\d\d\d?)_\S+)', line)
        if m: thms.setdefault('C' + m.group(2), []).append('.'.join(ns + [m.group(1)]))
claims = []
for i in ids:
    t = thms.get(i, [])
    part = any(x.endswith('_partial') or x.endswith('_violated') for x in t)
    claims.append({'property': i, 'status': 'partial' if part else 'proved' if t else 'not_applicable',
                   'theorems': t, 'note': notes.get(i, '')})
json.dump({'claims': claims}, open(os.path.join(root, 'MANIFEST.json'), 'w'), indent=1)
print({s: sum(c['status'] == s for c in claims) for s in ('proved', 'partial', 'not_applicable')})
for i in thms:
    if i not in ids: print('no property', i)
for c in claims:
    if c['status'] != 'proved' and not c['note']: print('needs note', c['property'])
