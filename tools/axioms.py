#!/usr/bin/env python3
"""Writes AXIOMS.md: the axioms each property theorem depends on, as printed by Lean (run after `lake build`)."""
import json, os, re, subprocess
root = os.path.dirname(os.path.dirname(os.path.abspath(__file__)))
names = []
for c in json.load(open(root + '/MANIFEST.json'))['claims']: names += [n for n in c['theorems']]
names = list(dict.fromkeys(names))
src = '/tmp/axioms_all.lean'
open(src, 'w').write('import Verif\n' + ''.join('#print axioms %s\n' % n for n in names))
out = subprocess.run(['lake', 'env', 'lean', src], cwd=root + '/lean', capture_output=True, text=True).stdout
found = {}
for m in re.finditer(r"'(\S+)' (?:depends on axioms: \[([^\]]*)\]|does not depend on any axioms)", out):
    found[m.group(1)] = re.sub(r'\s+', ' ', m.group(2) or 'none')
groups = {}
for n in names: groups.setdefault(found.get(n, '?'), []).append(n)
with open(root + '/AXIOMS.md', 'w') as f:
    f.write('# Axioms each property theorem depends on\n\nOutput of `#print axioms`, grouped (`python3 tools/axioms.py`).\n')
    for a in sorted(groups): f.write('\n## %s\n\n%s\n' % (a, '\n'.join('* `%s`' % n for n in groups[a])))
print({a: len(v) for a, v in groups.items()})
