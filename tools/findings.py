#!/usr/bin/env python3
"""Writes FINDINGS.md: every theorem that refutes a property for the code as it is, with its comment."""
import glob, os, re
root = os.path.dirname(os.path.dirname(os.path.abspath(__file__)))
rows = []
for f in sorted(glob.glob(root + '/lean/Verif/Props/*.lean')):
    t = open(f).read()
    for m in re.finditer(r'/--((?:(?!-/).)*)-/\s*(?:set_option[^\n]*\n)?theorem (C\d+\w*_(?:counterexample|fails)\w*)', t, flags=re.S):
        rows.append((m.group(2), re.sub(r'\s+', ' ', m.group(1)).strip(), os.path.basename(f)))
    for m in re.finditer(r'^theorem (C\d+\w*_(?:counterexample|fails)\w*)', t, flags=re.M):
        if m.group(1) not in [r[0] for r in rows]: rows.append((m.group(1), '(no comment)', os.path.basename(f)))
rows.sort()
with open(root + '/FINDINGS.md', 'w') as o:
    o.write('# Properties the code does not have\n\nEach theorem refutes a property of `properties.jsonl`, or its unrestricted form, for the model of the code as it is.\n\n')
    for n, c, f in rows: o.write('* `%s` (%s): %s\n' % (n, f, c))
print(len(rows), [r[0] for r in rows if r[1].startswith('(no')])
