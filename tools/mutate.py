#!/usr/bin/env python3
"""Applies one edit to a scratch copy of the model and lists the declarations that no longer compile.

usage: mutate.py spec.json   where spec is a list of
  {"file": "Model/X.lean", "def": "name", "old": "...", "new": "...", "claim": "...", "n": 0}
Prints one JSON line per mutant: failed declarations by module."""
import json, os, re, shutil, subprocess, sys
root = os.path.dirname(os.path.dirname(os.path.abspath(__file__)))
scratch = '/tmp/scratch'
base = '/tmp/scratch_base'
shutil.rmtree(base, ignore_errors=True)
subprocess.run(['cp', '-a', root + '/lean', base], check=True)
def sync():
    shutil.rmtree(scratch, ignore_errors=True)
    subprocess.run(['cp', '-a', base, scratch], check=True)
def enclosing(path, line):
    name = '?'
    for i, l in enumerate(open(path).read().split('\n'), 1):
        m = re.match(r'(?:@\[.*\] *)?(?:private )?(?:theorem|def|example|instance|abbrev|inductive|structure)\s*(\S*)', l)
        if m and i <= line: name = m.group(1) if not l.startswith('example') else 'example@%d' % i
    return name
home = {}
def graph():
    """Declarations by name with the identifiers they mention; `home` records the module and what it imports."""
    g = {}
    imports = {}
    for d, _, fs in os.walk(root + '/lean/Verif'):
        for f in fs:
            cur = None
            text = re.sub(r'/-.*?-/', lambda m: '\n' * m.group(0).count('\n'), open(d + '/' + f).read(), flags=re.S)
            mod = os.path.relpath(d + '/' + f, root + '/lean')[:-5].replace('/', '.')
            imports[mod] = set(re.findall(r'^import (Verif\S+)', text, flags=re.M))
            for i, l in enumerate(text.split('\n'), 1):
                m = re.match(r'(?:@\[.*\] *)?(?:private )?(theorem|def|example|instance|abbrev|inductive|structure)\s*(\S*)', l)
                if m:
                    cur = m.group(2) if m.group(1) != 'example' else f[:-5] + '.example@%d' % i
                    g.setdefault(cur, set())
                    home[cur] = mod
                if cur: g[cur] |= set(re.findall(r"[\w.']+", l))
    def closure(m):
        seen, todo = {m}, [m]
        while todo:
            for n in imports.get(todo.pop(), ()):
                if n not in seen: seen.add(n); todo.append(n)
        return seen
    closed = {m: closure(m) for m in imports}
    for c in home: home[c] = (home[c], closed[home[c]])
    return g
def users(g, names):
    """Property theorems that rest on one of the names."""
    bad = set(names)
    while True:
        # `h.step` is a use of `RInv.step` in a module that imports it
        tails = {}
        for b in bad:
            if '.' in b and 'example@' not in b and b in home: tails.setdefault(b.split('.')[-1], set()).add(home[b][0])
        def dotted(d, r):
            return any('.' in t and tails.get(t.split('.')[-1], set()) & home[d][1] for t in r)
        more = {d for d, r in g.items() if d not in bad and (r & bad or dotted(d, r))}
        if not more: break
        bad |= more
    return sorted(d for d in bad if re.match(r'C\d\d+_', d))
G = graph()
for s in json.load(open(sys.argv[1])):
    sync()
    p = scratch + '/Verif/' + s['file']
    t = open(p).read()
    if t.count(s['old']) < 1:
        print('NOT FOUND', s); continue
    parts = t.split(s['old'])
    k = s.get('n', 0)
    t = s['old'].join(parts[:k + 1]) + s['new'] + s['old'].join(parts[k + 1:])
    open(p, 'w').write(t)
    fails = []
    for attempt in range(4):
        # A failing example stops the modules behind it: drop it and build again.
        r = subprocess.run(['lake', 'build'], cwd=scratch, capture_output=True, text=True)
        drop = {}
        for m in re.finditer(r'error: (Verif/\S+\.lean):(\d+):', r.stdout + r.stderr):
            f = m.group(1)
            d = enclosing(scratch + '/' + f, int(m.group(2)))
            if (f, d) not in fails: fails.append((f, d))
            if d.startswith('example@'): drop.setdefault(f, set()).add(int(d[8:]))
        for f, ls in drop.items():
            lines = open(scratch + '/' + f).read().split('\n')
            for l in ls:
                i = l - 1
                while i < len(lines) and lines[i].strip(): lines[i] = '--' + lines[i]; i += 1
                j = l - 2
                while j >= 0 and lines[j].strip(): lines[j] = '--' + lines[j]; j -= 1
            open(scratch + '/' + f, 'w').write('\n'.join(lines))
        if not drop or any(not d.startswith('example@') for _, d in fails): break
    print(json.dumps({'definition': s['def'], 'edit': s.get('edit') or (s['old'] + ' -> ' + s['new']), 'claim': s['claim'], 'theorems_failed': users(G, [b for a, b in fails]), 'failed_declarations': [a[6:-5].split('/')[-1] + '.' + b for a, b in fails]}), flush=True)
