#!/usr/bin/env python3
"""Writes AXIOMS.md: the axioms each theorem of MANIFEST.json depends on, as reported by Lean (after `lake build`)."""
import json, re, subprocess, collections
names = []
for c in json.load(open('/verif/MANIFEST.json'))['claims']:
    names += [n for n in c['theorems'] if n not in names]
src = 'import Verif\n' + ''.join(f'#print axioms {n}\n' for n in names)
open('/tmp/axioms.lean', 'w').write(src)
r = subprocess.run(['lake', 'env', 'lean', '/tmp/axioms.lean'], cwd='/verif/lean', capture_output=True, text=True)
txt = re.sub(r'\n\s+', ' ', r.stdout)
by = collections.defaultdict(list)
for l in txt.splitlines():
    m = re.match(r"'([^']+(?:'[^ ]*)?)' depends on axioms: \[(.*)\]", l)
    m2 = re.match(r"'([^ ]+)' does not depend on any axioms", l)
    if m: by[m.group(2)].append(m.group(1))
    elif m2: by['none'].append(m2.group(1))
    else: print('?', l)
out = ['# Axioms of the theorems', '', 'Generated by `tools/axioms.py` from `#print axioms` for every theorem of MANIFEST.json.', '']
for k in sorted(by, key=lambda k: (k != 'none', k)):
    out.append(f'## {k} ({len(by[k])})'); out.append(''); out.append(', '.join(f'`{n.removeprefix("PAN.")}`' for n in by[k])); out.append('')
open('/verif/AXIOMS.md', 'w').write('\n'.join(out))
print(len(names), sum(map(len, by.values())), {k: len(v) for k, v in by.items()})
